import Lean.Elab.Term
import Lean.ToExpr
/-
Lists of code points written as strings.
-/
namespace Verif.Data

open Lean Elab Term in
/-- `n!"abc"` is the term `[97, 98, 99]` -/
elab:max "n!" s:str : term => return toExpr (s.getString.toList.map Char.toNat)

example : n!"Farfetch’d" = "Farfetch’d".toList.map Char.toNat := rfl

end Verif.Data
