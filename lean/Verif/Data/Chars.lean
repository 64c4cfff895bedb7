import Lean.Elab.Term
import Lean.ToExpr
/-
Character lists written as strings.
-/
namespace Verif.Data

open Lean Elab Term in
/-- `c!"abc"` is the term `['a', 'b', 'c']` (the kernel computes much faster with it than with `"abc".toList`). -/
elab:max "c!" s:str : term => return toExpr s.getString.toList

example : c!"Farfetch’d" = "Farfetch’d".toList := rfl

end Verif.Data
