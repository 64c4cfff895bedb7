import Mathlib.Algebra.Order.Field.Rat
/-
IEEE 754 binary32.
-/
namespace Verif

/-- the value of a finite 32-bit float -/
def f32Value (x : BitVec 32) : Option ℚ :=
  let s : ℚ := if x.toNat < 2 ^ 31 then 1 else -1
  let e : ℕ := x.toNat / 2 ^ 23 % 2 ^ 8
  let m : ℕ := x.toNat % 2 ^ 23
  if e = 255 then none
  else if e = 0 then some (s * (m : ℚ) / 2 ^ 149)
  else some (s * ((2 ^ 23 + m : ℕ) : ℚ) * 2 ^ e / 2 ^ 150)

end Verif
