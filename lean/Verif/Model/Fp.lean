import Mathlib.Data.Int.Log
import Mathlib.Data.Rat.Floor
/-
IEEE-754 arithmetic used by the code (`np.float32`: 24-bit significand, Python/numba `float`: 53-bit significand),
modelled on rationals: every operation is the exact rational operation followed by `rnd p`, rounding to nearest, ties to
even, with `p` significant bits.

Simplification: the exponent range is unbounded, i.e. overflow to infinity, subnormal numbers, NaN and the sign of
zero are not modelled.
-/
namespace Verif.Fp

/-- nearest integer, ties to even -/
def rne (x : ℚ) : ℤ :=
  if x - ⌊x⌋ < 1 / 2 then ⌊x⌋
  else if 1 / 2 < x - ⌊x⌋ then ⌊x⌋ + 1
  else if ⌊x⌋ % 2 = 0 then ⌊x⌋ else ⌊x⌋ + 1

/-- exponent of the unit in the last place of `x` with `p` significant bits -/
def ulpExp (p : ℕ) (x : ℚ) : ℤ := Int.log 2 |x| - (p - 1)

/-- round to `p` significant bits -/
def rnd (p : ℕ) (x : ℚ) : ℚ := if x = 0 then 0 else rne (x / 2 ^ ulpExp p x) * 2 ^ ulpExp p x

/-- representable with `p` significant bits -/
def IsFp (p : ℕ) (x : ℚ) : Prop := ∃ (m : ℤ) (e : ℤ), |m| ≤ 2 ^ p ∧ x = m * 2 ^ e

end Verif.Fp
