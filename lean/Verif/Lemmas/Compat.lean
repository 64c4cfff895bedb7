import Verif.Model.Compat
import Mathlib.Data.Int.GCD
import Mathlib.Tactic.Ring
import Mathlib.Tactic.Linarith
/-
Helper lemmas about the modelled extended gcd.
-/
namespace Verif.Compat

/-- Bézout identity -/
theorem extendedGcd_bezout (a b : Int) :
    (extendedGcd a b).1 = a * (extendedGcd a b).2.1 + b * (extendedGcd a b).2.2 := by
  fun_induction extendedGcd a b with
  | case1 b => simp
  | case2 a b h r ih =>
    simp only [r] at ih ⊢
    have hd := Int.fmod_add_mul_fdiv b a
    rw [ih]
    generalize (extendedGcd (b.fmod a) a).2.1 = u
    generalize (extendedGcd (b.fmod a) a).2.2 = v
    generalize b.fdiv a = q at hd ⊢
    generalize b.fmod a = m at hd ⊢
    rw [← hd]; ring

/-- on non-negative inputs the first component is the gcd -/
theorem extendedGcd_gcd (a b : Int) (ha : 0 ≤ a) (hb : 0 ≤ b) :
    (extendedGcd a b).1 = (Int.gcd a b : Int) := by
  fun_induction extendedGcd a b with
  | case1 b => simp [abs_of_nonneg hb]
  | case2 a b h r ih =>
    have hm : b.fmod a = b % a := Int.fmod_eq_emod_of_nonneg b ha
    have h1 : 0 ≤ b.fmod a := by rw [hm]; exact Int.emod_nonneg _ h
    have := ih h1 ha
    simp only [r]
    rw [this, hm]
    rw [show Int.gcd (b % a) a = Int.gcd a b by
      rw [Int.gcd_comm, ← Int.gcd_add_mul_left_right a (b % a) (b / a), Int.emod_add_mul_ediv]]

end Verif.Compat
