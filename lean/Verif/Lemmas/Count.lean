import Verif.Lemmas.Gen3
import Verif.Props.Lcrng
import Mathlib.Data.Nat.Count
import Mathlib.Algebra.BigOperators.Ring.Finset
import Mathlib.Algebra.BigOperators.Intervals
/-
Counting over all 32-bit numbers.
-/
namespace Verif.Count
open Spec Spec.Gen3
open Finset (range)

/-- how many 32-bit numbers have the property -/
def howMany (p : BitVec 32 → Prop) [DecidablePred p] : Nat := Nat.count (fun n => p (BitVec.ofNat 32 n)) (2 ^ 32)

/-- a count as a sum -/
theorem count_eq_sum (p : Nat → Prop) [DecidablePred p] (n : Nat) : Nat.count p n = ∑ k ∈ range n, if p k then 1 else 0 := by
  rw [Nat.count_eq_card_filter_range, Finset.card_filter]

theorem sum_split (f : Nat → Nat) (a b : Nat) : ∑ n ∈ range (a * b), f n = ∑ i ∈ range a, ∑ j ∈ range b, f (i * b + j) := by
  induction a with
  | zero => simp
  | succ a ih => rw [Nat.succ_mul, Finset.sum_range_add, ih, Finset.sum_range_succ]

theorem sum_low (f : Nat → Nat) (a b : Nat) : ∑ n ∈ range (a * b), f (n % b) = a * ∑ j ∈ range b, f j := by
  rw [sum_split]
  have : ∀ i ∈ range a, ∑ j ∈ range b, f ((i * b + j) % b) = ∑ j ∈ range b, f j := by
    intro i _
    apply Finset.sum_congr rfl
    intro j hj
    rw [Nat.mul_add_mod_self_right, Nat.mod_eq_of_lt (Finset.mem_range.mp hj)]
  rw [Finset.sum_congr rfl this, Finset.sum_const, Finset.card_range, Nat.nsmul_eq_mul]

theorem sum_high (f : Nat → Nat) (a b : Nat) : ∑ n ∈ range (a * b), f (n / b) = b * ∑ i ∈ range a, f i := by
  rw [sum_split, Finset.mul_sum]
  apply Finset.sum_congr rfl
  intro i _
  have : ∀ j ∈ range b, f ((i * b + j) / b) = f i := by
    intro j hj
    have hj := Finset.mem_range.mp hj
    rw [Nat.mul_comm, Nat.mul_add_div (by omega), Nat.div_eq_of_lt hj, Nat.add_zero]
  rw [Finset.sum_congr rfl this, Finset.sum_const, Finset.card_range, Nat.nsmul_eq_mul]

/-- A permutation does not change a count. -/
theorem howMany_perm (p : BitVec 32 → Prop) [DecidablePred p] (f : BitVec 32 → BitVec 32) (hf : Function.Injective f) :
    howMany (fun x => p (f x)) = howMany p := by
  unfold howMany
  rw [count_eq_sum, count_eq_sum]
  set g : Nat → Nat := fun n => (f (BitVec.ofNat 32 n)).toNat with hg
  have hinj : ∀ x ∈ range (2 ^ 32), ∀ y ∈ range (2 ^ 32), g x = g y → x = y := by
    intro x hx y hy h
    have h := hf (BitVec.eq_of_toNat_eq h)
    have := congrArg BitVec.toNat h
    rw [BitVec.toNat_ofNat, BitVec.toNat_ofNat, Nat.mod_eq_of_lt (Finset.mem_range.mp hx),
      Nat.mod_eq_of_lt (Finset.mem_range.mp hy)] at this
    exact this
  have himg : (range (2 ^ 32)).image g = range (2 ^ 32) := by
    apply Finset.eq_of_subset_of_card_le
    · intro x hx
      obtain ⟨n, -, rfl⟩ := Finset.mem_image.mp hx
      exact Finset.mem_range.mpr (f (BitVec.ofNat 32 n)).isLt
    · rw [Finset.card_image_of_injOn (by intro x hx y hy h; exact hinj x (by simpa using hx) y (by simpa using hy) h)]
  conv_rhs => rw [← himg]
  rw [Finset.sum_image hinj]
  apply Finset.sum_congr rfl
  intro n _
  simp only [hg, BitVec.ofNat_toNat, BitVec.setWidth_eq]

theorem after_injective (n : Nat) : Function.Injective (after n) := by
  obtain ⟨q, -, h, -⟩ := Lcrng.C04_reverse_next (w := 32) 0x6073 0x41C64E6D (by decide)
  exact Function.Injective.iterate (Function.LeftInverse.injective h) n

/-- Over all seeds, a property of the `n`-th 16-bit output holds `2^16` times as often as over all 16-bit values. -/
theorem howMany_out (p : Nat → Prop) [DecidablePred p] (n : Nat) :
    howMany (fun seed => p (out n seed)) = 2 ^ 16 * Nat.count p (2 ^ 16) := by
  have := howMany_perm (fun x => p (x.toNat / 65536)) (after n) (after_injective n)
  show howMany (fun seed => p ((after n seed).toNat / 65536)) = _
  rw [this]
  unfold howMany
  rw [count_eq_sum, count_eq_sum, show (2 : Nat) ^ 32 = 2 ^ 16 * 2 ^ 16 by norm_num, ← sum_high]
  apply Finset.sum_congr rfl
  intro k hk
  have hk := Finset.mem_range.mp hk
  show (if p ((BitVec.ofNat 32 k).toNat / 2 ^ 16) then 1 else 0) = _
  rw [BitVec.toNat_ofNat, Nat.mod_eq_of_lt (by omega)]

/-- A property of the remainder modulo 100, over all 16-bit values. -/
theorem count_mod100 (p : Nat → Prop) [DecidablePred p] :
    Nat.count (fun w => p (w % 100)) (2 ^ 16) = 655 * Nat.count p 100 + Nat.count p 36 := by
  rw [count_eq_sum, count_eq_sum, count_eq_sum, show (2 : Nat) ^ 16 = 655 * 100 + 36 by norm_num, Finset.sum_range_add,
    sum_low (fun r => if p r then 1 else 0)]
  congr 1

end Verif.Count
