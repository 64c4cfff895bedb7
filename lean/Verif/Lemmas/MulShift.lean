import Verif.Model.Lcrng
import Mathlib.Data.Finset.Card
import Mathlib.Order.Interval.Finset.Nat
import Mathlib.Tactic.Ring
import Mathlib.Tactic.Linarith
/-
Helper lemmas about the multiplication-shift distribution.
-/
namespace Verif.Lcrng

theorem mulShift_toNat (u m : BitVec 32) : (mulShift u m).toNat = u.toNat * m.toNat / 2 ^ 32 := by
  have hu := u.isLt
  have hm := m.isLt
  have h1 : u.toNat * m.toNat < 2 ^ 64 := by
    calc u.toNat * m.toNat < 2 ^ 32 * 2 ^ 32 := Nat.mul_lt_mul'' hu hm
      _ = 2 ^ 64 := by norm_num
  have h2 : u.toNat * m.toNat / 2 ^ 32 < 2 ^ 32 := by
    rw [Nat.div_lt_iff_lt_mul (by norm_num)]
    calc _ < 2 ^ 64 := h1
      _ = _ := by norm_num
  simp only [mulShift, BitVec.toNat_setWidth, BitVec.toNat_ushiftRight, BitVec.toNat_mul, Nat.shiftRight_eq_div_pow]
  rw [Nat.mod_eq_of_lt (show u.toNat < 2 ^ 64 by omega), Nat.mod_eq_of_lt (show m.toNat < 2 ^ 64 by omega),
    Nat.mod_eq_of_lt h1, Nat.mod_eq_of_lt h2]

/-- ceiling division -/
def cdiv (a m : Nat) : Nat := (a + m - 1) / m

theorem cdiv_le_iff (a m u : Nat) (hm : 0 < m) : cdiv a m ≤ u ↔ a ≤ u * m := by
  unfold cdiv
  rw [← Nat.lt_succ_iff, Nat.div_lt_iff_lt_mul hm, Nat.succ_mul]; omega

theorem filter_mul_div (N m v : Nat) (hN : 0 < N) (hm : 0 < m) (hv : v < m) :
    (Finset.range N).filter (fun u => u * m / N = v) = Finset.Ico (cdiv (v * N) m) (cdiv ((v + 1) * N) m) := by
  ext u
  simp only [Finset.mem_filter, Finset.mem_range, Finset.mem_Ico]
  rw [cdiv_le_iff _ _ _ hm, ← not_le, ← not_le, cdiv_le_iff _ _ _ hm]
  rw [Nat.div_eq_iff (by omega)]
  constructor
  · rintro ⟨_, h1, h2⟩
    refine ⟨h1, ?_⟩
    rw [Nat.add_mul, Nat.one_mul]; omega
  · rintro ⟨h1, h2⟩
    rw [Nat.add_mul, Nat.one_mul] at h2
    refine ⟨?_, h1, by omega⟩
    intro hc
    have h3 : N * m ≤ u * m := Nat.mul_le_mul_right _ hc
    have h4 : (v + 1) * N ≤ m * N := Nat.mul_le_mul_right _ hv
    rw [Nat.add_mul, Nat.one_mul, Nat.mul_comm m N] at h4
    omega

theorem card_mul_div (N m v : Nat) (hN : 0 < N) (hm : 0 < m) (hv : v < m) :
    N / m ≤ ((Finset.range N).filter (fun u => u * m / N = v)).card ∧
    ((Finset.range N).filter (fun u => u * m / N = v)).card ≤ cdiv N m := by
  rw [filter_mul_div N m v hN hm hv, Nat.card_Ico]
  have a1 := (cdiv_le_iff (v * N) m _ hm).1 le_rfl
  have a2 := (cdiv_le_iff ((v + 1) * N) m _ hm).1 le_rfl
  have a3 := (cdiv_le_iff N m _ hm).1 le_rfl
  have a4 := Nat.div_mul_le_self N m
  constructor
  · rw [Nat.le_sub_iff_add_le' (by
      rw [cdiv_le_iff _ _ _ hm]; exact le_trans (Nat.mul_le_mul_right _ (by omega)) a2)]
    -- cdiv (vN) + N/m ≤ cdiv ((v+1)N)
    by_contra hc
    rw [not_le] at hc
    have : cdiv (v * N) m ≤ cdiv ((v + 1) * N) m - N / m := by
      rw [cdiv_le_iff _ _ _ hm, Nat.sub_mul]
      have e : (v + 1) * N = v * N + N := by ring
      have a5 : v * N + N ≤ cdiv ((v + 1) * N) m * m := by rw [← e]; exact a2
      generalize cdiv ((v + 1) * N) m * m = X at a5 ⊢
      omega
    have h0 : N / m ≤ cdiv ((v + 1) * N) m := by
      have : N ≤ cdiv ((v + 1) * N) m * m := le_trans (by rw [Nat.add_mul, Nat.one_mul]; omega) a2
      exact Nat.div_le_of_le_mul (by rwa [Nat.mul_comm])
    omega
  · rw [Nat.sub_le_iff_le_add, cdiv_le_iff _ _ _ hm, Nat.add_mul, Nat.add_mul, Nat.one_mul]
    omega

end Verif.Lcrng
