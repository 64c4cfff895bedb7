import Mathlib.Data.Set.Card
import Mathlib.Data.BitVec
import Mathlib.Data.Int.CardIntervalMod
import Mathlib.Logic.Function.Iterate
/-
Counting along a cycle.
-/
namespace Verif.Cycle

/-- On a cycle of length `N` the positions with a property are as many as the states with it. -/
theorem count_cycle {α : Type*} (f : α → α) (A : α → Prop) (N : Nat) (hper : ∀ s, A s → ∀ k, f^[k] s = s ↔ N ∣ k)
    (hreach : ∀ s t, A s → A t → ∃ k < N, f^[k] s = t) (hA : ∀ s, A s → A (f s)) (s : α) (hs : A s) (m : Nat) (P : α → Prop) :
    { n | n < N ∧ P (f^[m + n] s) }.ncard = { t | A t ∧ P t }.ncard := by
  have hAk : ∀ k, A (f^[k] s) := by
    intro k
    induction k with
    | zero => exact hs
    | succ k ih => rw [Function.iterate_succ_apply']; exact hA _ ih
  have aux : ∀ i j : Nat, i ≤ j → j < N → f^[m + i] s = f^[m + j] s → i = j := by
    intro i j hij hj h
    have h2 : f^[j - i] (f^[m + i] s) = f^[m + i] s := by
      rw [← Function.iterate_add_apply, show j - i + (m + i) = m + j by omega, h]
    have := Nat.eq_zero_of_dvd_of_lt ((hper _ (hAk _) _).1 h2) (by omega)
    omega
  refine Set.ncard_congr (fun n _ => f^[m + n] s) (fun n hn => ⟨hAk _, hn.2⟩) (fun i j hi hj h => ?_) (fun t ht => ?_)
  · rcases Nat.le_total i j with h1 | h1
    · exact aux i j h1 hj.1 h
    · exact (aux j i h1 hi.1 h.symm).symm
  · obtain ⟨k, hk, h⟩ := hreach (f^[m] s) t (hAk m) ht.1
    rw [← Function.iterate_add_apply, Nat.add_comm] at h
    exact ⟨k, ⟨hk, by rw [h]; exact ht.2⟩, h⟩

theorem card_bitVec (w : Nat) : Nat.card (BitVec w) = 2 ^ w := by
  rw [Nat.card_congr (BitVec.equivFin (m := w)).toEquiv, Nat.card_fin]

instance (w : Nat) : Finite (BitVec w) := Finite.of_equiv _ (BitVec.equivFin (m := w)).toEquiv.symm

/-- a function all of whose fibres are `γ` -/
theorem fibre {α β γ : Type*} (e : α ≃ γ × β) (S : β → Prop) :
    { a | S (e a).2 }.ncard = Nat.card γ * { b | S b }.ncard := by
  have h : { a | S (e a).2 } = e ⁻¹' (Set.univ ×ˢ { b | S b }) := by
    ext a
    simp
  rw [h, Set.ncard_preimage_of_injective_subset_range e.injective (by rw [e.range_eq_univ]; exact Set.subset_univ _),
    Set.ncard_prod, Set.ncard_univ]

/-- all but one element -/
theorem but_one {α : Type*} [Finite α] (z : α) (P : α → Prop) [Decidable (P z)] :
    { t | t ≠ z ∧ P t }.ncard + (if P z then 1 else 0) = { t | P t }.ncard := by
  by_cases h : P z
  · rw [if_pos h]
    have e : { t | t ≠ z ∧ P t } = { t | P t } \ {z} := by
      ext t
      simp [and_comm]
    rw [e]
    exact Set.ncard_diff_singleton_add_one (s := { t | P t }) h
  · rw [if_neg h, Nat.add_zero]
    congr 1
    ext t
    exact ⟨fun h' => h'.2, fun h' => ⟨fun hz => h (hz ▸ h'), h'⟩⟩

theorem ncard_toNat (w : Nat) (P : Nat → Prop) [DecidablePred P] :
    { y : BitVec w | P y.toNat }.ncard = Nat.count P (2 ^ w) := by
  rw [Nat.count_eq_card_filter_range, ← Set.ncard_coe_finset]
  refine Set.ncard_congr (fun y _ => y.toNat) (fun y hy => ?_) (fun a b _ _ h => BitVec.eq_of_toNat_eq h) (fun n hn => ?_)
  · simp only [Finset.coe_filter, Finset.mem_range, Set.mem_ofPred_eq]
    exact ⟨y.isLt, hy⟩
  · simp only [Finset.coe_filter, Finset.mem_range, Set.mem_ofPred_eq] at hn
    refine ⟨BitVec.ofNat w n, ?_, ?_⟩
    · simp only [Set.mem_ofPred_eq, BitVec.toNat_ofNat, Nat.mod_eq_of_lt hn.1]; exact hn.2
    · simp only [BitVec.toNat_ofNat, Nat.mod_eq_of_lt hn.1]

/-- numbers of `w` bits with a given remainder -/
theorem ncard_mod (w m v : Nat) (hv : v < m) :
    { y : BitVec w | y.toNat % m = v }.ncard = 2 ^ w / m + if v < 2 ^ w % m then 1 else 0 := by
  have h := Nat.count_modEq_card (2 ^ w) (by omega : 0 < m) v
  rw [Nat.mod_eq_of_lt hv] at h
  rw [← h, ← ncard_toNat w (fun y => y ≡ v [MOD m])]
  congr 1
  ext y
  simp only [Set.mem_ofPred_eq, Nat.ModEq, Nat.mod_eq_of_lt hv]

/-- low and high part -/
def halves (a b : Nat) : BitVec (b + a) ≃ BitVec a × BitVec b where
  toFun x := (x.setWidth a, (x >>> a).setWidth b)
  invFun p := p.2 ++ p.1
  left_inv x := by
    apply BitVec.eq_of_getLsbD_eq
    intro i hi
    simp only [BitVec.getLsbD_append, BitVec.getLsbD_setWidth, BitVec.getLsbD_ushiftRight]
    by_cases h : i < a
    · simp [h]
    · simp [h, show i - a < b by omega, show a + (i - a) = i by omega]
  right_inv p := by
    refine Prod.ext ?_ ?_
    · apply BitVec.eq_of_getLsbD_eq
      intro i hi
      simp [BitVec.getLsbD_append, hi]
    · apply BitVec.eq_of_getLsbD_eq
      intro i hi
      simp [BitVec.getLsbD_append, hi]

end Verif.Cycle
