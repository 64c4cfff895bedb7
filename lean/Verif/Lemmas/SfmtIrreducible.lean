import Verif.Lemmas.SfmtSeedSound
import Verif.Lemmas.SfmtWords
import Mathlib.FieldTheory.Finite.Basic
import Mathlib.RingTheory.AdjoinRoot
import Mathlib.RingTheory.Polynomial.UniqueFactorization
/-
The four factors of the polynomial of SFMT19937 are irreducible.
-/
namespace Verif.SfmtPeriod
open Verif.Gf2 Verif.Data.SfmtPoly Verif.Data.SfmtFull Verif.Spec Verif.MtPeriod Polynomial Finset

/-- A polynomial of degree at most `n` whose root has order `2 ^ n - 1` is irreducible. -/
theorem irreducible_of (q : (ZMod 2)[X]) (n o : Nat) (ho : o + 1 = 2 ^ n) (h0 : q ≠ 0) (hu : ¬ IsUnit q) (hn : q.natDegree ≤ n)
    (hd : q ∣ X ^ o - 1) (l : List Nat) (hl : ∀ g, g ∣ o → g ≠ o → ∃ e ∈ l, g ∣ e) (hc : ∀ e ∈ l, IsCoprime q (X ^ e - 1)) :
    Irreducible q := by
  obtain ⟨g, hg, hgq⟩ := WfDvdMonoid.exists_irreducible_factor hu h0
  have : Fact (Irreducible g) := ⟨hg⟩
  have hfin : Module.Finite (ZMod 2) (AdjoinRoot g) := (AdjoinRoot.powerBasis hg.ne_zero).finite
  have : Finite (AdjoinRoot g) := Module.finite_of_finite (ZMod 2)
  have : Fintype (AdjoinRoot g) := Fintype.ofFinite _
  have hroot : ∀ p : (ZMod 2)[X], g ∣ p → aeval (AdjoinRoot.root g) p = 0 := by
    intro p hp
    rw [AdjoinRoot.aeval_eq, AdjoinRoot.mk_eq_zero]
    exact hp
  have hone : AdjoinRoot.root g ^ o = 1 := by
    have := hroot _ (hgq.trans hd)
    rwa [map_sub, map_pow, aeval_X, map_one, sub_eq_zero] at this
  have hpos : 0 < o := by
    rcases Nat.eq_zero_or_pos o with h | h
    · exfalso
      rw [h, Nat.zero_add, eq_comm, Nat.pow_eq_one] at ho
      rcases ho with ho | ho
      · omega
      · subst ho
        exact hu ((isUnit_iff_degree_eq_zero).mpr (by
          rw [degree_eq_natDegree h0, Nat.le_zero.mp hn]; rfl))
    · exact h
  have hord : orderOf (AdjoinRoot.root g) = o := by
    by_contra hne
    obtain ⟨e, he, hde⟩ := hl _ (orderOf_dvd_of_pow_eq_one hone) hne
    obtain ⟨a, b, hab⟩ := hc e he
    have h1 := hroot q hgq
    have h2 : aeval (AdjoinRoot.root g) (X ^ e - 1 : (ZMod 2)[X]) = 0 := by
      rw [map_sub, map_pow, aeval_X, map_one, orderOf_dvd_iff_pow_eq_one.mp hde, sub_self]
    have h3 := congrArg (aeval (AdjoinRoot.root g)) hab
    rw [map_add, map_mul, map_mul, h1, h2, mul_zero, mul_zero, add_zero, map_one] at h3
    exact one_ne_zero h3.symm
  have hcard : Fintype.card (AdjoinRoot g) = 2 ^ g.natDegree := by
    rw [Module.card_eq_pow_finrank (K := ZMod 2), ZMod.card, (AdjoinRoot.powerBasis hg.ne_zero).finrank, AdjoinRoot.powerBasis_dim]
  have hz : AdjoinRoot.root g ≠ 0 := by
    intro h
    rw [h, zero_pow hpos.ne'] at hone
    exact zero_ne_one hone
  have hle : o ∣ Fintype.card (AdjoinRoot g) - 1 := by
    rw [← hord]
    exact orderOf_dvd_of_pow_eq_one (FiniteField.pow_card_sub_one_eq_one _ hz)
  have hgt : 1 < Fintype.card (AdjoinRoot g) := Fintype.one_lt_card
  have hle := Nat.le_of_dvd (by omega) hle
  have hle : 2 ^ n ≤ 2 ^ g.natDegree := by rw [← ho, ← hcard]; omega
  have hle := (Nat.pow_le_pow_iff_right (by decide : 1 < 2)).mp hle
  have has : Associated g q := by
    refine associated_of_dvd_of_natDegree_le hgq h0 (hn.trans hle)
  exact has.irreducible hg

/-! ### degrees -/

theorem natDegree_pv_lt (m w : Nat) (h : w < 65536 ^ m) : (pv X w : (ZMod 2)[X]).degree < m := by
  induction m generalizing w with
  | zero =>
    obtain rfl : w = 0 := by simpa using h
    rw [pv_zero, degree_zero]
    exact WithBot.bot_lt_coe _
  | succ m ih =>
    rw [pv_step]
    refine (degree_add_le _ _).trans_lt (max_lt ?_ ?_)
    · rw [bit]
      split_ifs
      · rw [degree_one]; exact_mod_cast Nat.succ_pos m
      · rw [degree_zero]; exact WithBot.bot_lt_coe _
    · have h1 := ih (w / 65536) (Nat.div_lt_of_lt_mul (by rw [← Nat.pow_succ']; exact h))
      rw [mul_comm]
      by_cases hz : (pv X (w / 65536) : (ZMod 2)[X]) = 0
      · rw [hz, zero_mul, degree_zero]; exact WithBot.bot_lt_coe _
      · rw [degree_mul, degree_X, degree_eq_natDegree hz]
        rw [degree_eq_natDegree hz] at h1
        exact_mod_cast Nat.succ_lt_succ (by exact_mod_cast h1)

theorem monic_pv (m w : Nat) (h : monicOf w m = true) :
    (pv X w : (ZMod 2)[X]).natDegree = m ∧ (pv X w : (ZMod 2)[X]).Monic := by
  have h := Nat.eq_of_beq_eq_true h
  change w >>> (16 * m) = 1 at h
  rw [Nat.shiftRight_eq_div_pow, pow_mul, show 2 ^ 16 = 65536 by norm_num] at h
  rw [pv_split X m w, h, pv_one, mul_one, add_comm]
  have hlt := natDegree_pv_lt m (w % 65536 ^ m) (Nat.mod_lt _ (Nat.pow_pos (by omega)))
  have hlt' : (pv X (w % 65536 ^ m) : (ZMod 2)[X]).degree < (X ^ m : (ZMod 2)[X]).degree := by rw [degree_X_pow]; exact hlt
  exact ⟨by rw [natDegree_add_eq_left_of_degree_lt hlt', natDegree_X_pow], (monic_X_pow m).add_of_left hlt'⟩

theorem degree_0 : q0.natDegree = 19937 ∧ q0.Monic := by
  have h := degrees
  simp only [Bool.and_eq_true] at h
  rw [q0]
  exact monic_pv 19937 (spread phi) h.1.1.1
theorem degree_3 : q3.natDegree = 3 ∧ q3.Monic := by
  have h := degrees
  simp only [Bool.and_eq_true] at h
  rw [q3]
  exact monic_pv 3 (spread 11) h.1.1.2
theorem degree_13 : q13.natDegree = 13 ∧ q13.Monic := by
  have h := degrees
  simp only [Bool.and_eq_true] at h
  rw [q13]
  exact monic_pv 13 (spread 10571) h.1.2
theorem degree_15 : q15.natDegree = 15 ∧ q15.Monic := by
  have h := degrees
  simp only [Bool.and_eq_true] at h
  rw [q15]
  exact monic_pv 15 (spread 33827) h.2

theorem not_unit {q : (ZMod 2)[X]} {n : Nat} (h : q.natDegree = n) (hn : n ≠ 0) : ¬ IsUnit q := fun hu =>
  hn (h.symm.trans (natDegree_eq_zero_of_isUnit hu))

theorem irreducible_3 : Irreducible q3 := by
  refine irreducible_of q3 3 7 (by norm_num) degree_3.2.ne_zero (not_unit degree_3.1 (by omega)) degree_3.1.le dvd_3 [1] divisors_7 fun e he => ?_
  rw [List.mem_singleton] at he; subst he; exact least_3
theorem irreducible_13 : Irreducible q13 := by
  refine irreducible_of q13 13 8191 (by norm_num) degree_13.2.ne_zero (not_unit degree_13.1 (by omega)) degree_13.1.le dvd_13 [1] divisors_8191 fun e he => ?_
  rw [List.mem_singleton] at he; subst he; exact least_13
theorem irreducible_15 : Irreducible q15 := by
  refine irreducible_of q15 15 32767 (by norm_num) degree_15.2.ne_zero (not_unit degree_15.1 (by omega)) degree_15.1.le dvd_15 [4681, 1057, 217]
    divisors_32767 fun e he => ?_
  simp only [List.mem_cons, List.not_mem_nil, or_false] at he
  rcases he with rfl | rfl | rfl
  · exact least_15a
  · exact least_15b
  · exact least_15c

/-- a polynomial with such values is coprime to `X - 1` -/
theorem least_of (q : (ZMod 2)[X]) (h : ∃ k, q = (X + 1) * k + 1) : IsCoprime q (X ^ 1 - 1) := by
  obtain ⟨k, hk⟩ := h
  refine ⟨1, -k, ?_⟩
  rw [hk, pow_one, show (X - 1 : (ZMod 2)[X]) = X + 1 by rw [sub_eq_add_neg, CharTwo.neg_eq]]
  ring

theorem irreducible_0 (N : Nat) (hN : N + 1 = 2 ^ 19937) (hp : N.Prime) : Irreducible q0 := by
  have hd := dvd_0 N hN
  refine irreducible_of q0 19937 N hN degree_0.2.ne_zero (not_unit degree_0.1 (by omega)) degree_0.1.le hd [1] ?_ fun e he => ?_
  · intro g hg hn
    rcases hp.eq_one_or_self_of_dvd g hg with h | h
    · exact ⟨1, by simp, by rw [h]⟩
    · exact absurd h hn
  · rw [List.mem_singleton] at he; subst he; exact least_of q0 values_0.2

theorem degree_full : (pv X (spread full) : (ZMod 2)[X]).natDegree = 19968 ∧ (pv X (spread full) : (ZMod 2)[X]).Monic := by
  rw [factors]
  obtain ⟨a0, b0⟩ := degree_0
  obtain ⟨a3, b3⟩ := degree_3
  obtain ⟨a13, b13⟩ := degree_13
  obtain ⟨a15, b15⟩ := degree_15
  generalize q0 = q0 at *
  refine ⟨?_, b0.mul (b3.mul (b13.mul b15))⟩
  rw [b0.natDegree_mul (b3.mul (b13.mul b15)), b3.natDegree_mul (b13.mul b15), b13.natDegree_mul b15, a0, a3, a13, a15]

end Verif.SfmtPeriod
