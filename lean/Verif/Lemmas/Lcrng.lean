import Verif.Model.Lcrng
import Verif.Spec.Lcrng
import Mathlib.Tactic.Ring
import Mathlib.Data.Fintype.Card
import Mathlib.Data.Fintype.EquivFin
import Mathlib.Data.Int.GCD
/-
Helper lemmas for the LCRNG properties.
-/
namespace Verif.Lcrng
open Verif.Spec

/-! ### affine maps -/

/-- the table entry `e` describes `n` steps of `p` -/
def Reps (p : Params w) (e : BitVec w × BitVec w) (n : Nat) : Prop :=
  ∀ x, x * e.2 + e.1 = (next p)^[n] x

theorem reps_one (p : Params w) : Reps p (p.add, p.mult) 1 := by
  intro x; rfl

theorem reps_step {p : Params w} {e} {n} (h : Reps p e n) : Reps p (tableStep e) (2 * n) := by
  intro x
  rw [two_mul, Function.iterate_add_apply, ← h, ← h]
  simp only [tableStep]; ring

theorem tableLoop_length (p : Params w) : ∀ k, (tableLoop p k).length = k + 1
  | 0 => rfl
  | k + 1 => by simp [tableLoop, tableLoop_length p k]

theorem tableLoop_get (p : Params w) : ∀ k i, i ≤ k →
    ∃ e, (tableLoop p k)[i]? = some e ∧ e = (tableStep)^[i] (p.add, p.mult)
  | 0, i, h => by
    have : i = 0 := by omega
    subst this; exact ⟨_, rfl, rfl⟩
  | k + 1, i, h => by
    rcases Nat.lt_or_ge i (k + 1) with h' | h'
    · obtain ⟨e, he, hr⟩ := tableLoop_get p k i (by omega)
      refine ⟨e, ?_, hr⟩
      simp only [tableLoop]
      rw [List.getElem?_append_left (by rw [tableLoop_length]; omega), he]
    · have hi : i = k + 1 := by omega
      subst hi
      obtain ⟨e, he, hr⟩ := tableLoop_get p k k le_rfl
      refine ⟨tableStep e, ?_, ?_⟩
      · simp only [tableLoop]
        rw [List.getElem?_append_right (by rw [tableLoop_length]), tableLoop_length]
        simp [List.getD, he]
      · rw [Function.iterate_succ_apply', hr]

theorem reps_iterate (p : Params w) : ∀ i, Reps p ((tableStep)^[i] (p.add, p.mult)) (2 ^ i)
  | 0 => reps_one p
  | i + 1 => by
    rw [Function.iterate_succ_apply', pow_succ, mul_comm]
    exact reps_step (reps_iterate p i)

theorem jumpTable_get (p : Params w) (i : Nat) (h : i < w) :
    ∃ e, (jumpTable p)[i]? = some e ∧ Reps p e (2 ^ i) := by
  obtain ⟨e, he, hr⟩ := tableLoop_get p (w - 1) i (by omega)
  exact ⟨e, he, hr ▸ reps_iterate p i⟩

theorem jumpTable_length (p : Params w) (h : 0 < w) : (jumpTable p).length = w := by
  simp only [jumpTable, tableLoop_length]; omega

/-! ### the jump loops -/

theorem jumpLoop_ok (p : Params w) (tbl) (L : Nat)
    (ht : ∀ i, i < L → ∃ e, tbl[i]? = some e ∧ Reps p e (2 ^ i)) :
    ∀ (adv i : Nat) (seed : BitVec w), adv * 2 ^ i < 2 ^ L →
      jumpLoop tbl adv i seed = ((next p)^[adv * 2 ^ i] seed, .ok ((next p)^[adv * 2 ^ i] seed)) := by
  intro adv
  induction adv using Nat.strong_induction_on with
  | _ adv ih =>
    intro i seed h
    unfold jumpLoop
    by_cases h0 : adv = 0
    · subst h0; simp
    · have hi : i < L := by
        by_contra hc
        have : 2 ^ L ≤ 2 ^ i := Nat.pow_le_pow_right (by norm_num) (by omega)
        have : 1 * 2 ^ i ≤ adv * 2 ^ i := Nat.mul_le_mul_right _ (by omega)
        omega
      have hdm := Nat.div_add_mod adv 2
      have hlt : adv / 2 * 2 ^ (i + 1) < 2 ^ L := by
        have : adv / 2 * 2 ^ (i + 1) ≤ adv * 2 ^ i := by
          rw [pow_succ, mul_comm (2 ^ i) 2, ← mul_assoc]
          exact Nat.mul_le_mul_right _ (by omega)
        omega
      rw [dif_neg h0]
      obtain ⟨e, he, hr⟩ := ht i hi
      split
      · rename_i hodd
        rw [he]
        simp only
        rw [ih (adv / 2) (by omega) (i + 1) _ hlt, hr, ← Function.iterate_add_apply]
        have : adv / 2 * 2 ^ (i + 1) + 2 ^ i = adv * 2 ^ i := by
          conv_rhs => rw [← hdm, hodd]
          ring
        rw [this]
      · rename_i heven
        rw [ih (adv / 2) (by omega) (i + 1) _ hlt]
        have : adv / 2 * 2 ^ (i + 1) = adv * 2 ^ i := by
          conv_rhs => rw [← hdm, show adv % 2 = 0 by omega]
          ring
        rw [this]

theorem jumpLoop_err (tbl : List (BitVec w × BitVec w)) :
    ∀ (adv i : Nat) (seed : BitVec w), i ≤ tbl.length → 2 ^ tbl.length ≤ adv * 2 ^ i →
      (jumpLoop tbl adv i seed).2 = .error .indexError := by
  intro adv
  induction adv using Nat.strong_induction_on with
  | _ adv ih =>
    intro i seed hi h
    have h0 : adv ≠ 0 := by rintro rfl; simp at h
    have hdm := Nat.div_add_mod adv 2
    unfold jumpLoop
    rw [dif_neg h0]
    rcases Nat.lt_or_ge i tbl.length with h' | h'
    · have hge : 2 ^ tbl.length ≤ adv / 2 * 2 ^ (i + 1) := by
        obtain ⟨d, hd⟩ := Nat.exists_eq_add_of_lt h'
        rw [hd] at h ⊢
        have e1 : 2 ^ (i + d + 1) = 2 ^ (d + 1) * 2 ^ i := by ring
        have e2 : 2 ^ (i + d + 1) = 2 ^ d * 2 ^ (i + 1) := by ring
        rw [e1] at h
        have h2 := Nat.le_of_mul_le_mul_right h (Nat.two_pow_pos _)
        rw [e2]
        apply Nat.mul_le_mul_right
        rw [pow_succ] at h2; omega
      rw [List.getElem?_eq_getElem h']
      split
      · exact ih (adv / 2) (by omega) (i + 1) _ (by omega) hge
      · exact ih (adv / 2) (by omega) (i + 1) _ (by omega) hge
    · -- the table is exhausted
      have hnone : ∀ j, i ≤ j → tbl[j]? = none := fun j hj => List.getElem?_eq_none (by omega)
      split
      · rw [hnone i le_rfl]
      · have : adv / 2 * 2 ^ (i + 1) = adv * 2 ^ i := by
          conv_rhs => rw [← hdm, show adv % 2 = 0 by omega]
          ring
        -- keeps shifting until the next set bit, which is out of range as well
        have key : ∀ (a j : Nat) (s : BitVec w), a ≠ 0 → i ≤ j →
            (jumpLoop tbl a j s).2 = .error .indexError := by
          intro a
          induction a using Nat.strong_induction_on with
          | _ a iha =>
            intro j s ha hj
            unfold jumpLoop
            rw [dif_neg ha]
            split
            · rw [hnone j hj]
            · exact iha (a / 2) (by omega) (j + 1) s (by omega) (by omega)
        exact key _ _ _ (by omega) (by omega)

theorem constJumpLoop_ok (p : Params w) (tbl) (L : Nat)
    (ht : ∀ i, i < L → ∃ e, tbl[i]? = some e ∧ Reps p e (2 ^ i)) :
    ∀ (adv i n : Nat) (mult add : BitVec w), adv * 2 ^ i < 2 ^ L → Reps p (add, mult) n →
      ∃ m a, constJumpLoop tbl adv i mult add = .ok (m, a) ∧ Reps p (a, m) (n + adv * 2 ^ i) := by
  intro adv
  induction adv using Nat.strong_induction_on with
  | _ adv ih =>
    intro i n mult add h hrep
    unfold constJumpLoop
    by_cases h0 : adv = 0
    · subst h0; exact ⟨mult, add, by simp, by simpa using hrep⟩
    · have hi : i < L := by
        by_contra hc
        have : 2 ^ L ≤ 2 ^ i := Nat.pow_le_pow_right (by norm_num) (by omega)
        have : 1 * 2 ^ i ≤ adv * 2 ^ i := Nat.mul_le_mul_right _ (by omega)
        omega
      have hdm := Nat.div_add_mod adv 2
      have hlt : adv / 2 * 2 ^ (i + 1) < 2 ^ L := by
        have : adv / 2 * 2 ^ (i + 1) ≤ adv * 2 ^ i := by
          rw [pow_succ, mul_comm (2 ^ i) 2, ← mul_assoc]
          exact Nat.mul_le_mul_right _ (by omega)
        omega
      rw [dif_neg h0]
      obtain ⟨e, he, hr⟩ := ht i hi
      rw [he]
      simp only
      split
      · rename_i hodd
        have hrep' : Reps p (add * e.2 + e.1, mult * e.2) (n + 2 ^ i) := by
          intro x
          rw [Nat.add_comm n, Function.iterate_add_apply, ← hrep, ← hr]
          ring
        obtain ⟨m, a, h1, h2⟩ := ih (adv / 2) (by omega) (i + 1) _ _ _ hlt hrep'
        refine ⟨m, a, h1, ?_⟩
        have : n + 2 ^ i + adv / 2 * 2 ^ (i + 1) = n + adv * 2 ^ i := by
          conv_rhs => rw [← hdm, hodd]
          ring
        rwa [this] at h2
      · obtain ⟨m, a, h1, h2⟩ := ih (adv / 2) (by omega) (i + 1) _ _ _ hlt hrep
        refine ⟨m, a, h1, ?_⟩
        have : adv / 2 * 2 ^ (i + 1) = adv * 2 ^ i := by
          conv_rhs => rw [← hdm, show adv % 2 = 0 by omega]
          ring
        rwa [this] at h2

theorem constJumpLoop_err (tbl : List (BitVec w × BitVec w)) :
    ∀ (adv i : Nat) (mult add : BitVec w), i ≤ tbl.length → 2 ^ tbl.length ≤ adv * 2 ^ i →
      constJumpLoop tbl adv i mult add = .error .indexError := by
  intro adv
  induction adv using Nat.strong_induction_on with
  | _ adv ih =>
    intro i mult add hi h
    have h0 : adv ≠ 0 := by rintro rfl; simp at h
    unfold constJumpLoop
    rw [dif_neg h0]
    rcases Nat.lt_or_ge i tbl.length with h' | h'
    · have hge : 2 ^ tbl.length ≤ adv / 2 * 2 ^ (i + 1) := by
        obtain ⟨d, hd⟩ := Nat.exists_eq_add_of_lt h'
        rw [hd] at h ⊢
        have e1 : 2 ^ (i + d + 1) = 2 ^ (d + 1) * 2 ^ i := by ring
        have e2 : 2 ^ (i + d + 1) = 2 ^ d * 2 ^ (i + 1) := by ring
        rw [e1] at h
        have h2 := Nat.le_of_mul_le_mul_right h (Nat.two_pow_pos _)
        rw [e2]
        apply Nat.mul_le_mul_right
        rw [pow_succ] at h2; omega
      rw [List.getElem?_eq_getElem h']
      simp only
      split
      · exact ih (adv / 2) (by omega) (i + 1) _ _ (by omega) hge
      · exact ih (adv / 2) (by omega) (i + 1) _ _ (by omega) hge
    · rw [List.getElem?_eq_none (by omega)]

theorem advanceLoop_eq (p : Params w) : ∀ n seed, advanceLoop p n seed = (next p)^[n] seed
  | 0, _ => rfl
  | n + 1, seed => by rw [advanceLoop, advanceLoop_eq p n, Function.iterate_succ_apply]

/-- `next` is the specification's LCG. -/
theorem next_eq_lcg (p : Params w) : next p = lcg w p.mult.toNat p.add.toNat := by
  funext x
  apply BitVec.eq_of_toNat_eq
  simp [next, lcg, BitVec.toNat_add, BitVec.toNat_mul, Nat.mul_comm]

/-! ### period -/

theorem two_pow_eq_zero (w : Nat) : (2 : BitVec w) ^ w = 0 := by
  have h : ((2 ^ w : Nat) : BitVec w) = 0 := by
    apply BitVec.eq_of_toNat_eq
    rw [BitVec.natCast_eq_ofNat, BitVec.toNat_ofNat, Nat.mod_self]; rfl
  rw [← h]; push_cast; rfl

theorem two_pow_ne_zero (w i : Nat) (h : i < w) : (2 : BitVec w) ^ i ≠ 0 := by
  intro hc
  have h1 : ((2 ^ i : Nat) : BitVec w) = 0 := by push_cast; exact hc
  have h2 := congrArg BitVec.toNat h1
  rw [BitVec.natCast_eq_ofNat, BitVec.toNat_ofNat] at h2
  have : 2 ^ i < 2 ^ w := Nat.pow_lt_pow_right (by norm_num) h
  rw [Nat.mod_eq_of_lt this, show (0 : BitVec w).toNat = 0 from rfl] at h2
  have : 0 < 2 ^ i := Nat.two_pow_pos _
  omega

theorem two_pow_mul_odd_ne_zero (w i : Nat) (h : i < w) (t : BitVec w) : 2 ^ i * (1 + 2 * t) ≠ 0 := by
  intro hc
  have h1 : (2 : BitVec w) ^ (w - 1 - i) * (2 ^ i * (1 + 2 * t)) = 2 ^ (w - 1) := by
    have e1 : (2 : BitVec w) ^ (w - 1 - i) * 2 ^ i = 2 ^ (w - 1) := by
      rw [← pow_add]; congr 1; omega
    have e2 : (2 : BitVec w) ^ (w - 1) * 2 = 0 := by
      rw [← pow_succ, show w - 1 + 1 = w by omega, two_pow_eq_zero]
    calc _ = (2 : BitVec w) ^ (w - 1 - i) * 2 ^ i * (1 + 2 * t) := by ring
      _ = 2 ^ (w - 1) + (2 ^ (w - 1) * 2) * t := by rw [e1]; ring
      _ = _ := by rw [e2]; ring
  rw [hc] at h1
  exact two_pow_ne_zero w (w - 1) (by omega) (by simpa using h1.symm)

/-- shape of the table entries for an odd multiplier: `w` doublings give the identity -/
theorem table_even (p : Params w) (k : BitVec w) (hm : p.mult = 1 + 2 * k) : ∀ i,
    ∃ u v, (tableStep)^[i] (p.add, p.mult) = (2 ^ i * u, 1 + 2 ^ (i + 1) * v)
  | 0 => ⟨p.add, k, by simp [hm]⟩
  | i + 1 => by
    obtain ⟨u, v, h⟩ := table_even p k hm i
    refine ⟨u * (1 + 2 ^ i * v), v + 2 ^ i * v * v, ?_⟩
    rw [Function.iterate_succ_apply', h]
    simp only [tableStep, Prod.mk.injEq]
    constructor <;> ring

/-- after `2^w` steps every odd-multiplier LCG is back where it started -/
theorem iterate_two_pow (p : Params w) (k : BitVec w) (hm : p.mult = 1 + 2 * k) (x : BitVec w) :
    (next p)^[2 ^ w] x = x := by
  obtain ⟨u, v, h⟩ := table_even p k hm w
  rw [← reps_iterate p w x, h]
  simp only [pow_succ, two_pow_eq_zero]; ring

theorem iterate_mod (p : Params w) (k : BitVec w) (hm : p.mult = 1 + 2 * k) (n : Nat) (x : BitVec w) :
    (next p)^[n % 2 ^ w] x = (next p)^[n] x := by
  conv_rhs => rw [← Nat.mod_add_div n (2 ^ w), Function.iterate_add_apply, Function.iterate_mul]
  have h : ((next p)^[2 ^ w]) = id := by funext y; exact iterate_two_pow p k hm y
  rw [h]; simp

/-- shape of the table entries under the Hull–Dobell conditions -/
theorem table_hd (p : Params w) (k c : BitVec w) (hm : p.mult = 1 + 4 * k) (ha : p.add = 1 + 2 * c) : ∀ i,
    ∃ u v, (tableStep)^[i] (p.add, p.mult) = (2 ^ i * (1 + 2 * u), 1 + 2 ^ (i + 2) * v)
  | 0 => ⟨c, k, by
      simp only [Function.iterate_zero, id_eq, Prod.mk.injEq, hm, ha]
      constructor <;> ring⟩
  | i + 1 => by
    obtain ⟨u, v, h⟩ := table_hd p k c hm ha i
    refine ⟨u + 2 ^ i * v * (1 + 2 * u), v + 2 * 2 ^ i * v * v, ?_⟩
    rw [Function.iterate_succ_apply', h]
    simp only [tableStep, Prod.mk.injEq]
    constructor <;> ring

theorem iterate_hd (p : Params w) (k c : BitVec w) (hm : p.mult = 1 + 4 * k) (ha : p.add = 1 + 2 * c)
    (i : Nat) : ∀ (j : Nat) (x : BitVec w), ∃ t, (next p)^[2 ^ i * j] x = x + 2 ^ i * ((j : BitVec w) + 2 * t)
  | 0, x => ⟨0, by simp⟩
  | j + 1, x => by
    obtain ⟨t, h⟩ := iterate_hd p k c hm ha i j x
    obtain ⟨u, v, he⟩ := table_hd p k c hm ha i
    rw [Nat.mul_succ, Nat.add_comm, Function.iterate_add_apply, h, ← reps_iterate p i, he]
    refine ⟨t + u + 2 * v * (x + 2 ^ i * (j + 2 * t)), ?_⟩
    push_cast; ring

theorem exists_two_pow_mul_odd : ∀ n : Nat, n ≠ 0 → ∃ i r, n = 2 ^ i * (2 * r + 1) := by
  intro n
  induction n using Nat.strong_induction_on with
  | _ n ih =>
    intro hn
    rcases Nat.even_or_odd' n with ⟨r, hr | hr⟩
    · obtain ⟨i, q, h⟩ := ih r (by omega) (by omega)
      exact ⟨i + 1, q, by rw [hr, h]; ring⟩
    · exact ⟨0, r, by rw [hr]; ring⟩

/-- Hull–Dobell: only multiples of `2^w` return to the start -/
theorem period_of_hd (p : Params w) (k c : BitVec w) (hm : p.mult = 1 + 4 * k) (ha : p.add = 1 + 2 * c)
    (n : Nat) (x : BitVec w) : (next p)^[n] x = x ↔ 2 ^ w ∣ n := by
  have hm2 : p.mult = 1 + 2 * (2 * k) := by rw [hm]; ring
  constructor
  · intro h
    by_contra hnd
    have hn : n ≠ 0 := by rintro rfl; simp at hnd
    obtain ⟨i, r, hnm⟩ := exists_two_pow_mul_odd n hn
    have hi : i < w := by
      by_contra hc
      exact hnd (hnm ▸ Dvd.dvd.mul_right (pow_dvd_pow 2 (by omega)) _)
    obtain ⟨t, ht⟩ := iterate_hd p k c hm ha i (2 * r + 1) x
    rw [← hnm, h] at ht
    apply two_pow_mul_odd_ne_zero w i hi ((r : BitVec w) + t)
    have h0 : (2 : BitVec w) ^ i * (((2 * r + 1 : Nat) : BitVec w) + 2 * t) = 0 := by
      calc _ = x + (2 : BitVec w) ^ i * (((2 * r + 1 : Nat) : BitVec w) + 2 * t) - x := by ring
        _ = 0 := by rw [← ht]; ring
    rw [← h0]; push_cast; ring
  · rintro ⟨q, rfl⟩
    have := iterate_mod p (2 * k) hm2 (2 ^ w * q) x
    simpa using this.symm

theorem next_injective_of_odd (p : Params w) (k : BitVec w) (hm : p.mult = 1 + 2 * k) :
    Function.Injective (next p) := by
  have h : Function.Injective ((next p)^[2 ^ w]) := by
    intro a b hab
    rwa [iterate_two_pow p k hm, iterate_two_pow p k hm] at hab
  have hp : 2 ^ w = (2 ^ w - 1) + 1 := by have : 0 < 2 ^ w := Nat.two_pow_pos _
                                          omega
  rw [hp, Function.iterate_succ] at h
  exact h.of_comp

/-- a map that returns exactly after multiples of `2^w` reaches everything exactly once -/
theorem reach_of_period (f : BitVec w → BitVec w) (hf : ∀ n x, f^[n] x = x ↔ 2 ^ w ∣ n) (x y : BitVec w) :
    ∃! n : Nat, n < 2 ^ w ∧ f^[n] x = y := by
  have hinj : ∀ a b, a ≤ b → b < 2 ^ w → f^[a] x = f^[b] x → a = b := by
    intro a b hab hb h
    have h1 : f^[b - a] (f^[a] x) = f^[a] x := by
      rw [← Function.iterate_add_apply, Nat.sub_add_cancel hab, h]
    have h2 := (hf _ _).1 h1
    rcases Nat.eq_zero_or_pos (b - a) with h3 | h3
    · omega
    · have := Nat.le_of_dvd h3 h2; omega
  let g : Fin (2 ^ w) → Fin (2 ^ w) := fun n => (f^[n.val] x).toFin
  have hg : Function.Injective g := by
    intro a b hab
    have hab' : f^[a.val] x = f^[b.val] x := BitVec.eq_of_toFin_eq hab
    rcases le_total a.val b.val with h | h
    · exact Fin.ext (hinj _ _ h b.isLt hab')
    · exact Fin.ext (hinj _ _ h a.isLt hab'.symm).symm
  obtain ⟨n, hn⟩ := (Finite.injective_iff_surjective.1 hg) y.toFin
  refine ⟨n.val, ⟨n.isLt, BitVec.eq_of_toFin_eq hn⟩, ?_⟩
  rintro m ⟨hm, hmy⟩
  have hmn : f^[m] x = f^[n.val] x := by rw [hmy]; exact (BitVec.eq_of_toFin_eq hn).symm
  rcases le_total m n.val with h | h
  · exact hinj _ _ h n.isLt hmn
  · exact (hinj _ _ h hm hmn.symm).symm

end Verif.Lcrng
