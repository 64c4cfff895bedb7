import Verif.Lemmas.MtPoly
import Verif.Spec.Mt
import Mathlib.Tactic.IntervalCases
/-
The word sequence of MT19937 repeats after 2^19937 - 1 words.
-/
namespace Verif.MtPeriod
open Verif.Gf2 Verif.Data.MtPoly Verif.Spec Polynomial

/-! ### sequences of bits -/

/-- the shift -/
def shift : Module.End (ZMod 2) (Nat → ZMod 2) where
  toFun s k := s (k + 1)
  map_add' _ _ := rfl
  map_smul' _ _ := rfl

theorem shift_pow (n : Nat) (s : Nat → ZMod 2) (k : Nat) : (shift ^ n) s k = s (k + n) := by
  induction n generalizing k with
  | zero => rfl
  | succ n ih =>
    rw [pow_succ', Module.End.mul_apply]
    change (shift ^ n) s (k + 1) = _
    rw [ih, Nat.add_right_comm, Nat.add_assoc]

/-- a polynomial in the shift -/
noncomputable def act (p : (ZMod 2)[X]) (s : Nat → ZMod 2) : Nat → ZMod 2 := aeval shift p s

theorem act_mul (p q : (ZMod 2)[X]) (s : Nat → ZMod 2) : act (p * q) s = act p (act q s) := by
  simp only [act, map_mul, Module.End.mul_apply]

theorem act_add (p q : (ZMod 2)[X]) (s : Nat → ZMod 2) : act (p + q) s = act p s + act q s := by
  simp only [act, map_add, LinearMap.add_apply]

theorem act_sum (p : (ZMod 2)[X]) (s t : Nat → ZMod 2) : act p (s + t) = act p s + act p t := by
  simp only [act, map_add]

theorem act_X_pow (n : Nat) (s : Nat → ZMod 2) (k : Nat) : act (X ^ n) s k = s (k + n) := by
  rw [act, map_pow, aeval_X, shift_pow]

theorem act_X (s : Nat → ZMod 2) (k : Nat) : act X s k = s (k + 1) := by
  have := act_X_pow 1 s k
  rwa [pow_one] at this

theorem act_C (c : ZMod 2) (s : Nat → ZMod 2) (k : Nat) : act (C c) s k = c * s k := by
  rw [act, aeval_C]
  rfl

theorem act_one (s : Nat → ZMod 2) : act 1 s = s := by rw [act, map_one, Module.End.one_apply]

theorem act_zero (p : (ZMod 2)[X]) : act p 0 = 0 := by rw [act, map_zero]

theorem act_comm (p q : (ZMod 2)[X]) (s : Nat → ZMod 2) : act p (act q s) = act q (act p s) := by
  rw [← act_mul, mul_comm, act_mul]

/-! ### the recurrence for bits -/

/-- a bit as an element of GF(2) -/
def z (b : Bool) : ZMod 2 := if b then 1 else 0

theorem z_xor (a b : Bool) : z (a ^^ b) = z a + z b := by revert a b; decide

theorem z_inj {a b : Bool} (h : z a = z b) : a = b := by revert a b; decide

/-- bit `j` of the words -/
def bits (x : Nat → BitVec 32) (j : Nat) (k : Nat) : ZMod 2 := z ((x k).getLsbD j)

/-- coefficients of the matrix -/
def coef (j : Nat) : ZMod 2 := z ((0x9908B0DF : BitVec 32).getLsbD j)

theorem twist_bit (u v : BitVec 32) (j : Nat) (hj : j < 32) : z ((mtTwist u v).getLsbD j) =
    (if j < 30 then z (v.getLsbD (j + 1)) else if j = 30 then z (u.getLsbD 31) else 0) + coef j * z (v.getLsbD 0) := by
  have hy : ∀ i, i < 32 → (u.extractLsb' 31 1 ++ v.extractLsb' 0 31).getLsbD i =
      if i < 31 then v.getLsbD i else u.getLsbD 31 := by
    intro i hi
    rw [BitVec.getLsbD_append]
    split_ifs with h
    · simp [h]
    · have : i = 31 := by omega
      subst this
      simp
  have h0 : (u.extractLsb' 31 1 ++ v.extractLsb' 0 31).getLsbD 0 = v.getLsbD 0 := by rw [hy 0 (by omega)]; simp
  have hs : z (((u.extractLsb' 31 1 ++ v.extractLsb' 0 31) >>> 1).getLsbD j) =
      if j < 30 then z (v.getLsbD (j + 1)) else if j = 30 then z (u.getLsbD 31) else 0 := by
    rw [BitVec.getLsbD_ushiftRight]
    by_cases h : j = 31
    · subst h
      rw [BitVec.getLsbD_of_ge _ _ (by omega)]
      rfl
    · rw [hy _ (by omega)]
      by_cases h1 : j < 30
      · rw [if_pos (by omega), if_pos h1, Nat.add_comm]
      · rw [if_neg (by omega), if_neg h1, if_pos (by omega)]
  simp only [mtTwist, h0]
  cases hv : v.getLsbD 0 with
  | false =>
    rw [if_neg (by simp), hs]
    simp [z]
  | true =>
    rw [if_pos rfl, BitVec.getLsbD_xor, z_xor, hs, coef]
    simp [z]

theorem cancel : ∀ a b : ZMod 2, a + b + a = b := by decide

theorem cancel' : ∀ a b : ZMod 2, a + b + b = a := by decide

/-- two terms -/
noncomputable def terms (m n : Nat) : (ZMod 2)[X] := X ^ m + X ^ n

theorem act_terms (m n : Nat) (s : Nat → ZMod 2) (k : Nat) : act (terms m n) s k = s (k + m) + s (k + n) := by
  rw [terms, act_add, Pi.add_apply, act_X_pow, act_X_pow]

/-- `x^624 + x^397` -/
noncomputable def lag : (ZMod 2)[X] := terms 624 397

variable {x : Nat → BitVec 32} (hx : ∀ k, x (k + 624) = x (k + 397) ^^^ mtTwist (x k) (x (k + 1)))
include hx

theorem lag_bits (j : Nat) (hj : j < 32) (k : Nat) : act lag (bits x j) k =
    (if j < 30 then bits x (j + 1) (k + 1) else if j = 30 then bits x 31 k else 0) + coef j * bits x 0 (k + 1) := by
  rw [lag, act_terms]
  simp only [bits]
  rw [hx k, BitVec.getLsbD_xor, z_xor, twist_bit _ _ j hj]
  exact cancel _ _

omit hx in
/-- eliminating the bits one by one -/
noncomputable def elim (l : (ZMod 2)[X]) (c : Nat → ZMod 2) : Nat → (ZMod 2)[X]
  | 0 => 1
  | j + 1 => l * elim l c j + C (c j) * X ^ (min (j + 1) 31)

theorem elim_bits (j : Nat) (hj : j < 32) : act (elim lag coef j) (bits x 0) = act (X ^ min j 30) (bits x j) := by
  induction j with
  | zero => rw [elim, act_one, Nat.zero_min, pow_zero, act_one]
  | succ j ih =>
    rw [elim, act_add, act_mul, ih (by omega), act_comm]
    funext k
    rw [Pi.add_apply, act_X_pow, lag_bits hx j (by omega), act_mul, act_C, act_X_pow, act_X_pow]
    by_cases h : j < 30
    · rw [if_pos h, Nat.min_eq_left (by omega), Nat.min_eq_left (by omega), Nat.min_eq_left (by omega), Nat.add_assoc k j 1]
      exact cancel' _ _
    · have : j = 30 := by omega
      subst this
      rw [if_neg h, if_pos rfl, Nat.min_eq_left (by omega), Nat.min_eq_left (by omega), Nat.min_eq_right (by omega)]
      exact cancel' _ _

theorem elim_zero : act (elim lag coef 32) (bits x 0) = 0 := by
  rw [elim, act_add, act_mul, elim_bits hx 31 (by omega), act_comm]
  funext k
  rw [Pi.add_apply, act_X_pow, lag_bits hx 31 (by omega), act_mul, act_C, act_X_pow, if_neg (by omega), if_neg (by omega), zero_add,
    Nat.min_eq_right (by omega), Nat.min_eq_right (by omega)]
  exact CharTwo.add_self_eq_zero _

omit hx

/-! ### the polynomial -/

/-- `elim` as packed numbers -/
def elimNum (m l : Nat) (c : Nat → Bool) : Nat → Nat
  | 0 => 1
  | j + 1 => Nat.xor (mulp m l (elimNum m l c j)) (cond (c j) (Nat.pow 65536 (min (j + 1) 31)) 0)

/-- `x^m + x^n` packed -/
def twoNum (m n : Nat) : Nat := Nat.add (Nat.pow 65536 m) (Nat.pow 65536 n)

/-- bits of the matrix constant -/
def coefBit (j : Nat) : Bool := (0x9908B0DF : BitVec 32).getLsbD j

theorem elimNum_ok : (packed (twoNum 624 397) && (List.range 33).all (fun j => packed (elimNum (ones 40000) (twoNum 624 397) coefBit j)) &&
    Nat.beq (elimNum (ones 40000) (twoNum 624 397) coefBit 32) (Nat.mul (Nat.pow 65536 31) (spread phi))) = true := by decide +kernel

theorem pv_pow (n : Nat) : pv (X : (ZMod 2)[X]) (65536 ^ n) = X ^ n := by
  have := pv_shifts (X : (ZMod 2)[X]) 1 n
  rwa [Nat.mul_one, pv_one, mul_one] at this

theorem char2 (f : (ZMod 2)[X]) : f + f = 0 := CharTwo.add_self_eq_zero f

theorem small_pow (n : Nat) : Small 1 (65536 ^ n) := by
  induction n with
  | zero => exact Small.of (by norm_num) (by norm_num; exact small_zero 1)
  | succ n ih => rw [Nat.pow_succ']; exact ih.shift

theorem pv_two (m n : Nat) : pv (X : (ZMod 2)[X]) (twoNum m n) = terms m n := by
  change pv X (65536 ^ m + 65536 ^ n) = _
  rw [pv_add char2 X 1 1 (by norm_num) _ _ _ le_rfl (small_pow _) (small_pow _), pv_pow, pv_pow, terms]

theorem pv_elimNum (l : Nat) (c : Nat → Bool) (hl : Packed l) (j : Nat) (h : ∀ i < j, Packed (elimNum (ones 40000) l c i)) :
    pv (X : (ZMod 2)[X]) (elimNum (ones 40000) l c j) = elim (pv X l) (fun i => z (c i)) j := by
  induction j with
  | zero => rw [elimNum, elim, pv_one]
  | succ j ih =>
    rw [elimNum, elim]
    have e : ∀ a b, Nat.xor a b = a ^^^ b := fun _ _ => rfl
    rw [e, pv_xor char2, pv_mulp char2 X _ _ hl (h j (by omega)), ih (fun i hi => h i (by omega))]
    congr 1
    cases c j with
    | false => simp [pv_zero, z]
    | true =>
      rw [cond_true]
      change pv X (65536 ^ _) = _
      rw [pv_pow]
      simp [z]

theorem elim_of (m n p : Nat) (c : Nat → Bool) (hl : packed (twoNum m n) = true)
    (h : (List.range 33).all (fun j => packed (elimNum (ones 40000) (twoNum m n) c j)) = true)
    (he : Nat.beq (elimNum (ones 40000) (twoNum m n) c 32) (Nat.mul (Nat.pow 65536 31) p) = true) :
    elim (terms m n) (fun i => z (c i)) 32 = X ^ 31 * pv X p := by
  rw [List.all_eq_true] at h
  have h4 := pv_elimNum (twoNum m n) c (packed_iff _ hl) 32 (fun i hi => packed_iff _ (h i (List.mem_range.mpr (by omega))))
  rw [Nat.eq_of_beq_eq_true he, pv_two] at h4
  exact h4.symm.trans (pv_shifts X p 31)

/-- the minimal polynomial of MT19937 -/
theorem exists_minpol : ∃ g : (ZMod 2)[X], elim lag coef 32 = X ^ 31 * g ∧ ∀ E, E = 2 ^ 19937 → g ∣ X ^ E - X := by
  have h := elimNum_ok
  rw [Bool.and_eq_true, Bool.and_eq_true] at h
  exact ⟨pv X (spread phi), elim_of 624 397 (spread phi) coefBit h.1.1 h.1.2 h.2, dvd⟩

/-! ### the period -/

section
include hx

theorem bits_zero (g f : (ZMod 2)[X]) (hg : elim lag coef 32 = X ^ 31 * g) (hf : g ∣ f) :
    act f (act (X ^ 31) (bits x 0)) = 0 := by
  obtain ⟨c, hc⟩ := hf
  rw [hc, mul_comm, act_mul, ← act_mul g, mul_comm g, ← hg, elim_zero hx, act_zero]

theorem bits_any (g f : (ZMod 2)[X]) (hg : elim lag coef 32 = X ^ 31 * g) (hf : g ∣ f) (j : Nat) (hj : j < 32) :
    act f (act (X ^ 31) (act (X ^ min j 30) (bits x j))) = 0 := by
  rw [← elim_bits hx j hj, act_comm (X ^ 31), act_comm, bits_zero hx g f hg hf, act_zero]

omit hx in
theorem of_act (s : Nat → ZMod 2) (E a b k : Nat) (h : act (X ^ E - X) (act (X ^ a) (act (X ^ b) s)) = 0) :
    s (k + E + a + b) = s (k + 1 + a + b) := by
  have h2 := congrFun h k
  rw [sub_eq_add_neg, CharTwo.neg_eq, act_add, Pi.add_apply, act_X_pow, act_X, act_X_pow, act_X_pow, act_X_pow, act_X_pow] at h2
  exact CharTwo.add_eq_zero.mp h2

theorem bits_period' (E : Nat) (j : Nat) (hj : j < 32) (k : Nat) (g : (ZMod 2)[X]) (hg : elim lag coef 32 = X ^ 31 * g)
    (hE : g ∣ X ^ E - X) : bits x j (k + 62 + E) = bits x j (k + 62 + 1) := by
  have h3 := of_act (bits x j) E 31 (min j 30) (k + (31 - min j 30)) (bits_any hx g _ hg hE j hj)
  have e : min j 30 ≤ 30 := Nat.min_le_right _ _
  rwa [show k + (31 - min j 30) + E + 31 + min j 30 = k + 62 + E by omega,
    show k + (31 - min j 30) + 1 + 31 + min j 30 = k + 62 + 1 by omega] at h3

theorem words_period (E : Nat) (hE : E = 2 ^ 19937) (k : Nat) : x (k + 62 + E) = x (k + 62 + 1) := by
  obtain ⟨g, hg, h⟩ := exists_minpol
  apply BitVec.eq_of_getLsbD_eq
  intro j hj
  exact z_inj (bits_period' hx E j hj k g hg (h E hE))

end

end Verif.MtPeriod
