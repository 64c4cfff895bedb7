import Verif.Lemmas.SfmtPoly
import Verif.Lemmas.MtSeq
import Verif.Lemmas.Sfmt
import Mathlib.Algebra.BigOperators.Group.Finset.Basic
import Mathlib.Algebra.BigOperators.Ring.Finset
/-
The parity checked by the period certification of SFMT19937, as a sequence of bits, satisfies the recursion given by the polynomial of
degree 19937.
-/
namespace Verif.SfmtPeriod
open Verif.Gf2 Verif.Data.SfmtPoly Verif.Spec Polynomial Verif.MtPeriod Finset

/-! ### numbers as functionals on sequences of bits -/

/-- the sum of `s i` over the bits `i` of `g` -/
def pair (g : Nat) (s : Nat → ZMod 2) : ZMod 2 := ∑ i ∈ range g, z (g.testBit i) * s i

theorem z_false : z false = 0 := rfl

theorem z_and (a b : Bool) : z (a && b) = z a * z b := by revert a b; decide

theorem pair_eq (g l : Nat) (h : g < 2 ^ l) (s : Nat → ZMod 2) : pair g s = ∑ i ∈ range l, z (g.testBit i) * s i := by
  have hz : ∀ i, g < 2 ^ i → z (g.testBit i) * s i = 0 := fun i hi => by
    rw [Nat.testBit_lt_two_pow hi, z_false, zero_mul]
  rw [pair]
  rcases Nat.le_total g l with hl | hl
  · refine sum_subset (range_subset_range.mpr hl) (fun i _ hi => hz i ?_)
    rw [mem_range, not_lt] at hi
    exact Nat.lt_two_pow_self.trans_le (Nat.pow_le_pow_right (by omega) hi)
  · refine (sum_subset (range_subset_range.mpr hl) (fun i _ hi => hz i ?_)).symm
    rw [mem_range, not_lt] at hi
    exact h.trans_le (Nat.pow_le_pow_right (by omega) hi)

theorem pair_zero (s : Nat → ZMod 2) : pair 0 s = 0 := rfl

theorem pair_xor (a b : Nat) (s : Nat → ZMod 2) : pair (Nat.xor a b) s = pair a s + pair b s := by
  have ha : a < 2 ^ (a + b) := Nat.lt_two_pow_self.trans_le (Nat.pow_le_pow_right (by omega) (by omega))
  have hb : b < 2 ^ (a + b) := Nat.lt_two_pow_self.trans_le (Nat.pow_le_pow_right (by omega) (by omega))
  change pair (a ^^^ b) s = _
  rw [pair_eq _ _ (Nat.xor_lt_two_pow ha hb), pair_eq _ _ ha, pair_eq _ _ hb, ← sum_add_distrib]
  refine sum_congr rfl fun i _ => ?_
  rw [Nat.testBit_xor, ← add_mul, ← z_xor]

theorem pair_shl (a t : Nat) (s : Nat → ZMod 2) : pair (Nat.shiftLeft a t) s = pair a fun i => s (i + t) := by
  change pair (a <<< t) s = _
  have ha : a < 2 ^ a := Nat.lt_two_pow_self
  have h : a <<< t < 2 ^ (t + a) := by
    rw [Nat.shiftLeft_eq, Nat.pow_add, Nat.mul_comm]
    exact Nat.mul_lt_mul_of_pos_left ha (Nat.pow_pos (by omega))
  rw [pair_eq _ _ h, pair_eq _ _ ha, sum_range_add]
  rw [sum_eq_zero (s := range t), zero_add]
  · refine sum_congr rfl fun i _ => ?_
    rw [Nat.testBit_shiftLeft, Nat.add_sub_cancel_left, Nat.add_comm t i]
    simp
  · intro i hi
    rw [mem_range] at hi
    rw [Nat.testBit_shiftLeft, decide_eq_false (by omega), Bool.false_and, z_false, zero_mul]

theorem pair_shr (a t : Nat) (s : Nat → ZMod 2) : pair (Nat.shiftRight a t) s = pair a fun i => if t ≤ i then s (i - t) else 0 := by
  change pair (a >>> t) s = _
  have ha : a < 2 ^ (t + a) := Nat.lt_two_pow_self.trans_le (Nat.pow_le_pow_right (by omega) (by omega))
  have h : a >>> t < 2 ^ a := by
    rw [Nat.shiftRight_eq_div_pow]
    exact (Nat.div_le_self _ _).trans_lt Nat.lt_two_pow_self
  rw [pair_eq _ _ h, pair_eq _ _ ha, sum_range_add, sum_eq_zero (s := range t), zero_add]
  · refine sum_congr rfl fun i _ => ?_
    rw [Nat.testBit_shiftRight, if_pos (by omega), Nat.add_sub_cancel_left]
  · intro i hi
    rw [mem_range] at hi
    rw [if_neg (by omega), mul_zero]

theorem pair_and (a m : Nat) (s : Nat → ZMod 2) : pair (Nat.land a m) s = pair a fun i => z (m.testBit i) * s i := by
  change pair (a &&& m) s = _
  have ha : a < 2 ^ a := Nat.lt_two_pow_self
  rw [pair_eq _ _ (Nat.and_le_left.trans_lt ha), pair_eq _ _ ha]
  refine sum_congr rfl fun i _ => ?_
  rw [Nat.testBit_and, z_and, mul_assoc]

theorem pair_sum (a : Nat) (s t : Nat → ZMod 2) : pair a (fun i => s i + t i) = pair a s + pair a t := by
  simp only [pair, mul_add, sum_add_distrib]

/-! ### repeated masks -/

theorem rep_succ (k m : Nat) : rep (k + 1) m = 2 ^ 128 * rep k m + m := by
  have e : ∀ k, rep k m = m * (((2 ^ 128) ^ k - 1) / (2 ^ 128 - 1)) := fun k => by
    change m * ((2 ^ (128 * k) - 1) / (2 ^ 128 - 1)) = _
    rw [pow_mul]
  obtain ⟨B, hB⟩ : ∃ B : Nat, B = 2 ^ 128 := ⟨_, rfl⟩
  have hB1 : 1 < B := by rw [hB]; norm_num
  rw [e, e, ← hB]
  clear e hB
  obtain ⟨c, hc⟩ : B - 1 ∣ B ^ k - 1 := by
    have := Nat.sub_dvd_pow_sub_pow B 1 k
    rwa [one_pow] at this
  have hp : 1 ≤ B ^ k := Nat.one_le_pow _ _ (by omega)
  have h1 : B ^ (k + 1) - 1 = (B - 1) * (B * c + 1) := by
    rw [Nat.pow_succ']
    have h2 : B ^ k = (B - 1) * c + 1 := by omega
    obtain ⟨b, rfl⟩ : ∃ b, B = b + 1 := ⟨B - 1, by omega⟩
    rw [h2, Nat.add_sub_cancel]
    have : (b + 1) * (b * c + 1) = b * ((b + 1) * c + 1) + 1 := by ring
    rw [this, Nat.add_sub_cancel]
  rw [hc, h1, Nat.mul_div_cancel_left _ (by omega), Nat.mul_div_cancel_left _ (by omega)]
  ring

theorem rep_testBit (k m i : Nat) (hm : m < 2 ^ 128) (hi : i < 128 * k) : (rep k m).testBit i = m.testBit (i % 128) := by
  induction k generalizing i with
  | zero => omega
  | succ k ih =>
    rw [rep_succ, Nat.testBit_two_pow_mul_add _ hm]
    by_cases h : i < 128
    · rw [if_pos h, Nat.mod_eq_of_lt h]
    · rw [if_neg h, ih (i - 128) (by omega), ← Nat.mod_eq_sub_mod (by omega)]

/-! ### the recursion as a relation between bits -/

/-- the relation number `i` between the bits of the words -/
def rel (s : Nat → ZMod 2) (i : Nat) : ZMod 2 :=
  s (i + 19968) + (s i + (z (m8.testBit (i % 128)) * (if 8 ≤ i then s (i - 8) else 0) + (z (mB.testBit (i % 128)) * s (i + 15627) +
    (z (mC.testBit (i % 128)) * s (i + 19720) + z (mD.testBit (i % 128)) * s (i + 19822)))))

theorem pair_bulk (k g : Nat) (hg : g < 2 ^ (128 * k)) (s : Nat → ZMod 2) (hr : ∀ i, rel s i = 0) : pair (bulk k g) s = 0 := by
  rw [bulk, pair_xor, pair_xor, pair_xor, pair_xor, pair_xor, pair_shl, pair_shr, pair_shl, pair_shl, pair_shl, pair_and, pair_and,
    pair_and, pair_and]
  simp only [pair_eq g _ hg, ← sum_add_distrib, ← mul_add]
  refine sum_eq_zero fun i hi => ?_
  rw [mem_range] at hi
  rw [rep_testBit k _ i (by decide) hi, rep_testBit k _ i (by decide) hi, rep_testBit k _ i (by decide) hi,
    rep_testBit k _ i (by decide) hi]
  exact mul_eq_zero_of_right _ (hr i)

/-- all bits of the words -/
def flat (x : Nat → BitVec 128) (i : Nat) : ZMod 2 := z ((x (i / 128)).getLsbD (i % 128))

theorem flat_at (x : Nat → BitVec 128) (k j : Nat) (hj : j < 128) : flat x (128 * k + j) = z ((x k).getLsbD j) := by
  rw [flat, show (128 * k + j) / 128 = k by omega, show (128 * k + j) % 128 = j by omega]

theorem mask_8 : ∀ j < 128, m8.testBit j = decide (8 ≤ j) := by decide +kernel
theorem mask_B : ∀ j < 128, mB.testBit j = (decide (11 + j % 32 < 32) && (0xBFFFFFF6BFFAFFFFDDFECB7FDFFFFFEF#128).getLsbD j) := by decide +kernel
theorem mask_C : ∀ j < 128, mC.testBit j = decide (j < 120) := by decide +kernel
theorem mask_D : ∀ j < 128, mD.testBit j = decide (18 ≤ j % 32) := by decide +kernel

theorem lanewise_getLsbD (f : BitVec 32 → BitVec 32) (v : BitVec 128) (j : Nat) (hj : j < 128) :
    (lanewise f v).getLsbD j = (f (Sfmt.lane v (j / 32))).getLsbD (j % 32) := by
  have h := congrArg (fun w => w.getLsbD (j % 32)) (Sfmt.lane_lanewise f v (j / 32) (by omega))
  rw [← h, Sfmt.lane_getLsbD, decide_eq_true (by omega), Bool.true_and]
  congr 1
  omega

variable {x : Nat → BitVec 128} (hx : ∀ k, x (k + 156) = sfmtRec (x k) (x (k + 122)) (x (k + 154)) (x (k + 155)))
include hx

theorem rel_words (i : Nat) : rel (flat x) i = 0 := by
  obtain ⟨k, j, hj, rfl⟩ : ∃ k j, j < 128 ∧ i = 128 * k + j := ⟨i / 128, i % 128, by omega, by omega⟩
  have hm : (128 * k + j) % 128 = j := by omega
  have e0 : flat x (128 * k + j + 19968) = z ((x (k + 156)).getLsbD j) := by
    rw [← flat_at x (k + 156) j hj]; congr 1; omega
  have e1 := flat_at x k j hj
  have e2 : z (m8.testBit j) * (if 8 ≤ 128 * k + j then flat x (128 * k + j - 8) else 0) = z ((x k <<< 8).getLsbD j) := by
    rw [mask_8 j hj, BitVec.getLsbD_shiftLeft, decide_eq_true hj, Bool.true_and]
    by_cases h : 8 ≤ j
    · rw [if_pos (by omega), show 128 * k + j - 8 = 128 * k + (j - 8) by omega, flat_at x k _ (by omega), decide_eq_true h,
        decide_eq_false (by omega)]
      simp [z]
    · rw [decide_eq_false h, decide_eq_true (by omega)]
      simp [z]
  have e3 : z (mB.testBit j) * flat x (128 * k + j + 15627) =
      z ((lanewise (· >>> 11) (x (k + 122)) &&& 0xBFFFFFF6BFFAFFFFDDFECB7FDFFFFFEF#128).getLsbD j) := by
    rw [mask_B j hj, BitVec.getLsbD_and, lanewise_getLsbD _ _ _ hj, BitVec.getLsbD_ushiftRight, Sfmt.lane_getLsbD]
    by_cases h : 11 + j % 32 < 32
    · rw [show 128 * k + j + 15627 = 128 * (k + 122) + (j + 11) by omega, flat_at x _ _ (by omega), ← z_and, decide_eq_true h,
        Bool.true_and, Bool.true_and, Bool.and_comm, show 32 * (j / 32) + (11 + j % 32) = j + 11 by omega]
    · rw [decide_eq_false h]
      simp [z]
  have e4 : z (mC.testBit j) * flat x (128 * k + j + 19720) = z ((x (k + 154) >>> 8).getLsbD j) := by
    rw [mask_C j hj, BitVec.getLsbD_ushiftRight]
    by_cases h : j < 120
    · rw [show 128 * k + j + 19720 = 128 * (k + 154) + (8 + j) by omega, flat_at x _ _ (by omega), decide_eq_true h]
      simp [z]
    · rw [decide_eq_false h, BitVec.getLsbD_of_ge _ _ (by omega)]
      simp [z]
  have e5 : z (mD.testBit j) * flat x (128 * k + j + 19822) = z ((lanewise (· <<< 18) (x (k + 155))).getLsbD j) := by
    rw [mask_D j hj, lanewise_getLsbD _ _ _ hj, BitVec.getLsbD_shiftLeft, Sfmt.lane_getLsbD]
    by_cases h : 18 ≤ j % 32
    · rw [show 128 * k + j + 19822 = 128 * (k + 155) + (j - 18) by omega, flat_at x _ _ (by omega), decide_eq_true h,
        decide_eq_true (show j % 32 < 32 by omega), decide_eq_false (show ¬ j % 32 < 18 by omega),
        decide_eq_true (show j % 32 - 18 < 32 by omega), show 32 * (j / 32) + (j % 32 - 18) = j - 18 by omega]
      simp [z]
    · rw [decide_eq_false h, decide_eq_true (show j % 32 < 18 by omega)]
      simp [z]
  rw [rel, hm, e0, e1, e2, e3, e4, e5, hx k, sfmtRec]
  simp only [BitVec.getLsbD_xor, z_xor]
  generalize z _ = a1
  generalize z _ = a2
  generalize z _ = a3
  generalize z _ = a4
  generalize z _ = a5
  revert a1 a2 a3 a4 a5
  decide

omit hx

/-! ### from numbers to polynomials -/

theorem pv_split (T : (ZMod 2)[X]) (m p : Nat) : pv T p = pv T (p % 65536 ^ m) + T ^ m * pv T (p / 65536 ^ m) := by
  induction m generalizing p with
  | zero => simp [Nat.mod_one, pv_zero]
  | succ m ih =>
    have h1 : p % 65536 ^ (m + 1) % 2 = p % 2 := by
      rw [Nat.pow_succ']
      exact Nat.mod_mod_of_dvd _ ⟨32768 * 65536 ^ m, by ring⟩
    have h2 : p % 65536 ^ (m + 1) / 65536 = p / 65536 % 65536 ^ m := by
      rw [Nat.pow_succ', Nat.mod_mul_right_div_self]
    have h3 : p / 65536 ^ (m + 1) = p / 65536 / 65536 ^ m := by
      rw [Nat.pow_succ', Nat.div_div_eq_div_mul]
    rw [pv_step T p, pv_step T (p % 65536 ^ (m + 1)), h2, h3, ih (p / 65536)]
    have hb : (bit (p % 65536 ^ (m + 1)) : (ZMod 2)[X]) = bit p := by simp only [bit, h1]
    rw [hb]
    ring

theorem act_shift (g : (ZMod 2)[X]) (c : Nat → ZMod 2) (n : Nat) : act g c n = act g (fun k => c (k + n)) 0 := by
  have h1 : (fun k => c (k + n)) = act (X ^ n) c := by
    funext k
    rw [act_X_pow]
  have h2 := congrFun (act_comm (X ^ n) g c) 0
  rw [act_X_pow, Nat.zero_add] at h2
  rw [h1, h2]

theorem spreadH_succ (a l p : Nat) : spreadH a (l + 1) p =
    Nat.xor (spreadH a l (p % 65536 ^ 2 ^ l)) (Nat.shiftLeft (spreadH a l (p / 65536 ^ 2 ^ l)) (128 * 2 ^ l)) := rfl

theorem pair_spreadH (a l p : Nat) (s : Nat → ZMod 2) (h : p < 65536 ^ 2 ^ l) :
    pair (spreadH a l p) s = act (pv X p) (fun n => pair a fun i => s (i + 128 * n)) 0 := by
  induction l generalizing p s with
  | zero =>
    rw [pow_zero, pow_one] at h
    rw [pv_step, Nat.div_eq_of_lt h, pv_zero, mul_zero, add_zero, spreadH]
    change pair (p % 2 * a) s = _
    rcases Nat.mod_two_eq_zero_or_one p with h0 | h0
    · rw [h0, Nat.zero_mul, pair_zero, bit, if_neg (by omega), act, map_zero]
      rfl
    · rw [h0, Nat.one_mul, bit, if_pos h0, act_one]
      rfl
  | succ l ih =>
    have hp : 0 < 65536 ^ 2 ^ l := Nat.pow_pos (by omega)
    have e : 65536 ^ 2 ^ (l + 1) = 65536 ^ 2 ^ l * 65536 ^ 2 ^ l := by rw [← Nat.pow_add, ← Nat.two_mul, ← Nat.pow_succ']
    rw [spreadH_succ, pair_xor, pair_shl]
    rw [ih _ _ (Nat.mod_lt _ hp), ih _ _ (Nat.div_lt_of_lt_mul (e ▸ h)), pv_split X (2 ^ l) p, act_add, Pi.add_apply, act_mul, act_X_pow,
      Nat.zero_add, act_shift _ _ (2 ^ l)]
    congr 4
    funext n
    congr 1
    funext i
    congr 1
    ring

/-! ### the checked parity -/

/-- the parity checked by the period certification, word by word -/
def chk (x : Nat → BitVec 128) (n : Nat) : ZMod 2 := z (bitParity (x n &&& parityVector))

theorem z_xorUpto (n : Nat) (f : Nat → Bool) : z (Sfmt.xorUpto n f) = ∑ i ∈ range n, z (f i) := by
  induction n with
  | zero => rfl
  | succ n ih => rw [Sfmt.xorUpto_succ, z_xor, ih, sum_range_succ]

theorem par_bit : ∀ j < 128, par.testBit j = parityVector.getLsbD j := by decide +kernel

theorem chk_eq (x : Nat → BitVec 128) (n : Nat) : chk x n = pair par fun i => flat x (i + 128 * n) := by
  rw [pair_eq par 128 (by decide), chk]
  refine (z_xorUpto 128 _).trans (sum_congr rfl fun i hi => ?_)
  rw [mem_range] at hi
  rw [BitVec.getLsbD_and, z_and, par_bit i hi, Nat.add_comm i, flat_at x n i hi, mul_comm]

theorem chk_fun (x : Nat → BitVec 128) : chk x = fun n => pair par fun i => flat x (i + 128 * n) := by
  funext n
  rw [chk_eq]

/-- Generic form: the certificate for any vector and polynomial. -/
theorem annihilates {s : Nat → ZMod 2} (hs : ∀ i, rel s i = 0) (a k g l p : Nat) (hg : g < 2 ^ (128 * k)) (hl : p < 65536 ^ 2 ^ l)
    (h : bulk k g = spreadH a l p) : act (pv X p) (fun n => pair a fun i => s (i + 128 * n)) = 0 := by
  funext n
  have h1 := pair_bulk k g hg (fun i => s (i + 128 * n)) (fun i => by
    have := hs (i + 128 * n)
    rw [rel] at this ⊢
    rw [show (i + 128 * n) % 128 = i % 128 by omega, show i + 128 * n + 19968 = i + 19968 + 128 * n by omega,
      show i + 128 * n + 15627 = i + 15627 + 128 * n by omega, show i + 128 * n + 19720 = i + 19720 + 128 * n by omega,
      show i + 128 * n + 19822 = i + 19822 + 128 * n by omega] at this
    by_cases h8 : 8 ≤ i
    · rw [if_pos (by omega), show i + 128 * n - 8 = i - 8 + 128 * n by omega] at this
      rw [if_pos h8]
      exact this
    · have h0 : z (m8.testBit (i % 128)) = 0 := by
        rw [mask_8 _ (by omega), decide_eq_false (by omega)]; rfl
      rw [h0, zero_mul] at this ⊢
      exact this)
  rw [h, pair_spreadH a l p _ hl] at h1
  have h2 : (fun m => pair a fun i => s (i + 128 * m + 128 * n)) = fun m => (fun n => pair a fun i => s (i + 128 * n)) (m + n) := by
    funext m
    congr 1
    funext i
    congr 1
    ring
  rw [h2] at h1
  rw [act_shift, h1]
  rfl

theorem certificate_sound (a k l p g : Nat) (h : Nat.beq (force g fun g => force (bulk k g) fun h =>
    cond (Nat.ble (Nat.pow 2 (Nat.mul 128 k)) g) 0 (cond (Nat.beq h (spreadH a l p)) 1 0)) 1 = true) :
    g < 2 ^ (128 * k) ∧ bulk k g = spreadH a l p := by
  have hc := Nat.eq_of_beq_eq_true h
  rw [Mersenne.force_eq, Mersenne.force_eq] at hc
  cases hb : Nat.ble (Nat.pow 2 (Nat.mul 128 k)) g with
  | true => rw [hb, cond_true] at hc; exact absurd hc (by decide)
  | false =>
    rw [hb, cond_false] at hc
    constructor
    · rw [← not_le]
      intro hle
      exact absurd ((Nat.ble_eq_true_of_le hle).symm.trans hb) (by decide)
    · cases he : Nat.beq (bulk k g) (spreadH a l p) with
      | false => rw [he, cond_false] at hc; exact absurd hc (by decide)
      | true => exact Nat.eq_of_beq_eq_true he

theorem certificate_exists (a n p K : Nat) (hK : K = 126 * n) (h : certificate a n p = true) :
    ∃ g, g < 2 ^ (128 * K) ∧ bulk K g = spreadH a 15 (spread p) := by
  unfold certificate at h
  change Nat.beq (force _ fun g => force (bulk (126 * n) g) fun h => cond (Nat.ble (Nat.pow 2 (Nat.mul 128 (126 * n))) g) 0 _) 1 = true at h
  rw [← hK] at h
  generalize quotientLoop a p n 0 0 = g at h
  exact ⟨g, certificate_sound a K 15 (spread p) g h⟩

/-- what a certificate means -/
theorem certificate_act (a n p : Nat) (hk : packed (spread p) = true) (h : certificate a n p = true) (s : Nat → ZMod 2)
    (hs : ∀ i, rel s i = 0) : act (pv X (spread p)) (fun n => pair a fun i => s (i + 128 * n)) = 0 := by
  obtain ⟨K, hK⟩ : ∃ K, K = 126 * n := ⟨_, rfl⟩
  obtain ⟨g, hlt, he⟩ := certificate_exists a n p K hK h
  clear hK h
  refine annihilates hs a K g 15 (spread p) hlt ((packed_iff _ hk).2.trans_le ?_) he
  exact Nat.pow_le_pow_right (by omega) (by norm_num)

/-- Generic form again: what the kernel checks say of the polynomial `a` (compact). -/
theorem poly_of (a : Nat) (hk : packed (spread a) = true) (hc : certificate par 157 a = true)
    (hv : (Nat.beq (Nat.mod (spread a) 65536) 1 &&
      Nat.beq (force (Nat.shiftRight (prefixXor 15 (spread a)) 16) fun h => Nat.xor (Nat.xor h (Nat.mul 65536 h)) 1) (spread a)) = true) :
    (∃ h, (pv X (spread a) : (ZMod 2)[X]) = X * h + 1) ∧ (∃ h, (pv X (spread a) : (ZMod 2)[X]) = (X + 1) * h + 1) ∧
    ∀ x : Nat → BitVec 128, (∀ k, x (k + 156) = sfmtRec (x k) (x (k + 122)) (x (k + 154)) (x (k + 155))) →
      act (pv X (spread a)) (chk x) = 0 := by
  have hact := certificate_act par 157 a hk hc
  clear hc
  rw [Bool.and_eq_true] at hv
  obtain ⟨v1, v2⟩ := hv
  have v1 := Nat.eq_of_beq_eq_true v1
  have v2 := Nat.eq_of_beq_eq_true v2
  rw [Mersenne.force_eq] at v2
  generalize spread a = p at *
  generalize Nat.shiftRight _ _ = q at v2
  refine ⟨⟨pv X (p / 65536), ?_⟩, ⟨pv X q, ?_⟩, fun x hx => ?_⟩
  · rw [pv_step, bit, if_pos, add_comm]
    have v1 : p % 65536 = 1 := v1
    omega
  · conv => lhs; rw [← v2]
    have e : ∀ a b, Nat.xor a b = a ^^^ b := fun _ _ => rfl
    rw [e, e, pv_xor char2, pv_xor char2, pv_one]
    change pv X q + pv X (65536 * q) + 1 = _
    rw [pv_shift]
    ring
  · have h := hact (flat x) (rel_words hx)
    rwa [← chk_fun] at h

/-- the polynomial annihilates the checked parity -/
theorem exists_poly : ∃ g : (ZMod 2)[X], (∀ E, E = 2 ^ 19937 → g ∣ X ^ E - X) ∧ (∃ h, g = X * h + 1) ∧ (∃ h, g = (X + 1) * h + 1) ∧
    ∀ x : Nat → BitVec 128, (∀ k, x (k + 156) = sfmtRec (x k) (x (k + 122)) (x (k + 154)) (x (k + 155))) → act g (chk x) = 0 := by
  have hk := packed_phi
  simp only [Bool.and_eq_true] at hk
  exact ⟨pv X (spread phi), dvd, poly_of phi hk.1.1.1 certificate_phi values_phi⟩

/-- a sequence killed by such a polynomial has no short period -/
theorem no_short_period (g : (ZMod 2)[X]) (E N : Nat) (hN : N + 1 = E) (hprime : N.Prime) (hE : g ∣ X ^ E - X) (h0 : ∃ h, g = X * h + 1)
    (h1 : ∃ h, g = (X + 1) * h + 1) (c : Nat → ZMod 2) (hc : act g c = 0) (hne : c ≠ 0) (p M : Nat)
    (h : ∀ k, M ≤ k → c (k + p) = c k) : N ∣ p := by
  have hper : ∀ k, 1 ≤ k → c (k + N) = c k := by
    intro k hk
    obtain ⟨f, hf⟩ := hE
    have h2 : act (X ^ E - X) (act (X ^ 0) (act (X ^ 0) c)) = 0 := by
      rw [pow_zero, act_one, act_one, hf, mul_comm, act_mul, hc, act_zero]
    have := of_act c E 0 0 (k - 1) h2
    rwa [show k - 1 + E + 0 + 0 = k + N by omega, show k - 1 + 1 + 0 + 0 = k by omega] at this
  have hper' : ∀ m k, 1 ≤ k → c (k + N * m) = c k := by
    intro m
    induction m with
    | zero => intro k _; rfl
    | succ m ih => intro k hk; rw [Nat.mul_succ, ← Nat.add_assoc, hper _ (by omega), ih k hk]
  by_contra hd
  have hcop : Nat.Coprime p N := ((Nat.Prime.coprime_iff_not_dvd hprime).mpr hd).symm
  have e1 : ∀ k, 1 ≤ k → c (k + p) = c k := by
    intro k hk
    have hM : M ≤ k + N * M := (Nat.le_mul_of_pos_left M hprime.pos).trans (Nat.le_add_left _ _)
    rw [← hper' M (k + p) (by omega), Nat.add_right_comm, h _ hM, hper' M k hk]
  have e2 : ∀ u k, 1 ≤ k → c (k + p * u) = c k := by
    intro u
    induction u with
    | zero => intro k _; rfl
    | succ u ih => intro k hk; rw [Nat.mul_succ, ← Nat.add_assoc, e1 _ (by omega), ih k hk]
  obtain ⟨u, _, hu⟩ := Nat.exists_mul_mod_eq_one_of_coprime hcop hprime.one_lt
  have e3 : ∀ k, 1 ≤ k → c (k + 1) = c k := by
    intro k hk
    have e : p * u = 1 + N * (p * u / N) := by
      have := Nat.mod_add_div (p * u) N
      rw [hu] at this
      exact this.symm
    rw [← e2 u k hk, e, ← Nat.add_assoc, hper' _ _ (by omega)]
  have hX : act X c = 0 := by
    obtain ⟨f, hf⟩ := h1
    have a1 : act (X + 1) (act X c) = 0 := by
      funext k
      rw [act_add, act_one, Pi.add_apply, act_X, act_X, act_X, e3 (k + 1) (by omega)]
      exact CharTwo.add_self_eq_zero _
    have a2 : act g (act X c) = 0 := by rw [act_comm, hc, act_zero]
    rw [hf, act_add, act_one, mul_comm, act_mul, a1, act_zero, zero_add] at a2
    exact a2
  obtain ⟨f, hf⟩ := h0
  rw [hf, act_add, act_one, mul_comm, act_mul, hX, act_zero, zero_add] at hc
  exact hne hc

end Verif.SfmtPeriod
