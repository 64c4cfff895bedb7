import Verif.Lemmas.Gf2
import Verif.Lemmas.Mersenne
import Verif.Lemmas.PackedDefs
/-
Polynomials over GF(2) of large degree.

A polynomial is a natural number again, but coefficient `i` is digit `i` in base 2^16. A product of numbers is then a product
of polynomials up to parity of the digits, as long as the digits do not overflow, so the kernel multiplies polynomials by
multiplying numbers.
-/
namespace Verif.Gf2
open Verif.Mersenne

section packed
variable {R : Type*} [CommRing R]

/-- value at `T` of the polynomial whose coefficients are the parities of the digits of `a` in base 2^16 -/
def pv (T : R) (a : Nat) : R :=
  if a = 0 then 0 else bit a + T * pv T (a / 65536)
termination_by a
decreasing_by omega

theorem pv_zero (T : R) : pv T 0 = 0 := by rw [pv]; simp

theorem pv_step (T : R) (a : Nat) : pv T a = bit a + T * pv T (a / 65536) := by
  by_cases h : a = 0
  · subst h; simp [pv_zero, bit]
  · rw [pv]; simp [h]

theorem pv_one (T : R) : pv T 1 = 1 := by rw [pv_step]; simp [bit, pv_zero]

theorem pv_shift (T : R) (a : Nat) : pv T (65536 * a) = T * pv T a := by
  rw [pv_step, Nat.mul_div_cancel_left _ (by norm_num)]
  simp [bit]
  omega

theorem pv_shifts (T : R) (a n : Nat) : pv T (65536 ^ n * a) = T ^ n * pv T a := by
  induction n with
  | zero => simp
  | succ n ih => rw [Nat.pow_succ', Nat.mul_assoc, pv_shift, ih, pow_succ', mul_assoc]

theorem pv_X (T : R) : pv T 65536 = T := by
  rw [show (65536 : Nat) = 65536 * 1 by norm_num, pv_shift, pv_one, mul_one]

theorem pv_xor (h2 : ∀ x : R, x + x = 0) (T : R) (a b : Nat) : pv T (a ^^^ b) = pv T a + pv T b := by
  induction a using Nat.strong_induction_on generalizing b with
  | _ a ih =>
    by_cases h : a = 0
    · subst h; simp [pv_zero]
    · have hd : (a ^^^ b) / 65536 = a / 65536 ^^^ b / 65536 := by
        rw [show (65536 : Nat) = 2 ^ 16 by norm_num, ← Nat.shiftRight_eq_div_pow, Nat.shiftRight_xor_distrib,
          Nat.shiftRight_eq_div_pow, Nat.shiftRight_eq_div_pow]
      rw [pv_step T (a ^^^ b), pv_step T a, pv_step T b, bit_xor h2, hd, ih (a / 65536) (by omega)]
      ring

/-! ### digits -/

/-- all digits are at most `k` -/
def Small (k a : Nat) : Prop := ∀ i, a / 65536 ^ i % 65536 ≤ k

theorem Small.low {k a : Nat} (h : Small k a) : a % 65536 ≤ k := by simpa using h 0

theorem Small.high {k a : Nat} (h : Small k a) : Small k (a / 65536) := fun i => by
  rw [Nat.div_div_eq_div_mul, ← Nat.pow_succ']
  exact h (i + 1)

theorem Small.mono {k l a : Nat} (h : Small k a) (hl : k ≤ l) : Small l a := fun i => (h i).trans hl

theorem Small.of {k a : Nat} (h0 : a % 65536 ≤ k) (h : Small k (a / 65536)) : Small k a := fun i => by
  cases i with
  | zero => simpa using h0
  | succ i =>
    have := h i
    rwa [Nat.div_div_eq_div_mul, ← Nat.pow_succ'] at this

theorem small_zero (k : Nat) : Small k 0 := fun i => by simp

theorem Small.shift {k a : Nat} (h : Small k a) : Small k (65536 * a) :=
  .of (by omega) (by rwa [Nat.mul_div_cancel_left _ (by norm_num)])

theorem Small.add (k l : Nat) (hkl : k + l < 65536) : ∀ n a b : Nat, a + b ≤ n → Small k a → Small l b → Small (k + l) (a + b) := by
  intro n
  induction n with
  | zero =>
    intro a b h _ _
    rw [show a + b = 0 by omega]
    exact small_zero _
  | succ n ih =>
    intro a b h ha hb
    by_cases h0 : a + b = 0
    · rw [h0]; exact small_zero _
    · have h1 := ha.low
      have h2 := hb.low
      have e : (a + b) / 65536 = a / 65536 + b / 65536 := by omega
      apply Small.of
      · omega
      · rw [e]
        exact ih _ _ (by omega) ha.high hb.high

theorem bit_add (h2 : ∀ x : R, x + x = 0) (a b : Nat) : (bit (a + b) : R) = bit a + bit b := by
  rcases Nat.mod_two_eq_zero_or_one a with ha | ha <;> rcases Nat.mod_two_eq_zero_or_one b with hb | hb <;>
    simp [bit, Nat.add_mod, ha, hb, h2]

theorem pv_add (h2 : ∀ x : R, x + x = 0) (T : R) (k l : Nat) (hkl : k + l < 65536) :
    ∀ n a b : Nat, a + b ≤ n → Small k a → Small l b → pv T (a + b) = pv T a + pv T b := by
  intro n
  induction n with
  | zero =>
    intro a b h _ _
    rw [show a = 0 by omega, show b = 0 by omega]
    simp [pv_zero]
  | succ n ih =>
    intro a b h ha hb
    by_cases h0 : a + b = 0
    · rw [show a = 0 by omega, show b = 0 by omega]
      simp [pv_zero]
    · have h1 := ha.low
      have h3 := hb.low
      have e : (a + b) / 65536 = a / 65536 + b / 65536 := by omega
      rw [pv_step T (a + b), pv_step T a, pv_step T b, bit_add h2, e, ih _ _ (by omega) ha.high hb.high]
      ring

theorem product (h2 : ∀ x : R, x + x = 0) (T : R) (b : Nat) (hb : Small 1 b) : ∀ n a : Nat, n < 65536 → a < 65536 ^ n → Small 1 a →
    Small n (a * b) ∧ pv T (a * b) = pv T a * pv T b := by
  intro n
  induction n with
  | zero =>
    intro a _ h _
    rw [show a = 0 by simpa using h]
    simp [pv_zero, small_zero]
  | succ n ih =>
    intro a hn h ha
    obtain ⟨i1, i2⟩ := ih (a / 65536) (by omega) (by rw [Nat.pow_succ] at h; exact Nat.div_lt_of_lt_mul (by rwa [Nat.mul_comm])) ha.high
    have h0 : a % 65536 = 0 ∨ a % 65536 = 1 := by have := ha.low; omega
    have e : a * b = a % 65536 * b + 65536 * (a / 65536 * b) := by
      conv => lhs; rw [← Nat.mod_add_div a 65536]
      ring
    have s1 : Small 1 (a % 65536 * b) := by
      rcases h0 with h0 | h0 <;> rw [h0]
      · rw [Nat.zero_mul]; exact small_zero _
      · rwa [Nat.one_mul]
    have p1 : pv T (a % 65536 * b) = bit a * pv T b := by
      rcases h0 with h0 | h0 <;> rw [h0]
      · rw [Nat.zero_mul, pv_zero, bit, if_neg (by omega), zero_mul]
      · rw [Nat.one_mul, bit, if_pos (by omega), one_mul]
    constructor
    · rw [e, Nat.add_comm n 1]
      exact Small.add 1 n (by omega) _ _ _ le_rfl s1 i1.shift
    · rw [e, pv_add h2 T 1 n (by omega) _ _ _ le_rfl s1 i1.shift, pv_shift, i2, p1, pv_step T a]
      ring

/-! ### masks -/

theorem ones_zero : ones 0 = 0 := by decide

theorem ones_succ (n : Nat) : ones (n + 1) = 65536 * ones n + 1 := by
  have e : ∀ n, ones n = (65536 ^ n - 1) / 65535 := fun n => by
    change (2 ^ (16 * n) - 1) / 65535 = _
    rw [pow_mul, show (2 : Nat) ^ 16 = 65536 by norm_num]
  have d : ∀ n, 65535 ∣ 65536 ^ n - 1 := fun n => by
    have := Nat.sub_dvd_pow_sub_pow 65536 1 n
    rwa [one_pow] at this
  obtain ⟨c, hc⟩ := d n
  have hp : 1 ≤ 65536 ^ n := Nat.one_le_pow _ _ (by norm_num)
  rw [e, e, hc, Nat.mul_div_cancel_left _ (by norm_num), Nat.pow_succ']
  have : 65536 * 65536 ^ n - 1 = 65535 * (65536 * c + 1) := by omega
  rw [this, Nat.mul_div_cancel_left _ (by norm_num)]

theorem land_div (a m : Nat) : (a &&& m) / 65536 = a / 65536 &&& m / 65536 := by
  rw [show (65536 : Nat) = 2 ^ 16 by norm_num, ← Nat.shiftRight_eq_div_pow, Nat.shiftRight_and_distrib,
    Nat.shiftRight_eq_div_pow, Nat.shiftRight_eq_div_pow]

theorem land_mod (a m : Nat) : (a &&& m) % 65536 = a % 65536 &&& m % 65536 := by
  rw [show (65536 : Nat) = 2 ^ 16 by norm_num, Nat.and_mod_two_pow]

/-- A masked number has digits 0 and 1 and at most `n` of them; masking keeps the parities. -/
theorem mask (T : R) (n : Nat) : ∀ a : Nat, Small 1 (Nat.land a (ones n)) ∧ Nat.land a (ones n) < 65536 ^ n ∧
    (a < 65536 ^ n → pv T (Nat.land a (ones n)) = pv T a) := by
  induction n with
  | zero =>
    intro a
    rw [ones_zero]
    have : Nat.land a 0 = 0 := Nat.and_zero a
    rw [this]
    refine ⟨small_zero _, by norm_num, fun h => ?_⟩
    rw [show a = 0 by simpa using h]
  | succ n ih =>
    intro a
    obtain ⟨h1, h2, h3⟩ := ih (a / 65536)
    have ed : Nat.land a (ones (n + 1)) / 65536 = Nat.land (a / 65536) (ones n) := by
      have := land_div a (ones (n + 1))
      rw [show ones (n + 1) / 65536 = ones n by rw [ones_succ]; omega] at this
      exact this
    have em : Nat.land a (ones (n + 1)) % 65536 = a % 2 := by
      have := land_mod a (ones (n + 1))
      rw [show ones (n + 1) % 65536 = 1 by rw [ones_succ]; omega, Nat.and_one_is_mod] at this
      exact this.trans (by omega)
    refine ⟨Small.of (by omega) (by rwa [ed]), ?_, fun h => ?_⟩
    · rw [← ed] at h2
      rw [Nat.pow_succ']
      omega
    · rw [pv_step T a, pv_step, ed, h3 (by rw [Nat.pow_succ] at h; exact Nat.div_lt_of_lt_mul (by rwa [Nat.mul_comm]))]
      congr 1
      simp only [bit]
      rw [show Nat.land a (ones (n + 1)) % 2 = a % 2 by omega]

/-! ### arithmetic modulo a polynomial -/

/-- a polynomial of degree below 20000 -/
def Packed (a : Nat) : Prop := Small 1 a ∧ a < 65536 ^ 20000

theorem packed_iff (a : Nat) (h : packed a = true) : Packed a := by
  obtain ⟨h1, h2, -⟩ := mask (0 : ZMod 2) 20000 a
  rw [Nat.eq_of_beq_eq_true h] at h1 h2
  exact ⟨h1, h2⟩

theorem pv_mulp (h2 : ∀ x : R, x + x = 0) (T : R) (a b : Nat) (ha : Packed a) (hb : Packed b) :
    pv T (mulp (ones 40000) a b) = pv T a * pv T b := by
  have h3 := (mask T 40000 (a * b)).2.2 (by
    rw [show (65536 : Nat) ^ 40000 = 65536 ^ 20000 * 65536 ^ 20000 by rw [← Nat.pow_add]]
    exact Nat.mul_lt_mul'' ha.2 hb.2)
  exact h3.trans (product h2 T b hb.1 20000 a (by norm_num) ha.2 ha.1).2

theorem Small.xor : ∀ n a b : Nat, a ≤ n → Small 1 a → Small 1 b → Small 1 (a ^^^ b) := by
  intro n
  induction n with
  | zero =>
    intro a b h _ hb
    rwa [show a = 0 by omega, Nat.zero_xor]
  | succ n ih =>
    intro a b h ha hb
    by_cases h0 : a = 0
    · rwa [h0, Nat.zero_xor]
    have hd : (a ^^^ b) / 65536 = a / 65536 ^^^ b / 65536 := by
      rw [show (65536 : Nat) = 2 ^ 16 by norm_num, ← Nat.shiftRight_eq_div_pow, Nat.shiftRight_xor_distrib,
        Nat.shiftRight_eq_div_pow, Nat.shiftRight_eq_div_pow]
    have hm : (a ^^^ b) % 65536 = a % 65536 ^^^ b % 65536 := by
      rw [show (65536 : Nat) = 2 ^ 16 by norm_num, Nat.xor_mod_two_pow]
    apply Small.of
    · rw [hm]
      exact Nat.le_of_lt_succ (Nat.xor_lt_two_pow (n := 1) (Nat.lt_succ_of_le ha.low) (Nat.lt_succ_of_le hb.low))
    · rw [hd]
      exact ih _ _ (by omega) ha.high hb.high

theorem ones_lt (n : Nat) : ones n < 65536 ^ n := by
  induction n with
  | zero => rw [ones_zero]; norm_num
  | succ n ih => rw [ones_succ, Nat.pow_succ']; omega

theorem pv_sqmod (h2 : ∀ x : R, x + x = 0) (T : R) (p u d a : Nat) (ha : Packed a) (hp : Packed p) (hT : pv T p = 0)
    (h0 : sqmod (ones 40000) (ones 20000) p u d a ≠ 0) :
    Packed (sqmod (ones 40000) (ones 20000) p u d a) ∧ pv T (sqmod (ones 40000) (ones 20000) p u d a) = pv T a ^ 2 := by
  simp only [sqmod] at h0 ⊢
  set q := Nat.land (Nat.shiftRight (mulp (ones 40000) (Nat.shiftRight (mulp (ones 40000) a a) d) u) d) (ones 20000) with hq
  set r := Nat.xor (mulp (ones 40000) a a) (mulp (ones 40000) q p) with hr
  cases hb : Nat.ble r (ones 20000) with
  | false => rw [hb] at h0; exact absurd rfl h0
  | true =>
    refine ⟨⟨Small.xor _ _ _ le_rfl (mask T 40000 _).1 (mask T 40000 _).1, (Nat.le_of_ble_eq_true hb).trans_lt (ones_lt _)⟩, ?_⟩
    have hpq : Packed q := ⟨(mask T 20000 _).1, (mask T 20000 _).2.1⟩
    change pv T r = _
    rw [hr]
    change pv T (mulp (ones 40000) a a ^^^ mulp (ones 40000) q p) = _
    rw [pv_xor h2, pv_mulp h2 T a a ha ha, pv_mulp h2 T q p hpq hp, hT, mul_zero, add_zero, sq]

theorem sqs_succ (m l p u d n a : Nat) : sqs m l p u d (n + 1) a = sqs m l p u d n (sqmod m l p u d a) := by
  change force (sqmod m l p u d a) (sqs m l p u d n) = _
  rw [force_eq]

theorem sqmod_zero (m l p u d : Nat) : sqmod m l p u d 0 = 0 := by
  have e : ∀ a b : Nat, mulp m a b = a * b &&& m := fun _ _ => rfl
  simp [sqmod, e]

theorem sqs_zero (m l p u d n : Nat) : sqs m l p u d n 0 = 0 := by
  induction n with
  | zero => rfl
  | succ n ih => rw [sqs_succ, sqmod_zero, ih]

theorem pv_sqs (h2 : ∀ x : R, x + x = 0) (T : R) (p u d : Nat) (hp : Packed p) (hT : pv T p = 0) (n : Nat) : ∀ a, Packed a →
    sqs (ones 40000) (ones 20000) p u d n a ≠ 0 → Packed (sqs (ones 40000) (ones 20000) p u d n a) ∧
      pv T (sqs (ones 40000) (ones 20000) p u d n a) = pv T a ^ 2 ^ n := by
  induction n with
  | zero => intro a ha _; exact ⟨ha, by rw [pow_zero, pow_one]; rfl⟩
  | succ n ih =>
    intro a ha h0
    rw [sqs_succ] at h0 ⊢
    by_cases hz : sqmod (ones 40000) (ones 20000) p u d a = 0
    · rw [hz, sqs_zero] at h0; exact absurd rfl h0
    obtain ⟨h3, h4⟩ := pv_sqmod h2 T p u d a ha hp hT hz
    obtain ⟨h5, h6⟩ := ih _ h3 h0
    refine ⟨h5, ?_⟩
    rw [h6, h4, ← pow_mul, pow_succ']

theorem chunk_sound (h2 : ∀ x : R, x + x = 0) (T : R) (p u d n a b : Nat) (hp : Packed (spread p)) (hT : pv T (spread p) = 0)
    (ha : Packed (spread a)) (hb : spread b ≠ 0) (h : chunk p u d n a b = true) :
    Packed (spread b) ∧ pv T (spread b) = pv T (spread a) ^ 2 ^ n := by
  have h := Nat.eq_of_beq_eq_true h
  simp only [force_eq] at h
  rw [← h] at hb ⊢
  exact pv_sqs h2 T (spread p) (spread u) d hp hT n (spread a) ha hb

end packed

end Verif.Gf2
