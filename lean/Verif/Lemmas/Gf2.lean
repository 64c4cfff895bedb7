import Mathlib.Algebra.Group.Hom.End
import Mathlib.Algebra.Ring.Defs
import Mathlib.Algebra.Ring.Prod
import Mathlib.Dynamics.PeriodicPts.Lemmas
import Mathlib.Data.Nat.Prime.Basic
import Mathlib.Data.Nat.Bitwise
import Mathlib.Tactic.Ring
import Mathlib.Tactic.NoncommRing
/-
Periods of linear generators over GF(2).

A polynomial over GF(2) is a natural number (bit `i` = coefficient of `x^i`). `ev T a` is the value of the polynomial `a` at
an element `T` of a ring of characteristic two. Arithmetic modulo `P` is done on natural numbers (and evaluated by the
kernel); if `ev T P = 0`, it computes in the subring generated by `T`.
-/
namespace Verif.Gf2

section poly
variable {R : Type*} [Ring R]

/-- a coefficient -/
def bit (b : Nat) : R := if b % 2 = 1 then 1 else 0

/-- value of the polynomial `a` at `T` -/
def ev (T : R) (a : Nat) : R :=
  if a = 0 then 0 else bit a + T * ev T (a / 2)
termination_by a
decreasing_by omega

theorem ev_zero (T : R) : ev T 0 = 0 := by rw [ev]; simp

theorem ev_step (T : R) (a : Nat) : ev T a = bit a + T * ev T (a / 2) := by
  by_cases h : a = 0
  · subst h; simp [ev_zero, bit]
  · rw [ev]; simp [h]

theorem ev_one (T : R) : ev T 1 = 1 := by rw [ev_step]; simp [bit, ev_zero]

theorem ev_two (T : R) : ev T 2 = T := by rw [ev_step]; simp [bit, ev_one]

theorem ev_double (T : R) (a : Nat) : ev T (2 * a) = T * ev T a := by
  rw [ev_step]; simp [bit]

theorem bit_xor (h2 : ∀ x : R, x + x = 0) (a b : Nat) : (bit (a ^^^ b) : R) = bit a + bit b := by
  rcases Nat.mod_two_eq_zero_or_one a with ha | ha <;> rcases Nat.mod_two_eq_zero_or_one b with hb | hb <;>
    simp [bit, Nat.xor_mod_two_eq, Nat.add_mod, ha, hb, h2]

theorem ev_xor (h2 : ∀ x : R, x + x = 0) (T : R) (a b : Nat) : ev T (a ^^^ b) = ev T a + ev T b := by
  induction a using Nat.strong_induction_on generalizing b with
  | _ a ih =>
    by_cases h : a = 0
    · subst h; simp [ev_zero]
    · rw [ev_step T (a ^^^ b), ev_step T a, ev_step T b, bit_xor h2, Nat.xor_div_two, ih (a / 2) (by omega), mul_add]
      abel

theorem ev_comm (T : R) (a : Nat) : T * ev T a = ev T a * T := by
  induction a using Nat.strong_induction_on with
  | _ a ih =>
    by_cases h : a = 0
    · subst h; simp [ev_zero]
    · have hb : T * (bit a : R) = bit a * T := by simp only [bit]; split <;> simp
      rw [ev_step, mul_add, add_mul, hb, mul_assoc, ← ih (a / 2) (by omega)]

/-- `x * b mod P`, for `P` of degree `n` -/
def xtime (P n b : Nat) : Nat := if 2 * b < 2 ^ n then 2 * b else (2 * b) ^^^ P

/-- `a * b mod P`, `k` bits of `a`, plus `acc` -/
def mulAux (P n : Nat) : Nat → Nat → Nat → Nat → Nat
  | 0, _, _, acc => acc
  | k + 1, a, b, acc => mulAux P n k (a / 2) (xtime P n b) (if a % 2 = 1 then acc ^^^ b else acc)

/-- `a * b mod P` -/
def mul (P n a b : Nat) : Nat := mulAux P n n a b 0

/-- `acc * b ^ e mod P`, `k` bits of `e` -/
def powAux (P n : Nat) : Nat → Nat → Nat → Nat → Nat
  | 0, _, _, acc => acc
  | k + 1, b, e, acc => powAux P n k (mul P n b b) (e / 2) (if e % 2 = 1 then mul P n b acc else acc)

/-- `x ^ e mod P`, `e < 2 ^ n` -/
def xpow (P n e : Nat) : Nat := powAux P n n 2 e 1

variable {T : R} {P n : Nat}

theorem ev_xtime (h2 : ∀ x : R, x + x = 0) (hP : ev T P = 0) (b : Nat) : ev T (xtime P n b) = T * ev T b := by
  unfold xtime; split
  · exact ev_double T b
  · rw [ev_xor h2, hP, ev_double, add_zero]

theorem ev_mulAux (h2 : ∀ x : R, x + x = 0) (hP : ev T P = 0) (k : Nat) : ∀ a b acc : Nat, a < 2 ^ k →
    ev T (mulAux P n k a b acc) = ev T acc + ev T a * ev T b := by
  induction k with
  | zero => intro a b acc h; obtain rfl : a = 0 := by simpa using h
            simp [mulAux, ev_zero]
  | succ k ih =>
    intro a b acc h
    rw [mulAux, ih _ _ _ (by rw [pow_succ] at h; omega), ev_xtime h2 hP, ev_step T a, add_mul]
    have hb : ev T (if a % 2 = 1 then acc ^^^ b else acc) = ev T acc + bit a * ev T b := by
      split <;> rename_i h <;> simp [bit, h, ev_xor h2]
    rw [hb, ← mul_assoc, ← ev_comm]; abel

theorem mulAux_lt (hP : P < 2 ^ (n + 1)) (hP' : 2 ^ n ≤ P) (k : Nat) : ∀ a b acc : Nat, b < 2 ^ n → acc < 2 ^ n →
    mulAux P n k a b acc < 2 ^ n := by
  induction k with
  | zero => intro a b acc _ h; exact h
  | succ k ih =>
    intro a b acc hb ha
    rw [mulAux]
    refine ih _ _ _ ?_ ?_
    · unfold xtime; split
      · assumption
      · rename_i h
        have h2b : 2 * b < 2 ^ (n + 1) := by rw [pow_succ]; omega
        apply Nat.lt_pow_two_of_testBit
        intro i hi
        rw [Nat.testBit_xor]
        rcases Nat.lt_or_ge n i with hin | hin
        · rw [Nat.testBit_lt_two_pow (lt_of_lt_of_le h2b (Nat.pow_le_pow_right (by omega) (by omega))),
            Nat.testBit_lt_two_pow (lt_of_lt_of_le hP (Nat.pow_le_pow_right (by omega) (by omega)))]; rfl
        · obtain rfl : i = n := by omega
          have t1 : (2 * b).testBit i = true := by
            rw [Nat.testBit_eq_decide_div_mod_eq]
            have : 2 * b / 2 ^ i = 1 := by
              apply Nat.div_eq_of_lt_le <;> rw [pow_succ] at * <;> omega
            simp [this]
          have t2 : P.testBit i = true := by
            rw [Nat.testBit_eq_decide_div_mod_eq]
            have : P / 2 ^ i = 1 := by
              apply Nat.div_eq_of_lt_le <;> rw [pow_succ] at * <;> omega
            simp [this]
          rw [t1, t2]; rfl
    · split
      · exact Nat.xor_lt_two_pow ha hb
      · exact ha

theorem ev_mul (h2 : ∀ x : R, x + x = 0) (hP : ev T P = 0) {a : Nat} (ha : a < 2 ^ n) (b : Nat) :
    ev T (mul P n a b) = ev T a * ev T b := by
  rw [mul, ev_mulAux h2 hP n a b 0 ha, ev_zero, zero_add]

theorem mul_lt (hP : P < 2 ^ (n + 1)) (hP' : 2 ^ n ≤ P) {b : Nat} (hb : b < 2 ^ n) (a : Nat) : mul P n a b < 2 ^ n :=
  mulAux_lt hP hP' n a b 0 hb (Nat.two_pow_pos n)

theorem ev_powAux (h2 : ∀ x : R, x + x = 0) (hP : ev T P = 0) (hl : P < 2 ^ (n + 1)) (hl' : 2 ^ n ≤ P) (k : Nat) :
    ∀ b e acc : Nat, b < 2 ^ n → e < 2 ^ k → ev T (powAux P n k b e acc) = ev T b ^ e * ev T acc := by
  induction k with
  | zero => intro b e acc _ h; obtain rfl : e = 0 := by simpa using h
            simp [powAux]
  | succ k ih =>
    intro b e acc hb h
    rw [powAux, ih _ _ _ (mul_lt hl hl' hb b) (by rw [pow_succ] at h; omega), ev_mul h2 hP hb, ← pow_two, ← pow_mul]
    split <;> rename_i he
    · rw [ev_mul h2 hP hb, ← mul_assoc, ← pow_succ]
      congr 2; omega
    · congr 2; omega

theorem ev_xpow (h2 : ∀ x : R, x + x = 0) (hP : ev T P = 0) (hl : P < 2 ^ (n + 1)) (hl' : 2 ^ n ≤ P) (hn : 2 ≤ n)
    {e : Nat} (he : e < 2 ^ n) : ev T (xpow P n e) = T ^ e := by
  have : 2 < 2 ^ n := lt_of_lt_of_le (by decide : 2 < 2 ^ 2) (Nat.pow_le_pow_right (by omega) hn)
  rw [xpow, ev_powAux h2 hP hl hl' n 2 e 1 this he, ev_two, ev_one, mul_one]

end poly

/-! ### Periods -/
section period
variable {V : Type*} [AddCommGroup V]

theorem end_char2 (h2 : ∀ x : V, x + x = 0) (f : AddMonoid.End V) : f + f = 0 := by
  ext v; exact h2 (f v)

/-- Let `N < 2 ^ n` be the product of the primes `ps`; `qs` are the inverses of `x^(N/p) - 1` modulo `P`. Then `T` moves every
nonzero vector with period exactly `N`. -/
theorem period {P n N : Nat} {ps : List Nat} {qs : Nat → Nat} {T : AddMonoid.End V} (h2 : ∀ x : V, x + x = 0)
    (hP : ev T P = 0) (hl : P < 2 ^ (n + 1)) (hl' : 2 ^ n ≤ P) (hn : 2 ≤ n) (hN : N < 2 ^ n)
    (h1 : xpow P n N = 1) (hps : ∀ p, p.Prime → p ∣ N → p ∈ ps)
    (hq : ∀ p ∈ ps, qs p < 2 ^ n ∧ mul P n (qs p) (xpow P n (N / p) ^^^ 1) = 1) {v : V} (hv : v ≠ 0) (k : Nat) :
    (T ^ k) v = v ↔ N ∣ k := by
  have hc := end_char2 h2
  have hit : ∀ k, (T ^ k) v = (⇑T)^[k] v := fun k => by rw [AddMonoid.End.coe_pow]
  have hNv : (T ^ N) v = v := by
    rw [← ev_xpow hc hP hl hl' hn hN, h1, ev_one]; rfl
  have hper : Function.minimalPeriod (⇑T) v = N := by
    have hd : Function.minimalPeriod (⇑T) v ∣ N := by
      apply Function.IsPeriodicPt.minimalPeriod_dvd
      rw [Function.IsPeriodicPt, Function.IsFixedPt, ← hit, hNv]
    by_contra hne
    obtain ⟨c, hcN⟩ := hd
    have hc1 : c ≠ 1 := by rintro rfl; rw [mul_one] at hcN; exact hne hcN.symm
    obtain ⟨p, hp, hpc⟩ := Nat.exists_prime_and_dvd hc1
    have hpN : p ∣ N := hcN ▸ Dvd.dvd.mul_left hpc _
    obtain ⟨hqlt, hqm⟩ := hq p (hps p hp hpN)
    have hfix : (T ^ (N / p)) v = v := by
      rw [hit]
      obtain ⟨d, rfl⟩ := hpc
      have : N / p = Function.minimalPeriod (⇑T) v * d := by
        rw [hcN, show Function.minimalPeriod (⇑T) v * (p * d) = p * (Function.minimalPeriod (⇑T) v * d) by ring,
          Nat.mul_div_cancel_left _ hp.pos]
      rw [this]
      exact (Function.isPeriodicPt_minimalPeriod (⇑T) v).mul_const d
    have hlt : N / p < 2 ^ n := lt_of_le_of_lt (Nat.div_le_self _ _) hN
    have key : ev T (qs p) * (T ^ (N / p) + 1) = 1 := by
      rw [← ev_xpow hc hP hl hl' hn hlt, ← ev_one T, ← ev_xor hc, ← ev_mul hc hP hqlt, hqm, ev_one]
    apply hv
    have := congrArg (fun f : AddMonoid.End V => f v) key
    have h3 : (ev T (qs p)) ((T ^ (N / p)) v + v) = v := this
    rw [hfix, h2, map_zero] at h3
    exact h3.symm
  rw [hit, ← hper, ← Function.isPeriodicPt_iff_minimalPeriod_dvd]
  rfl

end period
end Verif.Gf2
