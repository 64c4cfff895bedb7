import Verif.Lemmas.SfmtFull
import Mathlib.Algebra.Polynomial.Module.AEval
import Mathlib.RingTheory.Coprime.Lemmas
import Mathlib.Tactic.NormNum.Prime
/-
The parts of a run of SFMT19937 and their periods.
-/
namespace Verif.SfmtPeriod
open Verif.Gf2 Verif.Data.SfmtPoly Verif.Data.SfmtFull Verif.Spec Verif.MtPeriod Polynomial Finset

/-! ### coprime polynomials -/

theorem coprime_of (a b : (ZMod 2)[X]) (h : ∀ (R : Type) [CommRing R], (∀ x : R, x + x = 0) → ∀ f : (ZMod 2)[X] →+* R, f a = 0 →
    f b = 0 → (1 : R) = 0) : IsCoprime a b := by
  have h1 := h ((ZMod 2)[X] ⧸ Ideal.span {a, b}) (fun x => by
    obtain ⟨x, rfl⟩ := Ideal.Quotient.mk_surjective x
    rw [← map_add, CharTwo.add_self_eq_zero, map_zero]) (Ideal.Quotient.mk _)
    (Ideal.Quotient.eq_zero_iff_mem.mpr (Ideal.subset_span (by simp)))
    (Ideal.Quotient.eq_zero_iff_mem.mpr (Ideal.subset_span (by simp)))
  rw [← map_one (Ideal.Quotient.mk (Ideal.span {a, b})), Ideal.Quotient.eq_zero_iff_mem, Ideal.mem_span_pair] at h1
  exact h1

/-- the digits of `spread`, one by one -/
def slow : Nat → Nat → Nat
  | 0, _ => 0
  | k + 1, a => a % 2 + 65536 * slow k (a / 2)

theorem pv_slow {R : Type*} [CommRing R] (T : R) (k a : Nat) (h : a < 2 ^ k) : pv T (slow k a) = ev T a := by
  induction k generalizing a with
  | zero =>
    obtain rfl : a = 0 := by simpa using h
    rw [slow, pv_zero, ev_zero]
  | succ k ih =>
    rw [slow, pv_step, ev_step, ← ih (a / 2) (by rw [pow_succ] at h; omega)]
    have e1 : (a % 2 + 65536 * slow k (a / 2)) / 65536 = slow k (a / 2) := by omega
    have e2 : (a % 2 + 65536 * slow k (a / 2)) % 2 = a % 2 := by omega
    rw [e1, bit, e2, bit]

/-- the polynomials of degree 3, 13 and 15 -/
noncomputable def q3 : (ZMod 2)[X] := pv X (spread 11)
noncomputable def q13 : (ZMod 2)[X] := pv X (spread 10571)
noncomputable def q15 : (ZMod 2)[X] := pv X (spread 33827)
/-- the polynomial of degree 19937 -/
noncomputable def q0 : (ZMod 2)[X] := pv X (spread phi)

theorem spread_small : spread 11 = slow 16 11 ∧ spread 10571 = slow 16 10571 ∧ spread 33827 = slow 16 33827 := by decide +kernel

theorem pv_3 {R : Type*} [CommRing R] (T : R) : pv T (spread 11) = ev T 11 := by
  rw [spread_small.1, pv_slow T 16 11 (by decide)]
theorem pv_13 {R : Type*} [CommRing R] (T : R) : pv T (spread 10571) = ev T 10571 := by
  rw [spread_small.2.1, pv_slow T 16 10571 (by decide)]
theorem pv_15 {R : Type*} [CommRing R] (T : R) : pv T (spread 33827) = ev T 33827 := by
  rw [spread_small.2.2, pv_slow T 16 33827 (by decide)]

section ring
variable {R : Type} [CommRing R] (h2 : ∀ x : R, x + x = 0) {T : R}
include h2

/-- an element that is invertible modulo `P` is not zero with it -/
theorem unit_of (P n u w : Nat) (hP : ev T P = 0) (hu : u < 2 ^ n) (h : mul P n u w = 1) (h0 : ev T u = 0) : (1 : R) = 0 := by
  rw [← ev_one T, ← h, ev_mul h2 hP hu, h0, zero_mul]

theorem unit_pow (P n e w : Nat) (hP : ev T P = 0) (hl : P < 2 ^ (n + 1)) (hl' : 2 ^ n ≤ P) (hn : 2 ≤ n) (he : e < 2 ^ n)
    (hu : xpow P n e ^^^ 1 < 2 ^ n) (h : mul P n (xpow P n e ^^^ 1) w = 1) (h1 : T ^ e = 1) : (1 : R) = 0 := by
  refine unit_of h2 P n _ w hP hu h ?_
  rw [ev_xor h2, ev_xpow h2 hP hl hl' hn he, h1, ev_one, h2]

end ring

theorem coprime_pow (q : (ZMod 2)[X]) (P n e w : Nat) (hq : ∀ (R : Type) [CommRing R] (f : (ZMod 2)[X] →+* R), f q = ev (f X) P)
    (hl : P < 2 ^ (n + 1)) (hl' : 2 ^ n ≤ P) (hn : 2 ≤ n) (he : e < 2 ^ n)
    (hu : xpow P n e ^^^ 1 < 2 ^ n) (h : mul P n (xpow P n e ^^^ 1) w = 1) : IsCoprime q (X ^ e - 1) := by
  refine coprime_of _ _ fun R _ h2 f h3 h4 => ?_
  rw [map_sub, map_pow, map_one] at h4
  exact unit_pow h2 P n e w (by rw [← hq R f, h3]) hl hl' hn he hu h (sub_eq_zero.mp h4)

theorem dvd_pow (q : (ZMod 2)[X]) (P n e : Nat) (hq : ∀ (R : Type) [CommRing R] (f : (ZMod 2)[X] →+* R), f q = ev (f X) P)
    (hl : P < 2 ^ (n + 1)) (hl' : 2 ^ n ≤ P) (hn : 2 ≤ n) (he : e < 2 ^ n) (h : xpow P n e = 1) : q ∣ X ^ e - 1 := by
  rw [← Ideal.mem_span_singleton, ← Ideal.Quotient.eq_zero_iff_mem, map_sub, map_pow, sub_eq_zero, map_one]
  have h2 : ∀ x : (ZMod 2)[X] ⧸ Ideal.span {q}, x + x = 0 := by
    intro x
    obtain ⟨x, rfl⟩ := Ideal.Quotient.mk_surjective x
    rw [← map_add, CharTwo.add_self_eq_zero, map_zero]
  have h3 : ev (Ideal.Quotient.mk (Ideal.span {q}) X) P = 0 := by
    rw [← hq, Ideal.Quotient.eq_zero_iff_mem]
    exact Ideal.mem_span_singleton_self _
  rw [← ev_xpow h2 h3 hl hl' hn he, h, ev_one]

theorem map_3 (R : Type) [CommRing R] (f : (ZMod 2)[X] →+* R) : f q3 = ev (f X) 11 := by rw [q3, map_pv, pv_3]
theorem map_13 (R : Type) [CommRing R] (f : (ZMod 2)[X] →+* R) : f q13 = ev (f X) 10571 := by rw [q13, map_pv, pv_13]
theorem map_15 (R : Type) [CommRing R] (f : (ZMod 2)[X] →+* R) : f q15 = ev (f X) 33827 := by rw [q15, map_pv, pv_15]

theorem dvd_3 : q3 ∣ X ^ 7 - 1 := dvd_pow q3 11 3 7 map_3 (by decide) (by decide) (by decide) (by decide) (by decide +kernel)
theorem dvd_13 : q13 ∣ X ^ 8191 - 1 :=
  dvd_pow q13 10571 13 8191 map_13 (by decide) (by decide) (by decide) (by decide) (by decide +kernel)
theorem dvd_15 : q15 ∣ X ^ 32767 - 1 :=
  dvd_pow q15 33827 15 32767 map_15 (by decide) (by decide) (by decide) (by decide) (by decide +kernel)

theorem least_3 : IsCoprime q3 (X ^ 1 - 1) :=
  coprime_pow q3 11 3 1 6 map_3 (by decide) (by decide) (by decide) (by decide) (by decide +kernel) (by decide +kernel)
theorem least_13 : IsCoprime q13 (X ^ 1 - 1) :=
  coprime_pow q13 10571 13 1 6342 map_13 (by decide) (by decide) (by decide) (by decide) (by decide +kernel) (by decide +kernel)
theorem least_15a : IsCoprime q15 (X ^ 4681 - 1) :=
  coprime_pow q15 33827 15 4681 7242 map_15 (by decide) (by decide) (by decide) (by decide) (by decide +kernel) (by decide +kernel)
theorem least_15b : IsCoprime q15 (X ^ 1057 - 1) :=
  coprime_pow q15 33827 15 1057 3195 map_15 (by decide) (by decide) (by decide) (by decide) (by decide +kernel) (by decide +kernel)
theorem least_15c : IsCoprime q15 (X ^ 217 - 1) :=
  coprime_pow q15 33827 15 217 8544 map_15 (by decide) (by decide) (by decide) (by decide) (by decide +kernel) (by decide +kernel)

theorem coprime_3_13 : IsCoprime q3 q13 := coprime_of _ _ fun R _ h2 f h3 h4 =>
  unit_of h2 10571 13 11 8144 (by rw [← map_13 R f, h4]) (by decide) (by decide +kernel) (by rw [← map_3 R f, h3])
theorem coprime_3_15 : IsCoprime q3 q15 := coprime_of _ _ fun R _ h2 f h3 h4 =>
  unit_of h2 33827 15 11 12069 (by rw [← map_15 R f, h4]) (by decide) (by decide +kernel) (by rw [← map_3 R f, h3])
theorem coprime_13_15 : IsCoprime q13 q15 := coprime_of _ _ fun R _ h2 f h3 h4 =>
  unit_of h2 33827 15 10571 24600 (by rw [← map_15 R f, h4]) (by decide) (by decide +kernel) (by rw [← map_13 R f, h3])

/-! ### the factor of degree 19937 -/

theorem values_0 : (∃ h, q0 = X * h + 1) ∧ ∃ h, q0 = (X + 1) * h + 1 := by
  have hk := packed_phi
  simp only [Bool.and_eq_true] at hk
  obtain ⟨h1, h2, -⟩ := poly_of phi hk.1.1.1 certificate_phi values_phi
  exact ⟨h1, h2⟩

theorem dvd_q0 (E : Nat) (hE : E = 2 ^ 19937) : q0 ∣ X ^ E - X := by
  rw [q0]
  exact dvd E hE

theorem dvd_0 (N : Nat) (hN : N + 1 = 2 ^ 19937) : q0 ∣ X ^ N - 1 := by
  have h1 := dvd_q0 (N + 1) hN
  clear hN
  obtain ⟨⟨h, hh⟩, -⟩ := values_0
  have hc : IsCoprime q0 X := ⟨1, -h, by rw [hh]; ring⟩
  rw [show (X : (ZMod 2)[X]) ^ (N + 1) - X = X * (X ^ N - 1) by ring] at h1
  exact hc.dvd_of_dvd_mul_left h1

theorem coprime_0 (N : Nat) (hN : N + 1 = 2 ^ 19937) (hp : N.Prime) (q : (ZMod 2)[X]) (o : Nat) (h0 : 0 < o) (ho : o < 65536)
    (hq : q ∣ X ^ o - 1) : IsCoprime q0 q := by
  have hlt : o < N := by
    have h1 : 2 ^ 17 ≤ 2 ^ 19937 := Nat.pow_le_pow_right (by decide) (by decide)
    rw [← hN] at h1
    clear hN
    omega
  have hd := dvd_0 N hN
  clear hN
  obtain ⟨-, ⟨k, hk⟩⟩ := values_0
  refine coprime_of _ _ fun R _ h2 f h3 h4 => ?_
  have e1 : f X ^ N = 1 := by
    obtain ⟨c, hc⟩ := hd
    have := congrArg f hc
    rwa [map_mul, h3, zero_mul, map_sub, map_one, map_pow, sub_eq_zero] at this
  have e2 : f X ^ o = 1 := by
    obtain ⟨c, hc⟩ := hq
    have := congrArg f hc
    rwa [map_mul, h4, zero_mul, map_sub, map_one, map_pow, sub_eq_zero] at this
  have e3 : orderOf (f X) ∣ 1 := by
    have hg : Nat.Coprime N o := (Nat.Prime.coprime_iff_not_dvd hp).mpr fun h => by
      have := Nat.le_of_dvd h0 h
      omega
    rw [← hg]
    exact Nat.dvd_gcd (orderOf_dvd_of_pow_eq_one e1) (orderOf_dvd_of_pow_eq_one e2)
  have e4 : f X = 1 := orderOf_eq_one_iff.mp (Nat.dvd_one.mp e3)
  have := congrArg f hk
  rwa [h3, map_add, map_mul, map_add, e4, map_one, h2, zero_mul, zero_add, eq_comm] at this

theorem factors : pv X (spread full) = q0 * (q3 * (q13 * q15)) := by
  have hk := packed_phi
  have hf := product_full
  simp only [Bool.and_eq_true] at hk hf
  obtain ⟨⟨⟨⟨f1, f2⟩, f3⟩, -⟩, -⟩ := hf
  have pk : ∀ a b, packed a = true → packed b = true → ∀ c, Nat.beq (mulp (ones 40000) a b) c = true →
      (pv X c : (ZMod 2)[X]) = pv X a * pv X b := fun a b ha hb c hc => by
    rw [← Nat.eq_of_beq_eq_true hc, pv_mulp char2 X a b (packed_iff a ha) (packed_iff b hb)]
  rw [pk _ _ hk.1.1.1 (by decide +kernel) _ f1, pk _ _ (by decide +kernel) (by decide +kernel) _ f2,
    pk _ _ (by decide +kernel) (by decide +kernel) _ f3, q0, q3, q13, q15]

/-! ### parts -/

section parts
variable {E : Type*} [AddCommGroup E] [Module (ZMod 2) E] (S : Module.End (ZMod 2) E)

theorem aeval_zero_mul {p : (ZMod 2)[X]} {v : E} (h : aeval S p v = 0) (q : (ZMod 2)[X]) : aeval S (q * p) v = 0 := by
  rw [map_mul, Module.End.mul_apply, h, map_zero]

theorem split {p q : (ZMod 2)[X]} (hc : IsCoprime p q) {v : E} (h : aeval S (p * q) v = 0) :
    ∃ a b : (ZMod 2)[X], v = aeval S (a * q) v + aeval S (b * p) v ∧ aeval S p (aeval S (a * q) v) = 0 ∧
      aeval S q (aeval S (b * p) v) = 0 := by
  obtain ⟨b, a, hab⟩ := hc
  refine ⟨a, b, ?_, ?_, ?_⟩
  · rw [← LinearMap.add_apply, ← map_add, add_comm, hab, map_one, Module.End.one_apply]
  · rw [← Module.End.mul_apply, ← map_mul, show p * (a * q) = a * (p * q) by ring]
    exact aeval_zero_mul S h a
  · rw [← Module.End.mul_apply, ← map_mul, show q * (b * p) = b * (p * q) by ring]
    exact aeval_zero_mul S h b

theorem coprime_zero {p q : (ZMod 2)[X]} (hc : IsCoprime p q) {v : E} (hp : aeval S p v = 0) (hq : aeval S q v = 0) : v = 0 := by
  obtain ⟨a, b, hab⟩ := hc
  have : v = aeval S (a * p + b * q) v := by rw [hab, map_one, Module.End.one_apply]
  rw [this, map_add, LinearMap.add_apply, aeval_zero_mul S hp, aeval_zero_mul S hq, add_zero]

theorem aeval_pow_sub (m : Nat) (v : E) : aeval S (X ^ m - 1 : (ZMod 2)[X]) v = 0 ↔ (S ^ m) v = v := by
  rw [map_sub, map_pow, aeval_X, map_one, LinearMap.sub_apply, Module.End.one_apply, sub_eq_zero]

theorem fixed_poly {m : Nat} {v : E} (h : (S ^ m) v = v) (p : (ZMod 2)[X]) : (S ^ m) (aeval S p v) = aeval S p v := by
  rw [← aeval_pow_sub, ← Module.End.mul_apply, ← map_mul, mul_comm]
  exact aeval_zero_mul S ((aeval_pow_sub S m v).mpr h) p

theorem fixed_iff (m : Nat) (v : E) : (S ^ m) v = v ↔ Function.IsPeriodicPt S m v := by
  rw [Function.IsPeriodicPt, Function.IsFixedPt, Module.End.pow_apply]

theorem fixed_of_dvd {q : (ZMod 2)[X]} {o m : Nat} (hq : q ∣ X ^ o - 1) (hm : o ∣ m) {v : E} (h : aeval S q v = 0) : (S ^ m) v = v := by
  rw [fixed_iff]
  refine Function.IsPeriodicPt.trans_dvd ((fixed_iff S o v).mp ?_) hm
  obtain ⟨c, hc⟩ := hq
  rw [← aeval_pow_sub, hc, mul_comm]
  exact aeval_zero_mul S h c

/-- if the maximal divisors of `o` are no periods, the period is `o` -/
theorem dvd_of_fixed {q : (ZMod 2)[X]} {o m : Nat} (hq : q ∣ X ^ o - 1) (l : List Nat) (hl : ∀ g, g ∣ o → g ≠ o → ∃ e ∈ l, g ∣ e)
    (hc : ∀ e ∈ l, IsCoprime q (X ^ e - 1)) {v : E} (h : aeval S q v = 0) (hv : v ≠ 0) (hm : (S ^ m) v = v) : o ∣ m := by
  have h1 := (fixed_iff S o v).mp (fixed_of_dvd S hq (dvd_refl o) h)
  have h2 := h1.gcd ((fixed_iff S m v).mp hm)
  by_contra hn
  obtain ⟨e, he, hd⟩ := hl (Nat.gcd o m) (Nat.gcd_dvd_left o m) fun h => hn (by rw [← h]; exact Nat.gcd_dvd_right o m)
  exact hv (coprime_zero S (hc e he) h ((aeval_pow_sub S e v).mpr ((fixed_iff S e v).mpr (h2.trans_dvd hd))))

/-- A sum of four parts, one for each factor. The periods are the common periods of the parts, and each part of small degree is
zero or has its full period. -/
theorem parts_of (q0 q3 q13 q15 : (ZMod 2)[X]) (o3 o13 o15 m : Nat) (v : E) (h0 : aeval S (q0 * (q3 * (q13 * q15))) v = 0)
    (c3 : IsCoprime q0 q3) (c13 : IsCoprime q0 q13) (c15 : IsCoprime q0 q15) (c3_13 : IsCoprime q3 q13) (c3_15 : IsCoprime q3 q15)
    (c13_15 : IsCoprime q13 q15) (d0 : q0 ∣ X ^ m - 1) (d3 : q3 ∣ X ^ o3 - 1) (d13 : q13 ∣ X ^ o13 - 1) (d15 : q15 ∣ X ^ o15 - 1)
    (l3 : ∀ v, aeval S q3 v = 0 → v ≠ 0 → (S ^ m) v = v → o3 ∣ m) (l13 : ∀ v, aeval S q13 v = 0 → v ≠ 0 → (S ^ m) v = v → o13 ∣ m)
    (l15 : ∀ v, aeval S q15 v = 0 → v ≠ 0 → (S ^ m) v = v → o15 ∣ m) :
    (S ^ m) v = v ↔ (aeval S (q0 * (q13 * q15)) v ≠ 0 → o3 ∣ m) ∧ (aeval S (q0 * (q3 * q15)) v ≠ 0 → o13 ∣ m) ∧
      (aeval S (q0 * (q3 * q13)) v ≠ 0 → o15 ∣ m) := by
  constructor
  · intro h
    refine ⟨fun h1 => l3 _ ?_ h1 (fixed_poly S h _), fun h1 => l13 _ ?_ h1 (fixed_poly S h _), fun h1 => l15 _ ?_ h1 (fixed_poly S h _)⟩
    · rw [← Module.End.mul_apply, ← map_mul, show q3 * (q0 * (q13 * q15)) = q0 * (q3 * (q13 * q15)) by ring]; exact h0
    · rw [← Module.End.mul_apply, ← map_mul, show q13 * (q0 * (q3 * q15)) = q0 * (q3 * (q13 * q15)) by ring]; exact h0
    · rw [← Module.End.mul_apply, ← map_mul, show q15 * (q0 * (q3 * q13)) = q0 * (q3 * (q13 * q15)) by ring]; exact h0
  · rintro ⟨h3, h13, h15⟩
    obtain ⟨a, b, e1, k0, kb⟩ := split S (c3.mul_right (c13.mul_right c15)) h0
    obtain ⟨c, d, e2, k3, kd⟩ := split S (c3_13.mul_right c3_15) kb
    obtain ⟨e, f, e3, k13, k15⟩ := split S c13_15 kd
    rw [← Module.End.mul_apply, ← map_mul, ← Module.End.mul_apply, ← map_mul] at e2
    rw [← Module.End.mul_apply (aeval S (c * (q13 * q15))), ← map_mul] at k3
    rw [← Module.End.mul_apply (aeval S (d * q3)), ← map_mul] at k13 k15 e3
    rw [← Module.End.mul_apply (aeval S (e * q15)), ← map_mul] at k13 e3
    rw [← Module.End.mul_apply (aeval S (f * q13)), ← map_mul] at k15 e3
    have part : ∀ (r q u w : (ZMod 2)[X]) (o : Nat), q ∣ X ^ o - 1 → (aeval S r v ≠ 0 → o ∣ m) → w = u * r →
        aeval S q (aeval S w v) = 0 → (S ^ m) (aeval S w v) = aeval S w v := by
      intro r q u w o hq ho hw hk
      by_cases hz : aeval S r v = 0
      · rw [hw, aeval_zero_mul S hz u, map_zero]
      · exact fixed_of_dvd S hq (ho hz) hk
    have key : ∀ A B C D F G : E, v = A + B → B = C + D → D = F + G → (S ^ m) A = A → (S ^ m) C = C → (S ^ m) F = F →
        (S ^ m) G = G → (S ^ m) v = v := by
      rintro A B C D F G rfl rfl rfl h1 h2 h3 h4
      rw [map_add, map_add, map_add, h1, h2, h3, h4]
    exact key _ _ _ _ _ _ e1 e2 e3 (fixed_of_dvd S d0 (dvd_refl m) k0) (part (q0 * (q13 * q15)) q3 (c * b) _ _ d3 h3 (by ring) k3)
      (part (q0 * (q3 * q15)) q13 (e * d * b) _ _ d13 h13 (by ring) k13)
      (part (q0 * (q3 * q13)) q15 (f * d * b) _ _ d15 h15 (by ring) k15)

end parts

theorem divisors_7 : ∀ g, g ∣ 7 → g ≠ 7 → ∃ e ∈ [1], g ∣ e := by
  intro g hg hn
  rcases (Nat.Prime.eq_one_or_self_of_dvd (by norm_num : Nat.Prime 7) g hg) with h | h
  · exact ⟨1, by simp, by rw [h]⟩
  · exact absurd h hn

theorem divisors_8191 : ∀ g, g ∣ 8191 → g ≠ 8191 → ∃ e ∈ [1], g ∣ e := by
  intro g hg hn
  rcases (Nat.Prime.eq_one_or_self_of_dvd (by norm_num : Nat.Prime 8191) g hg) with h | h
  · exact ⟨1, by simp, by rw [h]⟩
  · exact absurd h hn

theorem divisors_32767 : ∀ g, g ∣ 32767 → g ≠ 32767 → ∃ e ∈ [4681, 1057, 217], g ∣ e := by
  intro g ⟨c, hc⟩ hn
  have hc1 : c ≠ 1 := by rintro rfl; exact hn (by omega)
  obtain ⟨p, hp, k, rfl⟩ := Nat.exists_prime_and_dvd hc1
  have hd : p ∣ 7 * (31 * 151) := ⟨g * k, by rw [show 7 * (31 * 151) = 32767 by norm_num, hc]; ring⟩
  have h7 : Nat.Prime 7 := by norm_num
  have h31 : Nat.Prime 31 := by norm_num
  have h151 : Nat.Prime 151 := by norm_num
  rcases (Nat.Prime.dvd_mul hp).mp hd with h | h
  · rw [(Nat.prime_dvd_prime_iff_eq hp h7).mp h] at hc
    exact ⟨4681, by simp, k, by nlinarith⟩
  · rcases (Nat.Prime.dvd_mul hp).mp h with h | h
    · rw [(Nat.prime_dvd_prime_iff_eq hp h31).mp h] at hc
      exact ⟨1057, by simp, k, by nlinarith⟩
    · rw [(Nat.prime_dvd_prime_iff_eq hp h151).mp h] at hc
      exact ⟨217, by simp, k, by nlinarith⟩

/-- the periods of a run -/
theorem parts {v : Nat → ZMod 2} (hv : Run v) (N : Nat) (hN : N + 1 = 2 ^ 19937) (hp : N.Prime) (m : Nat) (hm : N ∣ m) :
    (step ^ m) v = v ↔ (big (q0 * (q13 * q15)) v ≠ 0 → 7 ∣ m) ∧ (big (q0 * (q3 * q15)) v ≠ 0 → 8191 ∣ m) ∧
      (big (q0 * (q3 * q13)) v ≠ 0 → 32767 ∣ m) := by
  have c3 := coprime_0 N hN hp q3 7 (by decide) (by decide) dvd_3
  have c13 := coprime_0 N hN hp q13 8191 (by decide) (by decide) dvd_13
  have c15 := coprime_0 N hN hp q15 32767 (by decide) (by decide) dvd_15
  have d0 := dvd_0 N hN
  clear hN hp
  have h0 := full_run hv
  rw [factors] at h0
  refine parts_of step q0 q3 q13 q15 7 8191 32767 m v h0 c3 c13 c15 coprime_3_13 coprime_3_15 coprime_13_15
    (d0.trans ?_) dvd_3 dvd_13 dvd_15 ?_ ?_ ?_
  · obtain ⟨k, rfl⟩ := hm
    rw [pow_mul]
    simpa using sub_dvd_pow_sub_pow ((X : (ZMod 2)[X]) ^ N) 1 k
  · intro v hk h1 h
    refine dvd_of_fixed step dvd_3 [1] divisors_7 (fun e he => ?_) hk h1 h
    rw [List.mem_singleton] at he; subst he; exact least_3
  · intro v hk h1 h
    refine dvd_of_fixed step dvd_13 [1] divisors_8191 (fun e he => ?_) hk h1 h
    rw [List.mem_singleton] at he; subst he; exact least_13
  · intro v hk h1 h
    refine dvd_of_fixed step dvd_15 [4681, 1057, 217] divisors_32767 (fun e he => ?_) hk h1 h
    simp only [List.mem_cons, List.not_mem_nil, or_false] at he
    rcases he with rfl | rfl | rfl
    · exact least_15a
    · exact least_15b
    · exact least_15c

end Verif.SfmtPeriod
