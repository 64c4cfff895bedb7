import Verif.Props.Xorshift128
import Verif.Lemmas.Gf2Vec
import Verif.Lemmas.Primes
import Mathlib.Data.Fintype.Prod
/-
Xorshift128: all states except zero form one cycle.
-/
namespace Verif.Xorshift128
open Gf2

/-- the state as a vector over GF(2) -/
abbrev Vec := (X 32 × X 32) × (X 32 × X 32)

/-- see `Vec` -/
def toVec (s : State) : Vec := ((X.of s.s0, X.of s.s1), (X.of s.s2, X.of s.s3))
/-- see `Vec` -/
def ofVec (v : Vec) : State := ⟨v.1.1.bits, v.1.2.bits, v.2.1.bits, v.2.2.bits⟩

/-- the state update on vectors -/
def vecStep (v : Vec) : Vec := ((v.1.2, v.2.1), (v.2.2, X.of (fB (fA v.1.1.bits) ^^^ fT v.2.2.bits)))

theorem vecStep_eq (mode : Mode) (s : State) : vecStep (toVec s) = toVec (next mode s).1 := by
  simp only [next, nextWord_eq]; rfl

theorem fA_xor (a b : BitVec 32) : fA (a ^^^ b) = fA a ^^^ fA b := by
  simp only [fA, BitVec.shiftLeft_xor_distrib]
  generalize a <<< 11 = a1, b <<< 11 = b1
  ac_rfl
theorem fB_xor (a b : BitVec 32) : fB (a ^^^ b) = fB a ^^^ fB b := by
  simp only [fB, BitVec.ushiftRight_xor_distrib]
  generalize a >>> 8 = a1, b >>> 8 = b1
  ac_rfl
theorem fT_xor (a b : BitVec 32) : fT (a ^^^ b) = fT a ^^^ fT b := by
  simp only [fT, BitVec.ushiftRight_xor_distrib]
  generalize a >>> 19 = a1, b >>> 19 = b1
  ac_rfl

theorem vecStep_add (u v : Vec) : vecStep (u + v) = vecStep u + vecStep v := by
  have h : ∀ a b c d : BitVec 32, fB (fA (a ^^^ c)) ^^^ fT (b ^^^ d) = (fB (fA a) ^^^ fT b) ^^^ (fB (fA c) ^^^ fT d) := by
    intro a b c d
    rw [fA_xor, fB_xor, fT_xor]
    generalize fB (fA a) = a1, fB (fA c) = c1, fT b = b1, fT d = d1
    ac_rfl
  exact Prod.ext rfl (Prod.ext rfl (h u.1.1 u.2.2 v.1.1 v.2.2))

/-- the state update as a linear map -/
def T : AddMonoid.End Vec where
  toFun := vecStep
  map_zero' := by decide
  map_add' := vecStep_add

/-- the characteristic polynomial -/
def charPoly : Nat := 0x1000000010046d8b3f985d65ffd3c8001

set_option maxRecDepth 10000 in
theorem annihilates_check : (∀ i < 32, evApply vecStep 129 charPoly ((X.of (BitVec.twoPow 32 i), 0), 0) 0 = 0) ∧
    (∀ i < 32, evApply vecStep 129 charPoly ((0, X.of (BitVec.twoPow 32 i)), 0) 0 = 0) ∧
    (∀ i < 32, evApply vecStep 129 charPoly (0, (X.of (BitVec.twoPow 32 i), 0)) 0 = 0) ∧
    (∀ i < 32, evApply vecStep 129 charPoly (0, (0, X.of (BitVec.twoPow 32 i))) 0 = 0) := by
  decide +kernel

theorem annihilates : ev T charPoly = 0 := by
  have hb : ∀ v, (ev T charPoly) v = evApply vecStep 129 charPoly v 0 := fun v => by
    rw [show vecStep = ⇑T from rfl, evApply_eq T 129 charPoly v 0 (by decide), zero_add]
  obtain ⟨c1, c2, c3, c4⟩ := annihilates_check
  refine hom_prod_eq_zero _ (hom_prod_eq_zero _ ?_ ?_) (hom_prod_eq_zero _ ?_ ?_)
  · exact X.hom_eq_zero _ fun i hi => (hb _).trans (c1 i hi)
  · exact X.hom_eq_zero _ fun i hi => (hb _).trans (c2 i hi)
  · exact X.hom_eq_zero _ fun i hi => (hb _).trans (c3 i hi)
  · exact X.hom_eq_zero _ fun i hi => (hb _).trans (c4 i hi)

/-- inverses of `x^((2^128-1)/p) - 1` modulo the characteristic polynomial -/
def inverses : List (Nat × Nat) := [
  (3, 0x64c67953816627d8e1c03fd390fef03c),
  (5, 0x7232a2b2d2cd53a867f6d94da8f0e71f),
  (17, 0xd92cfed57f9e066f93380aec55c55bd2),
  (257, 0x69811d7e2688b56f2a355778589f965c),
  (641, 0xcce7c6e13d991eee18d029420f46ad66),
  (65537, 0xebffb80a9dc68f285f9da04a028d3ac),
  (274177, 0x5cb6e0cad66a1311fb7fd060f21d1ed1),
  (6700417, 0x4909a189c67b7953b575a8e2c60df884),
  (67280421310721, 0x35c6d222f6580cd92fd392c181af582b)]

/-- see `inverses` -/
def inverse (p : Nat) : Nat := (inverses.lookup p).getD 0

theorem xpow_check : xpow charPoly 128 (2 ^ 128 - 1) = 1 := by decide +kernel

theorem inverse_check : ∀ p ∈ primes128, inverse p < 2 ^ 128 ∧
    mul charPoly 128 (inverse p) (xpow charPoly 128 ((2 ^ 128 - 1) / p) ^^^ 1) = 1 := by decide +kernel

theorem vec_period {v : Vec} (hv : v ≠ 0) (k : Nat) : (T ^ k) v = v ↔ 2 ^ 128 - 1 ∣ k :=
  period (ps := primes128) (qs := inverse)
    (fun v => Prod.ext (Prod.ext (X.add_self _) (X.add_self _)) (Prod.ext (X.add_self _) (X.add_self _))) annihilates
    (by decide) (by decide) (by decide) (by decide) xpow_check mem_primes128 inverse_check hv k

theorem toVec_advance (mode : Mode) (s : State) (k : Nat) : toVec (advance mode s k) = (T ^ k) (toVec s) := by
  rw [advance, AddMonoid.End.coe_pow]
  induction k generalizing s with
  | zero => rfl
  | succ k ih =>
    rw [Function.iterate_succ_apply, Function.iterate_succ_apply, ih]
    exact congrArg _ (vecStep_eq mode s).symm

theorem toVec_inj {s t : State} (h : toVec s = toVec t) : s = t := congrArg ofVec h

/-- C83: starting from any state other than zero, the state comes back after `k` calls of `next` exactly when `k` is a
multiple of `2^128 - 1`. -/
theorem C83_period (mode : Mode) (s : State) (hs : s ≠ ⟨0, 0, 0, 0⟩) (k : Nat) :
    advance mode s k = s ↔ 2 ^ 128 - 1 ∣ k := by
  rw [← vec_period (v := toVec s) (fun h => hs (toVec_inj h)) k, ← toVec_advance]
  exact ⟨congrArg _, toVec_inj⟩

/-- C83: from any state other than zero every other such state is reached. -/
theorem C83_one_cycle (mode : Mode) (s t : State) (hs : s ≠ ⟨0, 0, 0, 0⟩) (ht : t ≠ ⟨0, 0, 0, 0⟩) :
    ∃ k < 2 ^ 128 - 1, advance mode s k = t := by
  obtain ⟨k, hk, h⟩ := one_cycle (N := 2 ^ 128 - 1) (T := T) (by decide)
    (by simp only [Fintype.card_prod, X.card]; decide) (fun v hv k => vec_period hv k)
    (v := toVec s) (w := toVec t) (fun h => hs (toVec_inj h)) (fun h => ht (toVec_inj h))
  exact ⟨k, hk, toVec_inj ((toVec_advance mode s k).trans h)⟩

/-- C83: four consecutive outputs can be any four words that are not all zero (in particular every 32-bit value is an
output), from every state other than zero. -/
theorem C83_every_output (mode : Mode) (s : State) (hs : s ≠ ⟨0, 0, 0, 0⟩) (a b c d : BitVec 32)
    (h : ¬ (a = 0 ∧ b = 0 ∧ c = 0 ∧ d = 0)) :
    ∃ k, (runN (next mode) 4 (advance mode s k)).2 = [a, b, c, d] := by
  let t : State := (runN (previous mode) 4 ⟨a, b, c, d⟩).1
  have ht4 : (runN (next mode) 4 t) = (⟨a, b, c, d⟩, [a, b, c, d]) := by
    rw [C27_previous_next]; rfl
  have ht : t ≠ ⟨0, 0, 0, 0⟩ := by
    intro h0
    rw [h0] at ht4
    have hz : runN (next mode) 4 ⟨0, 0, 0, 0⟩ = (⟨0, 0, 0, 0⟩, [0, 0, 0, 0]) := by cases mode <;> decide
    rw [hz] at ht4
    have := congrArg (fun r => r.1) ht4
    simp only [State.mk.injEq] at this
    exact h ⟨this.1.symm, this.2.1.symm, this.2.2.1.symm, this.2.2.2.symm⟩
  obtain ⟨k, -, hk⟩ := C83_one_cycle mode s t hs ht
  exact ⟨k, by rw [hk, ht4]⟩

example : (⟨0, 0, 0, 1⟩ : State) ≠ ⟨0, 0, 0, 0⟩ ∧ ¬ ((0 : BitVec 32) = 0 ∧ (7 : BitVec 32) = 0 ∧ (0 : BitVec 32) = 0 ∧ (0 : BitVec 32) = 0) := by
  decide

end Verif.Xorshift128
