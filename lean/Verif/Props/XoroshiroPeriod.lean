import Verif.Props.Xoroshiro
import Verif.Lemmas.Gf2Vec
import Verif.Lemmas.Primes
import Mathlib.Data.Fintype.Prod
/-
Xoroshiro128+: all states except zero form one cycle; consequences for the rejection sampling of `next_rand`.
-/
namespace Verif.Xoroshiro
open Gf2

/-- the state as a vector over GF(2) -/
abbrev Vec := X 64 × X 64

/-- see `Vec` -/
def toVec (s : State) : Vec := (X.of s.s0, X.of s.s1)
/-- see `Vec` -/
def ofVec (v : Vec) : State := ⟨v.1.bits, v.2.bits⟩

/-- the state update on vectors -/
def vecStep (v : Vec) : Vec :=
  let a := v.1.bits
  let b := v.2.bits ^^^ v.1.bits
  (X.of (((a <<< 24) ^^^ (a >>> 40)) ^^^ b ^^^ (b <<< 16)), X.of ((b <<< 37) ^^^ (b >>> 27)))

theorem rot_xor (v : BitVec 64) (c : Nat) (h : 0 < c ∧ c < 64) : (v <<< c) ||| (v >>> (64 - c)) = (v <<< c) ^^^ (v >>> (64 - c)) := by
  apply BitVec.eq_of_getLsbD_eq
  intro i hi
  rw [BitVec.getLsbD_or, BitVec.getLsbD_xor, BitVec.getLsbD_shiftLeft, BitVec.getLsbD_ushiftRight]
  by_cases hc : i < c
  · simp [hc]
  · rw [BitVec.getLsbD_of_ge v (64 - c + i) (by omega)]; simp

theorem vecStep_eq (mode : Mode) (s : State) : vecStep (toVec s) = toVec (step mode s) := by
  simp only [step, rotl_eq _ _ 24 (by omega), rotl_eq _ _ 37 (by omega), rot_xor _ 24 (by omega), rot_xor _ 37 (by omega)]
  rfl

theorem vecStep_add (u v : Vec) : vecStep (u + v) = vecStep u + vecStep v := by
  have h0 : ∀ a b c d : BitVec 64,
      (((a ^^^ c) <<< 24) ^^^ ((a ^^^ c) >>> 40)) ^^^ ((b ^^^ d) ^^^ (a ^^^ c)) ^^^ (((b ^^^ d) ^^^ (a ^^^ c)) <<< 16) =
      (((a <<< 24) ^^^ (a >>> 40)) ^^^ (b ^^^ a) ^^^ ((b ^^^ a) <<< 16)) ^^^
        (((c <<< 24) ^^^ (c >>> 40)) ^^^ (d ^^^ c) ^^^ ((d ^^^ c) <<< 16)) := by
    intro a b c d
    simp only [BitVec.shiftLeft_xor_distrib, BitVec.ushiftRight_xor_distrib]
    generalize a <<< 24 = a1, a >>> 40 = a2, a <<< 16 = a3, b <<< 16 = b3, c <<< 24 = c1, c >>> 40 = c2, c <<< 16 = c3,
      d <<< 16 = d3
    ac_rfl
  have h1 : ∀ a b c d : BitVec 64,
      (((b ^^^ d) ^^^ (a ^^^ c)) <<< 37) ^^^ (((b ^^^ d) ^^^ (a ^^^ c)) >>> 27) =
      (((b ^^^ a) <<< 37) ^^^ ((b ^^^ a) >>> 27)) ^^^ (((d ^^^ c) <<< 37) ^^^ ((d ^^^ c) >>> 27)) := by
    intro a b c d
    simp only [BitVec.shiftLeft_xor_distrib, BitVec.ushiftRight_xor_distrib]
    generalize a <<< 37 = a1, a >>> 27 = a2, b <<< 37 = b1, b >>> 27 = b2, c <<< 37 = c1, c >>> 27 = c2, d <<< 37 = d1,
      d >>> 27 = d2
    ac_rfl
  exact Prod.ext (h0 u.1 u.2 v.1 v.2) (h1 u.1 u.2 v.1 v.2)

/-- the state update as a linear map -/
def T : AddMonoid.End Vec where
  toFun := vecStep
  map_zero' := by decide
  map_add' := vecStep_add

/-- the characteristic polynomial -/
def charPoly : Nat := 0x10008828e513b43d5095b8f76579aa001

set_option maxRecDepth 10000 in
theorem annihilates_check : (∀ i < 64, evApply vecStep 129 charPoly (X.of (BitVec.twoPow 64 i), 0) 0 = 0) ∧
    (∀ i < 64, evApply vecStep 129 charPoly (0, X.of (BitVec.twoPow 64 i)) 0 = 0) := by
  decide +kernel

theorem annihilates : ev T charPoly = 0 := by
  have hb : ∀ v, (ev T charPoly) v = evApply vecStep 129 charPoly v 0 := fun v => by
    rw [show vecStep = ⇑T from rfl, evApply_eq T 129 charPoly v 0 (by decide), zero_add]
  have h1 : (ev T charPoly).comp (AddMonoidHom.inl (X 64) (X 64)) = 0 :=
    X.hom_eq_zero _ fun i hi => (hb _).trans (annihilates_check.1 i hi)
  have h2 : (ev T charPoly).comp (AddMonoidHom.inr (X 64) (X 64)) = 0 :=
    X.hom_eq_zero _ fun i hi => (hb _).trans (annihilates_check.2 i hi)
  exact hom_prod_eq_zero _ h1 h2

/-- inverses of `x^((2^128-1)/p) - 1` modulo the characteristic polynomial -/
def inverses : List (Nat × Nat) := [
  (3, 0x28ad2cf3e09d85f0dc40f461d2c2c7d8),
  (5, 0xbe5308ec69514dc2ca8939e8bb7cc7f3),
  (17, 0xb033aadb8e620d5380760c3edaa7db8),
  (257, 0x30e5aaf1d16d836bb08347f6b98df9d6),
  (641, 0x6ec2b2abc5012855a81493c7e42b2476),
  (65537, 0x3c13da96bdf060b8b178dd43e7c56a9e),
  (274177, 0x37430ca27c542004fe3ea4c3ea9f5ebc),
  (6700417, 0xfbf5d1e791cb791fc6077daa37669ed5),
  (67280421310721, 0x55db575fb05489582681f5f2a0a72912)]

/-- see `inverses` -/
def inverse (p : Nat) : Nat := (inverses.lookup p).getD 0

theorem xpow_check : xpow charPoly 128 (2 ^ 128 - 1) = 1 := by decide +kernel

theorem inverse_check : ∀ p ∈ primes128, inverse p < 2 ^ 128 ∧
    mul charPoly 128 (inverse p) (xpow charPoly 128 ((2 ^ 128 - 1) / p) ^^^ 1) = 1 := by decide +kernel

theorem vec_period {v : Vec} (hv : v ≠ 0) (k : Nat) : (T ^ k) v = v ↔ 2 ^ 128 - 1 ∣ k :=
  period (ps := primes128) (qs := inverse) (fun v => Prod.ext (X.add_self v.1) (X.add_self v.2)) annihilates (by decide)
    (by decide) (by decide) (by decide) xpow_check mem_primes128 inverse_check hv k

theorem toVec_advance (mode : Mode) (s : State) (k : Nat) : toVec (advance mode s k) = (T ^ k) (toVec s) := by
  rw [advance, AddMonoid.End.coe_pow]
  induction k generalizing s with
  | zero => rfl
  | succ k ih =>
    rw [Function.iterate_succ_apply, Function.iterate_succ_apply, ih]
    exact congrArg _ (vecStep_eq mode s).symm

theorem toVec_inj {s t : State} (h : toVec s = toVec t) : s = t := congrArg ofVec h

/-- C81: starting from any state other than zero, the state comes back after `k` calls of `next` exactly when `k` is a
multiple of `2^128 - 1`. -/
theorem C81_period (mode : Mode) (s : State) (hs : s ≠ ⟨0, 0⟩) (k : Nat) :
    advance mode s k = s ↔ 2 ^ 128 - 1 ∣ k := by
  rw [← vec_period (v := toVec s) (fun h => hs (toVec_inj h)) k, ← toVec_advance]
  exact ⟨congrArg _, toVec_inj⟩

/-- C81: from any state other than zero every other such state is reached. -/
theorem C81_one_cycle (mode : Mode) (s t : State) (hs : s ≠ ⟨0, 0⟩) (ht : t ≠ ⟨0, 0⟩) :
    ∃ k < 2 ^ 128 - 1, advance mode s k = t := by
  obtain ⟨k, hk, h⟩ := one_cycle (N := 2 ^ 128 - 1) (T := T) (by decide)
    (by rw [Fintype.card_prod, X.card]; decide) (fun v hv k => vec_period hv k)
    (v := toVec s) (w := toVec t) (fun h => hs (toVec_inj h)) (fun h => ht (toVec_inj h))
  exact ⟨k, hk, toVec_inj ((toVec_advance mode s k).trans h)⟩

/-- C82: every 64-bit value is an output, from every state other than zero. -/
theorem C82_every_output (mode : Mode) (s : State) (hs : s ≠ ⟨0, 0⟩) (v : BitVec 64) :
    ∃ k < 2 ^ 128 - 1, output mode s k = v := by
  obtain ⟨k, hk, h⟩ := C81_one_cycle mode s ⟨1, v - 1⟩ hs (fun h => absurd (congrArg State.s0 h) (by simp))
  refine ⟨k, hk, ?_⟩
  rw [output, h]
  exact (BitVec.add_comm _ _).trans (BitVec.sub_add_cancel _ _)

/-- C82: `next_rand(maximum)` returns, from every state, exactly when `maximum` is not 0. -/
theorem C82_terminates (mode : Mode) (s : State) (m : BitVec 32) :
    (∃ fuel r, Rejection.nextRand mode fuel s m = some r) ↔ m ≠ 0 := by
  constructor
  · rintro ⟨fuel, r, h⟩ rfl
    rw [C33_empty_range] at h
    cases h
  · intro hm
    have hm' : 0 < m.toNat := by
      rcases Nat.eq_zero_or_pos m.toNat with h | h
      · exact absurd (BitVec.eq_of_toNat_eq (by simpa using h)) hm
      · exact h
    have h0 : ∃ k, output mode s k = 0 := by
      by_cases hs : s = ⟨0, 0⟩
      · exact ⟨0, by rw [hs]; rfl⟩
      · obtain ⟨k, -, h⟩ := C82_every_output mode s hs 0
        exact ⟨k, h⟩
    have hex : ∃ k, (output mode s k &&& Rejection.bitMask mode m).toNat < m.toNat := by
      obtain ⟨k, hk⟩ := h0
      exact ⟨k, by rw [hk]; simpa using hm'⟩
    classical
    refine ⟨Nat.find hex + 1, (advance mode s (Nat.find hex + 1), output mode s (Nat.find hex) &&& Rejection.bitMask mode m), ?_⟩
    rw [Rejection.nextRand, drawLoop_iff]
    exact ⟨Nat.find hex, by omega, fun j hj => by simpa using Nat.find_min hex hj, Nat.find_spec hex, rfl, rfl⟩

/-- C82: every value below `maximum` is returned at some time, from every state other than zero. -/
theorem C82_every_value (mode : Mode) (s : State) (hs : s ≠ ⟨0, 0⟩) (m : BitVec 32) (v : BitVec 64) (hv : v.toNat < m.toNat) :
    ∃ k s', Rejection.nextRand mode 1 (advance mode s k) m = some (s', v) := by
  have hm : m ≠ 0 := by rintro rfl; simp at hv
  obtain ⟨k, -, hk⟩ := C82_every_output mode s hs v
  refine ⟨k, advance mode s (k + 1), ?_⟩
  have h0 : output mode (advance mode s k) 0 = v := hk
  rw [C32_rejection mode 1 _ _ m v hm]
  have hmod : v.toNat % 2 ^ (m.toNat - 1).size = v.toNat := by
    apply Nat.mod_eq_of_lt
    have := Nat.lt_size_self (m.toNat - 1)
    omega
  refine ⟨0, by omega, by omega, ?_, ?_, ?_⟩
  · rw [h0, hmod]; exact hv
  · rw [h0, hmod]
  · simp only [advance, Function.iterate_succ_apply', Function.iterate_zero_apply]

example : (⟨1, 0⟩ : State) ≠ ⟨0, 0⟩ ∧ (99 : BitVec 64).toNat < (100 : BitVec 32).toNat := by decide

/-- C85: every value below `maximum` is returned by the splitmix variant's `next_rand` at some time, for every seed. -/
theorem C85_every_value (mode : Mode) (junk : State) (seed : BitVec 64) (m v : BitVec 32) (hv : v.toNat < m.toNat) :
    ∃ k, (SplitMix.nextRand mode (advance mode (SplitMix.new junk seed) k) m).2 = .ok v := by
  have hm : m ≠ 0 := by rintro rfl; simp at hv
  obtain ⟨k, -, hk⟩ := C82_every_output mode _ (C34_nonzero junk seed).2 (v.setWidth 64 <<< 32)
  refine ⟨k, ?_⟩
  have hn : (SplitMix.next mode (advance mode (SplitMix.new junk seed) k)).2 = v := by
    have e : (SplitMix.next mode (advance mode (SplitMix.new junk seed) k)).2 = ((v.setWidth 64 <<< 32) >>> 32).setWidth 32 := by
      rw [← hk]; rfl
    rw [e]
    apply BitVec.eq_of_toNat_eq
    have := v.isLt
    simp only [BitVec.toNat_setWidth, BitVec.toNat_ushiftRight, BitVec.toNat_shiftLeft, Nat.shiftLeft_eq,
      Nat.shiftRight_eq_div_pow]
    omega
  obtain ⟨r, h1, h2, -⟩ := C85_split_next_rand mode (advance mode (SplitMix.new junk seed) k) m hm
  rw [h1]
  rw [hn, Nat.mod_eq_of_lt hv] at h2
  exact congrArg Except.ok (BitVec.eq_of_toNat_eq h2)

end Verif.Xoroshiro
