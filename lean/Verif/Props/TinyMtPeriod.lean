import Verif.Props.TinyMt
import Verif.Lemmas.Gf2Vec
import Verif.Lemmas.Primes
import Mathlib.Data.Fintype.Prod
/-
TinyMT: all effective states (127 bits) except zero form one cycle, so every seed gives the full period 2^127 - 1.
-/
namespace Verif.TinyMt
open Gf2

/-- the effective state as a vector over GF(2) -/
abbrev Vec := (X 31 × X 32) × (X 32 × X 32)

/-- see `Vec` -/
def toVec (s : State) : Vec := ((X.of (s.s0.setWidth 31), X.of s.s1), (X.of s.s2, X.of s.s3))

/-- the state update on vectors -/
def vecStep (v : Vec) : Vec := toVec (shuffle32 ⟨v.1.1.bits.setWidth 32, v.1.2.bits, v.2.1.bits, v.2.2.bits⟩)

theorem toVec_eff {s t : State} : toVec s = toVec t ↔ eff s = eff t := by
  constructor
  · intro h
    exact congrArg (fun v : Vec => (v.1.1.bits, v.1.2.bits, v.2.1.bits, v.2.2.bits)) h
  · intro h
    exact congrArg (fun e : BitVec 31 × BitVec 32 × BitVec 32 × BitVec 32 => (((X.of e.1, X.of e.2.1), (X.of e.2.2.1, X.of e.2.2.2)) : Vec)) h

theorem vecStep_eq (s : State) : vecStep (toVec s) = toVec (shuffle32 s) := by
  refine congrArg toVec (shuffle32_congr ?_)
  refine toVec_eff.1 ?_
  refine Prod.ext (Prod.ext ?_ rfl) rfl
  change ((s.s0.setWidth 31).setWidth 32).setWidth 31 = s.s0.setWidth 31
  rw [BitVec.setWidth_setWidth_of_le _ (by omega), BitVec.setWidth_eq]

/-- the pieces of a step -/
def f1 (x : BitVec 32) : BitVec 32 := x ^^^ (x <<< 1)
def fX (a b c : BitVec 32) : BitVec 32 := f1 ((a &&& 0x7FFFFFFF#32) ^^^ b ^^^ c)
def fY (d x : BitVec 32) : BitVec 32 := d ^^^ ((d >>> 1) ^^^ x)
def fM (c y : BitVec 32) : BitVec 32 := (y &&& 1) * c

theorem fX_xor (a b c a' b' c' : BitVec 32) : fX (a ^^^ a') (b ^^^ b') (c ^^^ c') = fX a b c ^^^ fX a' b' c' := by
  have hm : (a ^^^ a') &&& 0x7FFFFFFF#32 = (a &&& 0x7FFFFFFF#32) ^^^ (a' &&& 0x7FFFFFFF#32) := by
    apply BitVec.eq_of_getLsbD_eq
    intro i _
    simp only [BitVec.getLsbD_and, BitVec.getLsbD_xor, Bool.and_xor_distrib_right]
  have h : ∀ x y : BitVec 32, f1 (x ^^^ y) = f1 x ^^^ f1 y := by
    intro x y
    unfold f1
    rw [BitVec.shiftLeft_xor_distrib]
    generalize x <<< 1 = x1, y <<< 1 = y1
    ac_rfl
  unfold fX
  rw [← h, hm]
  generalize a &&& 0x7FFFFFFF#32 = m, a' &&& 0x7FFFFFFF#32 = m'
  congr 1
  ac_rfl

theorem fY_xor (d x d' x' : BitVec 32) : fY (d ^^^ d') (x ^^^ x') = fY d x ^^^ fY d' x' := by
  simp only [fY, BitVec.ushiftRight_xor_distrib]
  generalize d >>> 1 = d1, d' >>> 1 = d1'
  ac_rfl

theorem fM_xor (c y y' : BitVec 32) : fM c (y ^^^ y') = fM c y ^^^ fM c y' := by
  simp only [fM, mask_bit 0 _ c rfl, BitVec.getLsbD_xor]
  cases y.getLsbD 0 <;> cases y'.getLsbD 0 <;> simp

/-- exclusive or of states -/
def sxor (s t : State) : State := ⟨s.s0 ^^^ t.s0, s.s1 ^^^ t.s1, s.s2 ^^^ t.s2, s.s3 ^^^ t.s3⟩

theorem shuffle32_xor (s t : State) : shuffle32 (sxor s t) = sxor (shuffle32 s) (shuffle32 t) := by
  have hd : ∀ s, shuffle32 s = ⟨s.s1, s.s2 ^^^ fM 0x8F7011EE (fY s.s3 (fX s.s0 s.s1 s.s2)),
      fX s.s0 s.s1 s.s2 ^^^ (fY s.s3 (fX s.s0 s.s1 s.s2) <<< 10) ^^^ fM 0xFC78FF1F (fY s.s3 (fX s.s0 s.s1 s.s2)),
      fY s.s3 (fX s.s0 s.s1 s.s2)⟩ := fun _ => rfl
  have hc : ∀ a b c d : BitVec 32, (a ^^^ b) ^^^ (c ^^^ d) = (a ^^^ c) ^^^ (b ^^^ d) := by intros; ac_rfl
  rw [hd, hd s, hd t]
  simp only [sxor, fX_xor, fY_xor, fM_xor, BitVec.shiftLeft_xor_distrib, State.mk.injEq, true_and, and_true]
  exact ⟨hc .., by rw [hc (fX s.s0 s.s1 s.s2), hc]⟩

theorem toVec_sxor (s t : State) : toVec (sxor s t) = toVec s + toVec t :=
  Prod.ext (Prod.ext (BitVec.setWidth_xor (x := s.s0) (y := t.s0)) rfl) rfl

theorem vecStep_add (u v : Vec) : vecStep (u + v) = vecStep u + vecStep v := by
  unfold vecStep
  rw [← toVec_sxor, ← shuffle32_xor, sxor]
  have ha : ((u + v).1.1.bits).setWidth 32 = u.1.1.bits.setWidth 32 ^^^ v.1.1.bits.setWidth 32 :=
    BitVec.setWidth_xor (x := u.1.1.bits) (y := v.1.1.bits)
  rw [ha]
  rfl

/-- the state update as a linear map -/
def T : AddMonoid.End Vec where
  toFun := vecStep
  map_zero' := by decide
  map_add' := vecStep_add

/-- the characteristic polynomial -/
def charPoly : Nat := 0xd8524022ed8dff4a8dcc50c798faba43

set_option maxRecDepth 10000 in
theorem annihilates_check : (∀ i < 31, evApply vecStep 128 charPoly ((X.of (BitVec.twoPow 31 i), 0), 0) 0 = 0) ∧
    (∀ i < 32, evApply vecStep 128 charPoly ((0, X.of (BitVec.twoPow 32 i)), 0) 0 = 0) ∧
    (∀ i < 32, evApply vecStep 128 charPoly (0, (X.of (BitVec.twoPow 32 i), 0)) 0 = 0) ∧
    (∀ i < 32, evApply vecStep 128 charPoly (0, (0, X.of (BitVec.twoPow 32 i))) 0 = 0) := by
  decide +kernel

theorem annihilates : ev T charPoly = 0 := by
  have hb : ∀ v, (ev T charPoly) v = evApply vecStep 128 charPoly v 0 := fun v => by
    rw [show vecStep = ⇑T from rfl, evApply_eq T 128 charPoly v 0 (by decide), zero_add]
  obtain ⟨c1, c2, c3, c4⟩ := annihilates_check
  refine hom_prod_eq_zero _ (hom_prod_eq_zero _ ?_ ?_) (hom_prod_eq_zero _ ?_ ?_)
  · exact X.hom_eq_zero _ fun i hi => (hb _).trans (c1 i hi)
  · exact X.hom_eq_zero _ fun i hi => (hb _).trans (c2 i hi)
  · exact X.hom_eq_zero _ fun i hi => (hb _).trans (c3 i hi)
  · exact X.hom_eq_zero _ fun i hi => (hb _).trans (c4 i hi)

theorem xpow_check : xpow charPoly 127 (2 ^ 127 - 1) = 1 := by decide +kernel

theorem inverse_check : ∀ p ∈ [2 ^ 127 - 1], 0x4831c01e5b7b553984bbcfbd77a9963e < 2 ^ 127 ∧
    mul charPoly 127 0x4831c01e5b7b553984bbcfbd77a9963e (xpow charPoly 127 ((2 ^ 127 - 1) / p) ^^^ 1) = 1 := by decide +kernel

theorem vec_period {v : Vec} (hv : v ≠ 0) (k : Nat) : (T ^ k) v = v ↔ 2 ^ 127 - 1 ∣ k :=
  period (ps := [2 ^ 127 - 1]) (qs := fun _ => 0x4831c01e5b7b553984bbcfbd77a9963e)
    (fun v => Prod.ext (Prod.ext (X.add_self _) (X.add_self _)) (Prod.ext (X.add_self _) (X.add_self _))) annihilates
    (by decide) (by decide) (by decide) (by decide) xpow_check
    (fun p hp hd => by rw [(Nat.prime_dvd_prime_iff_eq hp prime_2_127).1 hd]; exact List.mem_singleton_self _)
    inverse_check hv k

theorem toVec_advance (mode : Mode) (s : State) (k : Nat) : toVec (advance mode s k) = (T ^ k) (toVec s) := by
  rw [advance, AddMonoid.End.coe_pow, shuffle_mode]
  induction k generalizing s with
  | zero => rfl
  | succ k ih =>
    rw [Function.iterate_succ_apply, Function.iterate_succ_apply, ih]
    exact congrArg _ (vecStep_eq s).symm

theorem toVec_ne {s : State} (hs : eff s ≠ (0, 0, 0, 0)) : toVec s ≠ 0 := by
  intro h
  exact hs ((toVec_eff (s := s) (t := ⟨0, 0, 0, 0⟩)).1 h)

/-- C84: a generator whose 127 effective bits are not all zero comes back to them after `k` steps exactly when `k` is a
multiple of `2^127 - 1`. -/
theorem C84_period (mode : Mode) (s : State) (hs : eff s ≠ (0, 0, 0, 0)) (k : Nat) :
    eff (advance mode s k) = eff s ↔ 2 ^ 127 - 1 ∣ k := by
  rw [← vec_period (v := toVec s) (toVec_ne hs) k, ← toVec_advance, toVec_eff]

/-- C84: for every seed the state itself has period exactly `2^127 - 1`. -/
theorem C84_every_seed (mode : Mode) (junk : State) (seed : BitVec 32) (k : Nat) :
    advance mode (new mode junk seed) k = new mode junk seed ↔ 2 ^ 127 - 1 ∣ k := by
  have hper := C84_period mode (new mode junk seed) (C24_never_zero mode junk seed 0) k
  rw [← hper]
  refine ⟨fun h => by rw [h], fun h => ?_⟩
  -- the constructor itself ends with steps, so the state is a successor
  obtain ⟨t, ht⟩ : ∃ t, new mode junk seed = shuffle mode t := ⟨(shuffle mode)^[7] (certify (seedWords junk seed)), by
    rw [new, reInit, ← Function.iterate_succ_apply' (shuffle mode)]⟩
  have hpt : eff (advance mode t k) = eff t := by
    have e : eff (shuffle32 (advance mode t k)) = eff (shuffle32 t) := by
      have h' := h
      rw [ht, advance, ← Function.iterate_succ_apply, Function.iterate_succ_apply', shuffle_mode] at h'
      rwa [advance, shuffle_mode]
    exact shuffle32_inj e
  rw [ht, advance, ← Function.iterate_succ_apply, Function.iterate_succ_apply', shuffle_mode]
  have := shuffle32_congr hpt
  rwa [advance, shuffle_mode] at this

/-- C84: from any non-zero effective state every other one is reached: there is only one stream, seeds choose the
position in it. -/
theorem C84_one_cycle (mode : Mode) (s t : State) (hs : eff s ≠ (0, 0, 0, 0)) (ht : eff t ≠ (0, 0, 0, 0)) :
    ∃ k < 2 ^ 127 - 1, eff (advance mode s k) = eff t := by
  obtain ⟨k, hk, h⟩ := one_cycle (N := 2 ^ 127 - 1) (T := T) (by decide)
    (by simp only [Fintype.card_prod, X.card]; decide) (fun v hv k => vec_period hv k)
    (v := toVec s) (w := toVec t) (toVec_ne hs) (toVec_ne ht)
  exact ⟨k, hk, toVec_eff.1 ((toVec_advance mode s k).trans h)⟩

example : eff ⟨5, 1, 2, 3⟩ ≠ (0, 0, 0, 0) := by decide

end Verif.TinyMt
