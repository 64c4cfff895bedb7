import Verif.Lemmas.Observe
import Verif.Props.Uniform
import Verif.Props.TinyMtPeriod
import Mathlib.Data.List.GetD
/-
C108: one bit of each output is enough to determine the state of Xoroshiro128+, Xorshift128 and TinyMT.
-/
namespace Verif.Xoroshiro
open Verif.Observe Gf2

/-- the results of `n` consecutive calls of `next_rand(maximum)`, where every call is given one draw -/
def draws (mode : Mode) (maximum : BitVec 32) : Nat → State → Option (List (BitVec 64))
  | 0, _ => some []
  | n + 1, s => do
    let r ← Rejection.nextRand mode 1 s maximum
    let l ← draws mode maximum n r.1
    pure (r.2 :: l)

/-- the lowest bit of the sum is linear -/
def low : Vec →+ ZMod 2 := (bitHom 64 0).coprod (bitHom 64 0)

theorem low_output (mode : Mode) (s : State) (i : Nat) : low ((T ^ i) (toVec s)) = z ((output mode s i).getLsbD 0) := by
  rw [← toVec_advance mode]
  change z _ + z _ = _
  rw [← z_xor, ← BitVec.getLsbD_xor, output]
  congr 1
  change ((advance mode s i).s0 ^^^ (advance mode s i).s1).getLsbD 0 = ((advance mode s i).s0 + (advance mode s i).s1).getLsbD 0
  rw [BitVec.getLsbD_add (by omega), BitVec.getLsbD_xor]
  simp [BitVec.carry, Nat.mod_one]

theorem next_rand_two (mode : Mode) (s : State) :
    Rejection.nextRand mode 1 s 2 = some (step mode s, if (output mode s 0).getLsbD 0 then 1 else 0) := by
  have hm : Rejection.bitMask mode 2 = 1 := by cases mode <;> decide
  have hv : ∀ v : BitVec 64, v &&& 1 = if v.getLsbD 0 then 1 else 0 := by
    intro v
    apply BitVec.eq_of_getLsbD_eq
    intro i hi
    rcases Nat.eq_zero_or_pos i with rfl | h
    · rw [BitVec.getLsbD_and]
      cases v.getLsbD 0 <;> rfl
    · cases h' : v.getLsbD 0 <;> simp [BitVec.getLsbD_one] <;> omega
  rw [Rejection.nextRand, Rejection.drawLoop, hm, hv]
  change (if _ then _ else some (step mode s, if (output mode s 0).getLsbD 0 then (1 : BitVec 64) else 0)) = _
  rw [if_neg]
  change ¬ ((if (output mode s 0).getLsbD 0 then (1 : BitVec 64) else 0) ≥ 2)
  split <;> decide

theorem draws_two (mode : Mode) (n : Nat) (s : State) :
    draws mode 2 n s = some ((List.range n).map fun i => if (output mode s i).getLsbD 0 then 1 else 0) := by
  induction n generalizing s with
  | zero => rfl
  | succ n ih =>
    rw [draws, next_rand_two, List.range_succ_eq_map, List.map_cons, List.map_map]
    change (draws mode 2 n (step mode s)).bind _ = _
    rw [ih]
    simp only [Option.bind_some, output_succ]
    rfl

theorem draws_two_iff (mode : Mode) (n : Nat) (s : State) (b : Nat → Bool) :
    draws mode 2 n s = some ((List.range n).map fun i => if b i then 1 else 0) ↔ ∀ i < n, low ((T ^ i) (toVec s)) = z (b i) := by
  have e : ∀ x y : Bool, ((if x then 1 else 0 : BitVec 64) = if y then 1 else 0) ↔ x = y := by decide
  rw [draws_two, Option.some_inj, List.map_inj_left]
  simp only [List.mem_range, e, low_output mode, z_inj]

theorem cyc (v w : Vec) (hv : v ≠ 0) (hw : w ≠ 0) : ∃ k, (T ^ k) v = w := by
  obtain ⟨k, -, h⟩ := one_cycle (N := 2 ^ 128 - 1) (T := T) (by decide)
    (by rw [Fintype.card_prod, X.card]; decide) (fun v hv k => vec_period hv k) hv hw
  exact ⟨k, h⟩

/-- C108 (Xoroshiro128+): whatever the results of 128 calls of `next_rand(2)` are, there is exactly one state that gives
them. -/
theorem C108_xoroshiro (mode : Mode) (b : Nat → Bool) :
    ∃! s : State, draws mode 2 128 s = some ((List.range 128).map fun i => if b i then 1 else 0) := by
  obtain ⟨v, h1, h2⟩ := obs_unique (T := T) (n := 128) (Q := charPoly - 2 ^ 128) (fun v => Prod.ext (X.add_self v.1) (X.add_self v.2))
    (by rw [show 2 ^ 128 ^^^ (charPoly - 2 ^ 128) = charPoly by decide]; exact annihilates) (by decide)
    (by rw [Fintype.card_prod, X.card]; decide) cyc low (X.of 1, 0) (by decide) (fun i => z (b i))
  refine ⟨ofVec v, (draws_two_iff mode 128 _ b).2 h1, fun t ht => ?_⟩
  exact congrArg ofVec (h2 (toVec t) ((draws_two_iff mode 128 t b).1 ht))

/-- C108 (Xoroshiro128+): from every non-zero state, among any 2^128 - 1 consecutive positions every sequence of 128 results
of `next_rand(2)` occurs exactly once, except 128 zeros, which never occur. -/
theorem C108_xoroshiro_period (mode : Mode) (s : State) (hs : s ≠ ⟨0, 0⟩) (m : Nat) (b : Nat → Bool) :
    { n | n < 2 ^ 128 - 1 ∧ draws mode 2 128 (advance mode s (m + n)) =
      some ((List.range 128).map fun i => if b i then 1 else 0) }.ncard = if (List.range 128).any b then 1 else 0 := by
  obtain ⟨t, h1, h2⟩ := C108_xoroshiro mode b
  rw [count_states mode s hs m (fun t => draws mode 2 128 t = some ((List.range 128).map fun i => if b i then 1 else 0))]
  have hz : t = ⟨0, 0⟩ ↔ ∀ i < 128, b i = false := by
    have e0 : ∀ i, low ((T ^ i) (toVec ⟨0, 0⟩)) = z false := fun i => by
      rw [show toVec ⟨0, 0⟩ = 0 from rfl, map_zero, map_zero]; rfl
    constructor
    · rintro rfl i hi
      exact z_inj.1 (((draws_two_iff mode 128 _ b).1 h1 i hi).symm.trans (e0 i))
    · intro h
      exact (h2 ⟨0, 0⟩ ((draws_two_iff mode 128 _ b).2 fun i hi => by rw [h i hi]; exact e0 i)).symm
  have ha : (List.range 128).any b = true ↔ ¬ ∀ i < 128, b i = false := by
    rw [List.any_eq_true]
    simp only [List.mem_range, not_forall, exists_prop, Bool.not_eq_false]
  by_cases h : ∀ i < 128, b i = false
  · rw [if_neg (fun h' => ha.1 h' h), Set.ncard_eq_zero (Set.toFinite _), Set.eq_empty_iff_forall_notMem]
    rintro u ⟨hu, h3⟩
    exact hu ((h2 u h3).trans (hz.2 h))
  · rw [if_pos (ha.2 h), Set.ncard_eq_one]
    exact ⟨t, Set.ext fun u => ⟨fun hu => h2 u hu.2, fun hu => by
      rw [Set.mem_singleton_iff.1 hu]
      exact ⟨fun h' => h (hz.1 h'), h1⟩⟩⟩

/- the results of a concrete state -/
example : draws .numba 2 5 ⟨1, 2⟩ = some [1, 1, 1, 1, 0] := by decide +kernel

end Verif.Xoroshiro

namespace Verif.Xorshift128
open Verif.Observe Gf2

/-- bit `j` of the newest word -/
def bitOf (j : Nat) : Vec →+ ZMod 2 := (bitHom 32 j).comp ((AddMonoidHom.snd _ _).comp (AddMonoidHom.snd _ _))

theorem run_bits (mode : Mode) (n : Nat) (s : State) (j : Nat) :
    (runN (next mode) n s).2.map (·.getLsbD j) = (List.range n).map fun i => (advance mode s (i + 1)).s3.getLsbD j := by
  induction n generalizing s with
  | zero => rfl
  | succ n ih =>
    rw [runN, List.map_cons, ih, List.range_succ_eq_map, List.map_cons, List.map_map]
    rfl

theorem run_bits_iff (mode : Mode) (n : Nat) (s : State) (j : Nat) (b : Nat → Bool) :
    (runN (next mode) n s).2.map (·.getLsbD j) = (List.range n).map b ↔
      ∀ i < n, bitOf j ((T ^ i) (toVec (next mode s).1)) = z (b i) := by
  rw [run_bits, List.map_inj_left]
  have e : ∀ i, bitOf j ((T ^ i) (toVec (next mode s).1)) = z ((advance mode s (i + 1)).s3.getLsbD j) := by
    intro i
    rw [← toVec_advance mode]
    rfl
  simp only [List.mem_range, e, z_inj]

theorem cyc (v w : Vec) (hv : v ≠ 0) (hw : w ≠ 0) : ∃ k, (T ^ k) v = w := by
  obtain ⟨k, -, h⟩ := one_cycle (N := 2 ^ 128 - 1) (T := T) (by decide)
    (by simp only [Fintype.card_prod, X.card]; decide) (fun v hv k => vec_period hv k) hv hw
  exact ⟨k, h⟩

/-- C108 (Xorshift128): for each of the 32 bits of the output, and whatever that bit is in 128 consecutive outputs, there is
exactly one state that gives them. -/
theorem C108_xorshift (mode : Mode) (j : Nat) (hj : j < 32) (b : Nat → Bool) :
    ∃! s : State, (runN (next mode) 128 s).2.map (·.getLsbD j) = (List.range 128).map b := by
  obtain ⟨v, h1, h2⟩ := obs_unique (T := T) (n := 128) (Q := charPoly - 2 ^ 128)
    (fun v => Prod.ext (Prod.ext (X.add_self _) (X.add_self _)) (Prod.ext (X.add_self _) (X.add_self _)))
    (by rw [show 2 ^ 128 ^^^ (charPoly - 2 ^ 128) = charPoly by decide]; exact annihilates) (by decide)
    (by simp only [Fintype.card_prod, X.card]; decide) cyc (bitOf j) (0, (0, X.of (BitVec.twoPow 32 j)))
    (by
      change z ((BitVec.twoPow 32 j).getLsbD j) ≠ 0
      rw [BitVec.getLsbD_twoPow]
      simp [hj, z]) (fun i => z (b i))
  have hn : (next mode (previous mode (ofVec v)).1).1 = ofVec v := congrArg Prod.fst (next_previous mode (ofVec v))
  refine ⟨(previous mode (ofVec v)).1, (run_bits_iff mode 128 _ j b).2 ?_, fun t ht => ?_⟩
  · rw [hn]
    exact h1
  · have h3 : (next mode t).1 = ofVec v := congrArg ofVec (h2 _ ((run_bits_iff mode 128 t j b).1 ht))
    have h4 := congrArg Prod.fst (previous_next mode t)
    rw [h3] at h4
    exact h4.symm

/-- C108 (Xorshift128): from every non-zero state, among any 2^128 - 1 consecutive positions every pattern that bit `j` can
show in 128 consecutive outputs occurs exactly once, except 128 zeros, which never occur. -/
theorem C108_xorshift_period (mode : Mode) (s : State) (hs : s ≠ ⟨0, 0, 0, 0⟩) (m j : Nat) (hj : j < 32) (b : Nat → Bool) :
    { n | n < 2 ^ 128 - 1 ∧ (runN (next mode) 128 (advance mode s (m + n))).2.map (·.getLsbD j) = (List.range 128).map b }.ncard
      = if (List.range 128).any b then 1 else 0 := by
  obtain ⟨t, h1, h2⟩ := C108_xorshift mode j hj b
  rw [count_states mode s hs m (fun t => (runN (next mode) 128 t).2.map (·.getLsbD j) = (List.range 128).map b)]
  have hz : t = ⟨0, 0, 0, 0⟩ ↔ ∀ i < 128, b i = false := by
    have e0 : ∀ i, bitOf j ((T ^ i) (toVec (next mode ⟨0, 0, 0, 0⟩).1)) = z false := fun i => by
      rw [next_zero, show toVec ⟨0, 0, 0, 0⟩ = 0 from rfl, map_zero, map_zero]; rfl
    constructor
    · rintro rfl i hi
      exact z_inj.1 (((run_bits_iff mode 128 _ j b).1 h1 i hi).symm.trans (e0 i))
    · intro h
      exact (h2 ⟨0, 0, 0, 0⟩ ((run_bits_iff mode 128 _ j b).2 fun i hi => by rw [h i hi]; exact e0 i)).symm
  have ha : (List.range 128).any b = true ↔ ¬ ∀ i < 128, b i = false := by
    rw [List.any_eq_true]
    simp only [List.mem_range, not_forall, exists_prop, Bool.not_eq_false]
  by_cases h : ∀ i < 128, b i = false
  · rw [if_neg (fun h' => ha.1 h' h), Set.ncard_eq_zero (Set.toFinite _), Set.eq_empty_iff_forall_notMem]
    rintro u ⟨hu, h3⟩
    exact hu ((h2 u h3).trans (hz.2 h))
  · rw [if_pos (ha.2 h), Set.ncard_eq_one]
    exact ⟨t, Set.ext fun u => ⟨fun hu => h2 u hu.2, fun hu => by
      rw [Set.mem_singleton_iff.1 hu]
      exact ⟨fun h' => h (hz.1 h'), h1⟩⟩⟩

example : (runN (next .numba) 3 ⟨1, 2, 3, 4⟩).2.map (·.getLsbD 3) = [true, true, false] := by decide +kernel

end Verif.Xorshift128

namespace Verif.TinyMt
open Verif.Observe Gf2

/-- the lowest bit of the next output is linear -/
def low : Vec →+ ZMod 2 := ((bitHom 32 0).comp ((AddMonoidHom.snd _ _).comp (AddMonoidHom.snd _ _))).comp T

theorem temper_low (mode : Mode) (s : State) : (temper mode s).getLsbD 0 = s.s3.getLsbD 0 := by
  have h : ∀ a t : BitVec 64, (a ^^^ t ^^^ ((t &&& 1) * 0x3793FDFF)).getLsbD 0 = a.getLsbD 0 := by
    intro a t
    have e : t &&& 1 = if t.getLsbD 0 then 1 else 0 := by
      apply BitVec.eq_of_getLsbD_eq
      intro i hi
      rcases Nat.eq_zero_or_pos i with rfl | h
      · rw [BitVec.getLsbD_and]
        cases t.getLsbD 0 <;> rfl
      · cases h' : t.getLsbD 0 <;> simp [BitVec.getLsbD_one] <;> omega
    rw [e, BitVec.getLsbD_xor, BitVec.getLsbD_xor]
    cases t.getLsbD 0 <;> cases a.getLsbD 0 <;> rfl
  unfold temper
  simp only [h]
  simp

theorem low_output (mode : Mode) (s : State) (i : Nat) :
    low ((T ^ i) (toVec s)) = z ((next mode (advance mode s i)).2.getLsbD 0) := by
  rw [next, temper_low, shuffle_mode, ← toVec_advance mode]
  change z ((vecStep (toVec _)).2.2.bits.getLsbD 0) = _
  rw [vecStep_eq]
  rfl

theorem cyc (v w : Vec) (hv : v ≠ 0) (hw : w ≠ 0) : ∃ k, (T ^ k) v = w := by
  obtain ⟨k, -, h⟩ := one_cycle (N := 2 ^ 127 - 1) (T := T) (by decide)
    (by simp only [Fintype.card_prod, X.card]; decide) (fun v hv k => vec_period hv k) hv hw
  exact ⟨k, h⟩

/-- C108 (TinyMT): whatever the lowest bits of 127 consecutive outputs are, there is a state that gives them, and all
states that do agree in their 127 effective bits (so in all later outputs, C25). -/
theorem C108_tinymt (mode : Mode) (b : Nat → Bool) :
    (∃ s : State, ∀ i < 127, (next mode (advance mode s i)).2.getLsbD 0 = b i) ∧
    ∀ s t : State, (∀ i < 127, (next mode (advance mode s i)).2.getLsbD 0 = b i) →
      (∀ i < 127, (next mode (advance mode t i)).2.getLsbD 0 = b i) → eff s = eff t := by
  obtain ⟨v, h1, h2⟩ := obs_unique (T := T) (n := 127) (Q := charPoly - 2 ^ 127)
    (fun v => Prod.ext (Prod.ext (X.add_self _) (X.add_self _)) (Prod.ext (X.add_self _) (X.add_self _)))
    (by rw [show 2 ^ 127 ^^^ (charPoly - 2 ^ 127) = charPoly by decide]; exact annihilates) (by decide)
    (by simp only [Fintype.card_prod, X.card]; decide) cyc low (0, (0, X.of 1)) (by decide) (fun i => z (b i))
  have h3 : ∀ s, (∀ i < 127, (next mode (advance mode s i)).2.getLsbD 0 = b i) → toVec s = v := fun s hs =>
    h2 (toVec s) (fun i hi => by rw [low_output mode, hs i hi])
  refine ⟨⟨⟨v.1.1.bits.setWidth 32, v.1.2.bits, v.2.1.bits, v.2.2.bits⟩, fun i hi => ?_⟩, fun s t hs ht =>
    toVec_eff.1 ((h3 s hs).trans (h3 t ht).symm)⟩
  have hv : toVec ⟨v.1.1.bits.setWidth 32, v.1.2.bits, v.2.1.bits, v.2.2.bits⟩ = v := by
    refine Prod.ext (Prod.ext ?_ rfl) rfl
    change (v.1.1.bits.setWidth 32).setWidth 31 = v.1.1.bits
    rw [BitVec.setWidth_setWidth_of_le _ (by omega), BitVec.setWidth_eq]
  have := h1 i hi
  rw [← hv, low_output mode] at this
  exact z_inj.1 this

/- 127 effective bits; the unused top bit of the first word does not count -/
example : eff ⟨0x80000005, 1, 2, 3⟩ = eff ⟨5, 1, 2, 3⟩ ∧ (next .numba ⟨5, 1, 2, 3⟩).2.getLsbD 0 = false := by decide

end Verif.TinyMt
