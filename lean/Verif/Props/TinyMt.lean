import Verif.Model.TinyMt
import Verif.Spec.TinyMt
import Verif.Lemmas.Mt
import Verif.Lemmas.MulShift
import Mathlib.Tactic.IntervalCases
import Mathlib.Data.Finite.Prod
/-
C12, C18, C24–C26, C72 (TinyMersenneTwister): mersenne_twister/tinymt.py.
-/
namespace Verif.TinyMt
open Verif.Spec

/-! ### both modes compute the same state -/

theorem mask_bit (m : Nat) (y : BitVec 32) (c : BitVec 32) (hm : m = 0) :
    (y &&& 1) * c = if y.getLsbD m then c else 0 := by
  subst hm
  have key : y &&& 1 = if y.getLsbD 0 then 1 else 0 := by
    apply BitVec.eq_of_getLsbD_eq
    intro i hi
    rw [BitVec.getLsbD_and, show (1 : BitVec 32) = 1#32 from rfl, BitVec.getLsbD_one]
    rcases Nat.eq_zero_or_pos i with rfl | h
    · cases h : y.getLsbD 0 <;> simp
    · have : i ≠ 0 := by omega
      cases h : y.getLsbD 0 <;> simp [this]
  rw [key]
  split
  · exact BitVec.one_mul c
  · exact BitVec.zero_mul

/-- C24–C26 preliminaries: 64-bit intermediates make no difference to the stored state. -/
theorem shuffle64_eq (s : State) : shuffle64 s = shuffle32 s := by
  have hx : ∀ a : BitVec 32, a.setWidth 64 &&& (0x7FFFFFFF : BitVec 64) = (a &&& 0x7FFFFFFF).setWidth 64 := by
    intro a
    apply BitVec.eq_of_getLsbD_eq
    intro i hi
    simp only [BitVec.getLsbD_and, BitVec.getLsbD_setWidth]
    interval_cases i <;> simp
  have hx2 : ∀ a b : BitVec 32, a.setWidth 64 ^^^ b.setWidth 64 = (a ^^^ b).setWidth 64 := by
    intro a b; rw [BitVec.setWidth_xor]
  simp only [shuffle64, shuffle32, hx, hx2]
  generalize (s.s0 &&& 0x7FFFFFFF) ^^^ s.s1 ^^^ s.s2 = x0
  have ex : (x0.setWidth 64 ^^^ (x0.setWidth 64 <<< 1)).setWidth 32 = x0 ^^^ (x0 <<< 1) := by
    rw [BitVec.setWidth_xor]
    congr 1
    · simp
    · apply BitVec.eq_of_getLsbD_eq
      intro i hi
      simp only [BitVec.getLsbD_setWidth, BitVec.getLsbD_shiftLeft, hi, decide_true, Bool.true_and]
      simp [show i < 64 by omega, show i - 1 < 32 by omega, show i - 1 < 64 by omega]
  generalize hX : x0.setWidth 64 ^^^ (x0.setWidth 64 <<< 1) = X at ex
  have ey : (s.s3.setWidth 64 ^^^ ((s.s3.setWidth 64 >>> 1) ^^^ X)).setWidth 32
      = s.s3 ^^^ ((s.s3 >>> 1) ^^^ (x0 ^^^ (x0 <<< 1))) := by
    rw [BitVec.setWidth_xor, BitVec.setWidth_xor, ex]
    congr 1
    · simp
    · congr 1
      apply BitVec.eq_of_getLsbD_eq
      intro i hi
      simp only [BitVec.getLsbD_setWidth, BitVec.getLsbD_ushiftRight, hi, decide_true, Bool.true_and]
      by_cases h : 1 + i < 64
      · simp [h]
      · omega
  generalize s.s3.setWidth 64 ^^^ ((s.s3.setWidth 64 >>> 1) ^^^ X) = Y at ey
  generalize x0 ^^^ (x0 <<< 1) = x at ex ey
  generalize s.s3 ^^^ ((s.s3 >>> 1) ^^^ x) = y at ey
  have em : ∀ c : BitVec 64, ((Y &&& 1) * c).setWidth 32 = (y &&& 1) * c.setWidth 32 := by
    intro c
    rw [BitVec.setWidth_mul _ _ (by omega), BitVec.setWidth_and, ey]
    rfl
  have es : (Y <<< 10).setWidth 32 = y <<< 10 := by
    rw [← ey]
    apply BitVec.eq_of_getLsbD_eq
    intro i hi
    simp only [BitVec.getLsbD_setWidth, BitVec.getLsbD_shiftLeft, hi, decide_true, Bool.true_and]
    by_cases h : i < 10
    · simp [h]
    · simp [h, show i < 64 by omega, show i - 10 < 32 by omega]
  have e1 : (s.s2.setWidth 64 ^^^ (Y &&& 1) * 0x8F7011EE).setWidth 32 = s.s2 ^^^ (y &&& 1) * 0x8F7011EE := by
    rw [BitVec.setWidth_xor, em]
    congr 1
    simp
  have e2 : (X ^^^ (Y <<< 10) ^^^ (Y &&& 1) * 0xFC78FF1F).setWidth 32 = x ^^^ (y <<< 10) ^^^ (y &&& 1) * 0xFC78FF1F := by
    rw [BitVec.setWidth_xor, BitVec.setWidth_xor, em, ex, es]
    rfl
  rw [e1, e2, ey]

theorem shuffle_mode (mode : Mode) : shuffle mode = shuffle32 := by
  cases mode
  · funext s; exact shuffle64_eq s
  · rfl

/-! ### C24, C25 -/

/-- the 127 bits that matter: the top bit of word 0 is ignored by the recursion -/
def eff (s : State) : BitVec 31 × BitVec 32 × BitVec 32 × BitVec 32 := (s.s0.setWidth 31, s.s1, s.s2, s.s3)

theorem and_mask_eq (a b : BitVec 32) : a &&& 0x7FFFFFFF = b &&& 0x7FFFFFFF ↔ a.setWidth 31 = b.setWidth 31 := by
  have bit : ∀ i, i < 32 → (0x7FFFFFFF : BitVec 32).getLsbD i = decide (i < 31) := by decide
  constructor
  · intro h
    apply BitVec.eq_of_getLsbD_eq
    intro i hi
    have := congrArg (fun v => v.getLsbD i) h
    simp only [BitVec.getLsbD_and, bit i (by omega), hi, decide_true, Bool.and_true] at this
    simp only [BitVec.getLsbD_setWidth, hi, decide_true, Bool.true_and, this]
  · intro h
    apply BitVec.eq_of_getLsbD_eq
    intro i hi
    simp only [BitVec.getLsbD_and, bit i hi]
    by_cases h31 : i < 31
    · have := congrArg (fun v => v.getLsbD i) h
      simp only [BitVec.getLsbD_setWidth, h31, decide_true, Bool.true_and] at this
      simp [this]
    · simp [h31]

theorem xor_shl_inj (a b : BitVec 32) (h : a ^^^ (a <<< 1) = b ^^^ (b <<< 1)) : a = b := by
  apply Mt.left_inj 1 (by omega) (BitVec.allOnes 32)
  simp only [BitVec.and_allOnes]
  exact h

theorem xor_cancel_right {a b c : BitVec w} (h : a ^^^ c = b ^^^ c) : a = b := by
  have := congrArg (· ^^^ c) h
  simpa [BitVec.xor_assoc] using this

theorem xor_cancel_left {a b c : BitVec w} (h : c ^^^ a = c ^^^ b) : a = b := by
  rw [BitVec.xor_comm c a, BitVec.xor_comm c b] at h
  exact xor_cancel_right h

theorem shuffle32_inj {s t : State} (h : eff (shuffle32 s) = eff (shuffle32 t)) : eff s = eff t := by
  simp only [eff, shuffle32, Prod.mk.injEq] at h
  obtain ⟨h0, h1, h2, h3⟩ := h
  rw [h3] at h1 h2
  have e2 : s.s2 = t.s2 := xor_cancel_right h1
  have ex := xor_cancel_right (xor_cancel_right h2)
  rw [ex] at h3
  have ex0 := xor_shl_inj _ _ ex
  have e3 : s.s3 = t.s3 := by
    have : s.s3 ^^^ (s.s3 >>> 1) = t.s3 ^^^ (t.s3 >>> 1) := by
      generalize (t.s0 &&& 0x7FFFFFFF) ^^^ t.s1 ^^^ t.s2 ^^^ (((t.s0 &&& 0x7FFFFFFF) ^^^ t.s1 ^^^ t.s2) <<< 1) = x at h3
      rw [← BitVec.xor_assoc, ← BitVec.xor_assoc] at h3
      exact xor_cancel_right h3
    exact Mt.right_inj 1 (by omega) this
  rw [e2] at ex0
  have ex1 := xor_cancel_right ex0
  have e1 : s.s1 = t.s1 := by
    apply BitVec.eq_of_getLsbD_eq
    intro i hi
    by_cases h31 : i < 31
    · have := congrArg (fun v => v.getLsbD i) h0
      simpa only [BitVec.getLsbD_setWidth, h31, decide_true, Bool.true_and] using this
    · have hi31 : i = 31 := by omega
      subst hi31
      have := congrArg (fun v => v.getLsbD 31) ex1
      have hb : (0x7FFFFFFF : BitVec 32).getLsbD 31 = false := by decide
      simpa only [BitVec.getLsbD_xor, BitVec.getLsbD_and, hb, Bool.and_false, Bool.false_xor] using this
  rw [e1] at ex1
  have e0 := (and_mask_eq _ _).1 (xor_cancel_right ex1)
  simp only [eff, e0, e1, e2, e3]

/-- a step only looks at the 127 effective bits -/
theorem shuffle32_congr {s t : State} (h : eff s = eff t) : shuffle32 s = shuffle32 t := by
  simp only [eff, Prod.mk.injEq] at h
  obtain ⟨h0, h1, h2, h3⟩ := h
  have := (and_mask_eq _ _).2 h0
  simp only [shuffle32, this, h1, h2, h3]

/-- C25: two generators in different effective states never merge, in any mode and after any number of steps. -/
theorem C25_never_merge (mode : Mode) (s t : State) (n : Nat) (h : eff s ≠ eff t) :
    eff ((shuffle mode)^[n] s) ≠ eff ((shuffle mode)^[n] t) := by
  rw [shuffle_mode]
  induction n with
  | zero => exact h
  | succ n ih =>
    rw [Function.iterate_succ_apply', Function.iterate_succ_apply']
    exact fun h' => ih (shuffle32_inj h')

/-- C25: and the top bit of word 0 is irrelevant: equal effective states give the same next state and output. -/
theorem C25_top_bit_irrelevant (mode : Mode) (s t : State) (h : eff s = eff t) : next mode s = next mode t := by
  simp only [next, shuffle_mode, shuffle32_congr h]

/-- C25: a step is a permutation of the effective states (so every state can be stepped backwards). -/
theorem C25_reversible (mode : Mode) : Function.Bijective
    (fun e : BitVec 31 × BitVec 32 × BitVec 32 × BitVec 32 => eff (shuffle mode ⟨e.1.setWidth 32, e.2.1, e.2.2.1, e.2.2.2⟩)) := by
  apply Finite.injective_iff_bijective.1
  rintro ⟨a0, a1, a2, a3⟩ ⟨b0, b1, b2, b3⟩ h
  simp only [shuffle_mode] at h
  have := shuffle32_inj h
  simp only [eff, Prod.mk.injEq] at this
  obtain ⟨h0, h1, h2, h3⟩ := this
  simp only [BitVec.setWidth_setWidth_of_le _ (show 31 ≤ 32 by omega), BitVec.setWidth_eq] at h0
  rw [h0, h1, h2, h3]

example : eff ⟨5, 1, 2, 3⟩ ≠ eff ⟨6, 1, 2, 3⟩ := by decide
example : eff ⟨5, 1, 2, 3⟩ = eff ⟨0x80000005, 1, 2, 3⟩ := by decide

theorem eff_zero_iff (s : State) : eff s = (0, 0, 0, 0) ↔ s.s0 &&& 0x7FFFFFFF = 0 ∧ s.s1 = 0 ∧ s.s2 = 0 ∧ s.s3 = 0 := by
  have := and_mask_eq s.s0 0
  simp only [eff, Prod.mk.injEq]
  rw [show (0 : BitVec 32) &&& 0x7FFFFFFF = 0 from by decide, show (0 : BitVec 32).setWidth 31 = 0 from by decide] at this
  rw [this]

theorem certify_nonzero (s : State) : eff (certify s) ≠ (0, 0, 0, 0) := by
  rw [certify]
  split
  · decide
  · rename_i h; rwa [Ne, eff_zero_iff]

theorem shuffle32_nonzero {s : State} (h : eff s ≠ (0, 0, 0, 0)) : eff (shuffle32 s) ≠ (0, 0, 0, 0) := by
  have hz : eff (shuffle32 ⟨0, 0, 0, 0⟩) = (0, 0, 0, 0) := by decide
  rw [← hz]
  intro h'
  have := shuffle32_inj h'
  exact h (this.trans (by decide))

/-- C24: for every seed, and after any number of steps, the 127-bit state is non-zero. -/
theorem C24_never_zero (mode : Mode) (junk : State) (seed : BitVec 32) (n : Nat) :
    eff ((shuffle mode)^[n] (new mode junk seed)) ≠ (0, 0, 0, 0) := by
  rw [new, reInit, shuffle_mode, ← Function.iterate_add_apply]
  generalize n + 8 = k
  induction k with
  | zero => exact certify_nonzero _
  | succ k ih => rw [Function.iterate_succ_apply']; exact shuffle32_nonzero ih

/-- C24: the certification is needed for nothing else: a zero effective state would be stuck. -/
theorem C24_zero_is_stuck (mode : Mode) (s : State) (h : eff s = (0, 0, 0, 0)) :
    eff (shuffle mode s) = (0, 0, 0, 0) := by
  have : shuffle32 s = shuffle32 ⟨0, 0, 0, 0⟩ := shuffle32_congr (h.trans (by decide))
  rw [shuffle_mode, this]; decide

/-! ### C26 -/

/-- `n` calls of `next`, collecting the results -/
def nexts (mode : Mode) : Nat → State → State × List (BitVec 64)
  | 0, s => (s, [])
  | n + 1, s =>
    let r := next mode s
    let q := nexts mode n r.1
    (q.1, r.2 :: q.2)

/-- C26: `advance(n)` leaves the same state as `n` calls of `next`. -/
theorem C26_advance (mode : Mode) (s : State) (n : Nat) : advance mode s n = (nexts mode n s).1 := by
  induction n generalizing s with
  | zero => rfl
  | succ n ih =>
    simp only [nexts]
    rw [← ih, advance, Function.iterate_succ_apply]
    rfl

/-- C26: hence the outputs after `advance(n)` are the outputs of the undisturbed stream from number `n` on. -/
theorem C26_outputs (mode : Mode) (s : State) (n k : Nat) :
    (nexts mode k (advance mode s n)).2 = ((nexts mode (n + k) s).2).drop n := by
  induction n generalizing s with
  | zero => simp [advance]
  | succ n ih =>
    rw [show n + 1 + k = (n + k) + 1 by omega]
    simp only [nexts, List.drop_succ_cons]
    rw [← ih]
    rfl

/-! ### C72 -/

theorem reInit_eq (mode : Mode) (s t : State) (seed : BitVec 32) : reInit mode s seed = reInit mode t seed := by
  simp only [reInit, seedWords, State.set]

theorem new_eq (mode : Mode) (junk : State) (seed : BitVec 32) : new mode junk seed = new mode ⟨0, 0, 0, 0⟩ seed :=
  reInit_eq mode junk _ seed

def toSpec (s : State) : BitVec 32 × BitVec 32 × BitVec 32 × BitVec 32 := (s.s0, s.s1, s.s2, s.s3)

/-- C72 (state): one step is the published TinyMT32 step, in both modes. -/
theorem C72_state (mode : Mode) (s : State) : toSpec (shuffle mode s) = tinyNext (toSpec s) := by
  simp only [shuffle_mode, shuffle32, toSpec, tinyNext, mask_bit 0 _ _ rfl, BitVec.xor_assoc]
  have xz : ∀ a : BitVec 32, a ^^^ 0 = a := fun a => BitVec.xor_zero
  split
  · rfl
  · simp only [xz]

theorem seedWords_eq (junk : State) (seed : BitVec 32) : seedWords junk seed
    = ⟨tinyInitWord seed 4, tinyInitWord seed 5, tinyInitWord seed 6, tinyInitWord seed 7⟩ := by
  obtain ⟨g, hg⟩ : ∃ g : Nat → BitVec 32 → BitVec 32,
      ∀ (i : Nat) (p : BitVec 32), (0x6C078965#32 * (p ^^^ (p >>> 30)) + BitVec.ofNat 32 i) = g i p := ⟨_, fun _ _ => rfl⟩
  have h1 : ∀ s i, seedStep s i = s.set i (s.get i ^^^ g i (s.get (i - 1))) := fun s i => by rw [← hg]; rfl
  have h2 : ∀ i, tinyInitWord seed (i + 1) = (match i with
    | 0 => 0x8F7011EE
    | 1 => 0xFC78FF1F
    | 2 => 0x3793FDFF
    | j + 3 => tinyInitWord seed j) ^^^ g (i + 1) (tinyInitWord seed i) := fun i => by
    rw [← hg, BitVec.add_comm]
    rcases i with _ | _ | _ | i <;> (conv => lhs; rw [tinyInitWord])
  have h0 : tinyInitWord seed 0 = seed := rfl
  have e1 := h2 0
  have e2 := h2 1
  have e3 := h2 2
  have e4 := h2 3
  have e5 := h2 4
  have e6 := h2 5
  have e7 := h2 6
  simp only [Nat.reduceAdd, h0] at e1 e2 e3 e4 e5 e6 e7
  have hs : ∀ a b c d, (((junk.set 0 a).set 1 b).set 2 c).set 3 d = ⟨a, b, c, d⟩ := fun _ _ _ _ => rfl
  rw [seedWords, hs]
  show seedStep (seedStep (seedStep (seedStep (seedStep (seedStep (seedStep _ 1) 2) 3) 4) 5) 6) 7 = _
  have s1 : ∀ a b c d, seedStep ⟨a, b, c, d⟩ 1 = ⟨a, b ^^^ g 1 a, c, d⟩ := fun _ _ _ _ => h1 _ _
  have s2 : ∀ a b c d, seedStep ⟨a, b, c, d⟩ 2 = ⟨a, b, c ^^^ g 2 b, d⟩ := fun _ _ _ _ => h1 _ _
  have s3 : ∀ a b c d, seedStep ⟨a, b, c, d⟩ 3 = ⟨a, b, c, d ^^^ g 3 c⟩ := fun _ _ _ _ => h1 _ _
  have s4 : ∀ a b c d, seedStep ⟨a, b, c, d⟩ 4 = ⟨a ^^^ g 4 d, b, c, d⟩ := fun _ _ _ _ => h1 _ _
  have s5 : ∀ a b c d, seedStep ⟨a, b, c, d⟩ 5 = ⟨a, b ^^^ g 5 a, c, d⟩ := fun _ _ _ _ => h1 _ _
  have s6 : ∀ a b c d, seedStep ⟨a, b, c, d⟩ 6 = ⟨a, b, c ^^^ g 6 b, d⟩ := fun _ _ _ _ => h1 _ _
  have s7 : ∀ a b c d, seedStep ⟨a, b, c, d⟩ 7 = ⟨a, b, c, d ^^^ g 7 c⟩ := fun _ _ _ _ => h1 _ _
  rw [s1, ← e1, s2, ← e2, s3, ← e3, s4, ← e4, s5, ← e5, s6, ← e6, s7, ← e7]

/-- C72 (seeding): the constructor leaves the published initial state, in both modes. -/
theorem C72_seed (mode : Mode) (junk : State) (seed : BitVec 32) : toSpec (new mode junk seed) = tinyInit seed := by
  have hrep : ∀ n s, toSpec ((shuffle mode)^[n] s) = Nat.repeat tinyNext n (toSpec s) := by
    intro n s
    induction n with
    | zero => rfl
    | succ n ih => rw [Function.iterate_succ_apply', C72_state, ih]; rfl
  rw [new, reInit, hrep, seedWords_eq, tinyInit, certify]
  dsimp only
  split <;> rfl

theorem temper_numpy (s : State) : temper .numpy s = (tinyTemper (toSpec s)).setWidth 64 := by
  unfold temper tinyTemper toSpec
  dsimp only
  generalize s.s0 + (s.s2 >>> 8) = t
  have h : t.setWidth 64 &&& 1 = (t &&& 1).setWidth 64 := by rw [BitVec.setWidth_and]; rfl
  have h2 : ((t &&& 1).setWidth 64 * 0x3793FDFF : BitVec 64) = ((t &&& 1) * 0x3793FDFF : BitVec 32).setWidth 64 := by
    have key : t &&& 1 = 0 ∨ t &&& 1 = 1 := by
      have := mask_bit 0 t 1 rfl
      rw [show (t &&& 1) * 1 = t &&& 1 from BitVec.mul_one _] at this
      rw [this]
      split
      · right; rfl
      · left; rfl
    rcases key with k | k <;> rw [k] <;> decide
  rw [h, h2, ← BitVec.setWidth_xor, ← BitVec.setWidth_xor, mask_bit 0 _ _ rfl]
  split
  · rfl
  · simp

/-- Full C72: `next` returns the 32-bit TinyMT32 output in both modes. False under numba, see below. -/
def C72_full : Prop := ∀ (mode : Mode) (s : State),
  (next mode s).2.toNat = (tinyTemper (tinyNext (toSpec s))).toNat

/-- C72, proved part: `next` returns the published output with numpy scalars, and also under numba whenever the sum
in the tempering does not carry out of 32 bits. Missing: the carry case under numba, where the result is different. -/
theorem C72_next_partial (mode : Mode) (s : State)
    (h : mode = .numpy ∨ (shuffle mode s).s0.toNat + ((shuffle mode s).s2 >>> 8).toNat < 2 ^ 32) :
    (next mode s).2.toNat = (tinyTemper (tinyNext (toSpec s))).toNat := by
  rw [← C72_state mode]
  have e : temper mode (shuffle mode s) = temper .numpy (shuffle mode s) := by
    cases mode with
    | numpy => rfl
    | numba =>
      rcases h with h | h
      · cases h
      · simp only [temper]
        have : (shuffle .numba s).s0.setWidth 64 + ((shuffle .numba s).s2 >>> 8).setWidth 64
            = ((shuffle .numba s).s0 + ((shuffle .numba s).s2 >>> 8)).setWidth 64 := by
          apply BitVec.eq_of_toNat_eq
          simp only [BitVec.toNat_add, BitVec.toNat_setWidth]
          omega
        rw [this]
  simp only [next, e, temper_numpy, BitVec.toNat_setWidth]
  omega

/-- C72 is false: the first output of `TinyMersenneTwister(775)` under numba is `2^32` or more. -/
theorem C72_numba_overflow (junk : State) :
    (next .numba (new .numba junk 775)).2.toNat = 4630971620 ∧ (next .numpy (new .numpy junk 775)).2.toNat = 336004324 := by
  rw [new_eq .numba, new_eq .numpy]; constructor <;> decide +kernel

theorem C72_full_false : ¬ C72_full := by
  intro h
  have h1 := h .numba (new .numba ⟨0, 0, 0, 0⟩ 775)
  have h2 := (C72_numba_overflow ⟨0, 0, 0, 0⟩).1
  have := (tinyTemper (tinyNext (toSpec (new .numba ⟨0, 0, 0, 0⟩ 775)))).isLt
  omega

example : (shuffle .numba (new .numba ⟨0, 0, 0, 0⟩ 5)).s0.toNat + ((shuffle .numba (new .numba ⟨0, 0, 0, 0⟩ 5)).s2 >>> 8).toNat
    < 2 ^ 32 := by decide +kernel

/-! ### C18 -/

/-- Full C18 for TinyMT: `next_rand(maximum)` is below `maximum` in both modes. False under numba, see below. -/
def C18_tiny_full : Prop := ∀ (mode : Mode) (s : State) (maximum : BitVec 32), maximum ≠ 0 →
  (nextRand mode s maximum).2.toNat < maximum.toNat

/-- C18 (TinyMT): one step, `⌊y * maximum / 2^32⌋ < maximum`, whenever the draw `y` is a 32-bit number (always with
numpy scalars; under numba unless the tempering sum carries). Missing: the carry case. -/
theorem C18_tiny_next_rand_partial (mode : Mode) (s : State) (maximum : BitVec 32) (hm : maximum ≠ 0)
    (h : (next mode s).2.toNat < 2 ^ 32) :
    (nextRand mode s maximum).1 = (next mode s).1 ∧
    (nextRand mode s maximum).2.toNat = (next mode s).2.toNat * maximum.toNat / 2 ^ 32 ∧
    (nextRand mode s maximum).2.toNat < maximum.toNat := by
  have hpos : 0 < maximum.toNat := by
    rcases Nat.eq_zero_or_pos maximum.toNat with h | h
    · exact absurd (BitVec.eq_of_toNat_eq h) hm
    · exact h
  have e : (nextRand mode s maximum).2 = Lcrng.mulShift ((next mode s).2.setWidth 32) maximum := by
    simp only [nextRand, Lcrng.mulShift]
    congr 3
    apply BitVec.eq_of_toNat_eq
    simp only [BitVec.toNat_setWidth]
    omega
  have e2 : (nextRand mode s maximum).2.toNat = (next mode s).2.toNat * maximum.toNat / 2 ^ 32 := by
    rw [e, Lcrng.mulShift_toNat, BitVec.toNat_setWidth, Nat.mod_eq_of_lt h]
  refine ⟨rfl, e2, ?_⟩
  rw [e2, Nat.div_lt_iff_lt_mul (by norm_num), Nat.mul_comm]
  exact Nat.mul_lt_mul_of_pos_left h hpos

/-- C18 (TinyMT), numpy mode: no side condition. -/
theorem C18_tiny_next_rand_numpy (s : State) (maximum : BitVec 32) (hm : maximum ≠ 0) :
    (nextRand .numpy s maximum).2.toNat = (next .numpy s).2.toNat * maximum.toNat / 2 ^ 32 ∧
    (nextRand .numpy s maximum).2.toNat < maximum.toNat := by
  have h : (next .numpy s).2.toNat < 2 ^ 32 := by
    rw [C72_next_partial .numpy s (.inl rfl)]; exact BitVec.isLt _
  exact (C18_tiny_next_rand_partial .numpy s maximum hm h).2

/-- C18 is false under numba: `TinyMersenneTwister(775).next_rand(100)` returns 107. -/
theorem C18_tiny_out_of_range (junk : State) : (nextRand .numba (new .numba junk 775) 100).2 = 107 := by
  rw [new_eq]; decide +kernel

theorem C18_tiny_full_false : ¬ C18_tiny_full := by
  intro h
  have h1 := h .numba (new .numba ⟨0, 0, 0, 0⟩ 775) 100 (by decide)
  rw [C18_tiny_out_of_range] at h1
  exact absurd h1 (by decide)

/-- C18 (TinyMT): `next_rand_mod(maximum)` makes one step and returns the draw modulo `maximum`, in both modes. -/
theorem C18_tiny_next_rand_mod (mode : Mode) (s : State) (maximum : BitVec 32) (hm : maximum ≠ 0) :
    ∃ r, nextRandMod mode s maximum = ((next mode s).1, .ok r) ∧
      r.toNat = (next mode s).2.toNat % maximum.toNat ∧ r.toNat < maximum.toNat := by
  have hpos : 0 < maximum.toNat := by
    rcases Nat.eq_zero_or_pos maximum.toNat with h | h
    · exact absurd (BitVec.eq_of_toNat_eq h) hm
    · exact h
  have hz : (maximum.setWidth 64).toNat = maximum.toNat := by
    rw [BitVec.toNat_setWidth]; have := maximum.isLt; omega
  have hne : maximum.setWidth 64 ≠ 0 := by
    intro h; rw [h] at hz; simp at hz; omega
  refine ⟨(next mode s).2 % maximum.setWidth 64, ?_, ?_, ?_⟩
  · simp only [nextRandMod, pyMod, if_neg hne]
  · rw [BitVec.toNat_umod, hz]
  · rw [BitVec.toNat_umod, hz]; exact Nat.mod_lt _ hpos

example : (25 : BitVec 32) ≠ 0 ∧ (next .numba (new .numba ⟨0, 0, 0, 0⟩ 5)).2.toNat < 2 ^ 32 := by
  constructor <;> decide +kernel

/-! ### C12 -/

/-- C12 (TinyMT): `re_init(seed)` on an object with any previous state is a new object. -/
theorem C12_tiny_re_init (mode : Mode) (s junk : State) (seed : BitVec 32) :
    reInit mode s seed = new mode junk seed := reInit_eq mode s junk seed

end Verif.TinyMt
