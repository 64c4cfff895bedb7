import Verif.Model.Xoroshiro
import Verif.Props.Util
import Mathlib.Data.Nat.Size
import Mathlib.Tactic.Push
/-
C30 - C35 and the Xoroshiro parts of C12 and C73.
-/
namespace Verif.Xoroshiro

theorem rotr_rotl (mode : Mode) (v : BitVec 64) (c : Nat) (h : 0 < c ∧ c < 64) : rotr mode (rotl mode v c) c = v := by
  obtain ⟨l, r, hl, -, -, -, h1, -⟩ := Util.C43_rotate64_partial mode v c (by omega) (.inr h)
  rw [rotl, hl, Option.getD_some, rotr, h1, Option.getD_some]

theorem rotl_rotr (mode : Mode) (v : BitVec 64) (c : Nat) (h : 0 < c ∧ c < 64) : rotl mode (rotr mode v c) c = v := by
  obtain ⟨l, r, -, hr, -, -, -, h1⟩ := Util.C43_rotate64_partial mode v c (by omega) (.inr h)
  rw [rotr, hr, Option.getD_some, rotl, h1, Option.getD_some]

theorem rotl_eq (mode : Mode) (v : BitVec 64) (c : Nat) (h : 0 < c ∧ c < 64) :
    rotl mode v c = (v <<< c) ||| (v >>> (64 - c)) := by
  rw [rotl, Util.rotateLeft64_eq mode v c (by omega) (.inr h), Option.getD_some]

theorem rotr_eq (mode : Mode) (v : BitVec 64) (c : Nat) (h : 0 < c ∧ c < 64) :
    rotr mode v c = (v <<< (64 - c)) ||| (v >>> c) := by
  rw [rotr, Util.rotateRight64_eq mode v c (by omega) (.inr h), Option.getD_some]

theorem xor_cancel (a b : BitVec w) : (a ^^^ b) ^^^ b = a := by simp [BitVec.xor_assoc]

theorem xor_cancel2 (a b c : BitVec w) : a ^^^ b ^^^ c ^^^ b ^^^ c = a := by
  apply BitVec.eq_of_getLsbD_eq
  intro i _
  simp only [BitVec.getLsbD_xor]
  cases a.getLsbD i <;> cases b.getLsbD i <;> cases c.getLsbD i <;> rfl

theorem unstep_step (mode : Mode) (s : State) : unstep mode (step mode s) = s := by
  simp only [unstep, step, rotr_rotl mode _ 37 (by omega), xor_cancel2, rotr_rotl mode _ 24 (by omega), xor_cancel]

theorem step_unstep (mode : Mode) (s : State) : step mode (unstep mode s) = s := by
  simp only [unstep, step, xor_cancel, rotl_rotr mode _ 37 (by omega), rotl_rotr mode _ 24 (by omega), xor_cancel2]

/-- the values returned by `n` successive calls of `f`, and the final state -/
def runN (f : State → State × α) : Nat → State → State × List α
  | 0, s => (s, [])
  | n + 1, s => ((runN f n (f s).1).1, (f s).2 :: (runN f n (f s).1).2)

theorem runN_snoc (f : State → State × α) (n : Nat) (s : State) :
    runN f (n + 1) s = ((f (runN f n s).1).1, (runN f n s).2 ++ [(f (runN f n s).1).2]) := by
  induction n generalizing s with
  | zero => rfl
  | succ n ih => rw [runN, ih]; rfl

theorem walk (f g : State → State × α) (h : ∀ s, g (f s).1 = (s, (f s).2)) (n : Nat) (s : State) :
    runN g n (runN f n s).1 = (s, (runN f n s).2.reverse) := by
  induction n generalizing s with
  | zero => rfl
  | succ n ih =>
    rw [runN_snoc f, runN]
    simp only [h, ih, List.reverse_append, List.reverse_cons, List.reverse_nil, List.nil_append, List.cons_append]

/-- C30 (Rejection class), forwards then backwards -/
theorem C30_rejection_next_previous (mode : Mode) (n : Nat) (s : State) :
    runN (Rejection.previous mode) n (runN (Rejection.next mode) n s).1 = (s, (runN (Rejection.next mode) n s).2.reverse) :=
  walk _ _ (fun s => by simp only [Rejection.previous, Rejection.next, unstep_step]) n s

/-- C30 (Rejection class), backwards then forwards -/
theorem C30_rejection_previous_next (mode : Mode) (n : Nat) (s : State) :
    runN (Rejection.next mode) n (runN (Rejection.previous mode) n s).1 = (s, (runN (Rejection.previous mode) n s).2.reverse) :=
  walk _ _ (fun s => by simp only [Rejection.previous, Rejection.next, step_unstep]) n s

/-- C30 (SplitMix class), forwards then backwards -/
theorem C30_splitmix_next_previous (mode : Mode) (n : Nat) (s : State) :
    runN (SplitMix.previous mode) n (runN (SplitMix.next mode) n s).1 = (s, (runN (SplitMix.next mode) n s).2.reverse) :=
  walk _ _ (fun s => by simp only [SplitMix.previous, SplitMix.next, unstep_step]) n s

/-- C30 (SplitMix class), backwards then forwards -/
theorem C30_splitmix_previous_next (mode : Mode) (n : Nat) (s : State) :
    runN (SplitMix.next mode) n (runN (SplitMix.previous mode) n s).1 = (s, (runN (SplitMix.previous mode) n s).2.reverse) :=
  walk _ _ (fun s => by simp only [SplitMix.previous, SplitMix.next, step_unstep]) n s

example : (runN (Rejection.next .numba) 2 { s0 := 1, s1 := 2 }).2 = [3, 3 + 3 * 0x10000 + 0x1000000 + 3 * 0x2000000000] := by
  decide

/-- C73 (Xoroshiro128+): state updates do not depend on the execution mode. -/
theorem C73_xoroshiro_modes (s : State) : step .numba s = step .numpy s ∧ unstep .numba s = unstep .numpy s := by
  simp only [step, unstep, rotl_eq _ _ 24 (by omega), rotl_eq _ _ 37 (by omega), rotr_eq _ _ 24 (by omega),
    rotr_eq _ _ 37 (by omega), and_self]

/-- The reference xoroshiro128+ (Blackman, Vigna; version with constants 24, 16, 37). -/
def refNext (s0 s1 : BitVec 64) : BitVec 64 × BitVec 64 × BitVec 64 :=
  let result := s0 + s1
  let s1 := s1 ^^^ s0
  ((s0.rotateLeft 24) ^^^ s1 ^^^ (s1 <<< 16), s1.rotateLeft 37, result)

/-- C75: both classes compute the reference generator (the second one its upper 32 bits). -/
theorem C75_reference (mode : Mode) (s : State) :
    (let r := Rejection.next mode s; (r.1.s0, r.1.s1, r.2)) = refNext s.s0 s.s1 ∧
    (let r := SplitMix.next mode s; (r.1.s0, r.1.s1, r.2.toNat)) =
      (let q := refNext s.s0 s.s1; (q.1, q.2.1, q.2.2.toNat / 2 ^ 32)) := by
  have h1 : ∀ v, rotl mode v 24 = v.rotateLeft 24 := by intro v; rw [rotl_eq _ _ 24 (by omega)]; rfl
  have h2 : ∀ v, rotl mode v 37 = v.rotateLeft 37 := by intro v; rw [rotl_eq _ _ 37 (by omega)]; rfl
  refine ⟨by simp only [Rejection.next, step, refNext, h1, h2], ?_⟩
  simp only [SplitMix.next, step, refNext, h1, h2, Prod.mk.injEq, true_and]
  rw [BitVec.toNat_setWidth, BitVec.toNat_ushiftRight, Nat.shiftRight_eq_div_pow]
  have := (s.s0 + s.s1).isLt
  omega

/-! ### C31 -/

/-- bit `i` of the smeared value is set iff some bit at or above `i` is -/
theorem smear_bit (v : BitVec 32) (i : Nat) : (Rejection.smear v).getLsbD i = true ↔ ∃ j, i ≤ j ∧ v.getLsbD j = true := by
  constructor
  · intro h
    by_contra hn
    push Not at hn
    have hz : ∀ k, v.getLsbD (k + i) = false := fun k => by simpa using hn (k + i) (by omega)
    simp only [Rejection.smear, BitVec.getLsbD_or, BitVec.getLsbD_ushiftRight] at h
    simp only [← Nat.add_assoc, hz, Nat.reduceAdd] at h
    have h0 := hz 0
    rw [Nat.zero_add] at h0
    rw [h0] at h
    simp at h
  · rintro ⟨j, hij, hj⟩
    have hj32 : j < 32 := by
      by_contra hge
      rw [BitVec.getLsbD_of_ge v j (by omega)] at hj
      cases hj
    obtain ⟨d, rfl⟩ : ∃ d, j = d + i := ⟨j - i, by omega⟩
    simp only [Rejection.smear, BitVec.getLsbD_or, BitVec.getLsbD_ushiftRight]
    simp only [← Nat.add_assoc, Nat.reduceAdd]
    have hd : d < 32 := by omega
    interval_cases d <;> simp_all

theorem smear_toNat (v : BitVec 32) : (Rejection.smear v).toNat = 2 ^ v.toNat.size - 1 := by
  apply Nat.eq_of_testBit_eq
  intro i
  rw [Nat.testBit_two_pow_sub_one, BitVec.testBit_toNat, Bool.eq_iff_iff, smear_bit, decide_eq_true_iff]
  constructor
  · rintro ⟨j, hij, hj⟩
    rw [← BitVec.testBit_toNat] at hj
    have := Nat.ge_two_pow_of_testBit hj
    exact lt_of_le_of_lt hij (Nat.lt_size.mpr this)
  · intro h
    by_contra hn
    push Not at hn
    have : v.toNat < 2 ^ i := by
      apply Nat.lt_pow_two_of_testBit
      intro j hj
      have := hn j hj
      rw [BitVec.testBit_toNat]
      simpa using this
    have := Nat.size_le.mpr this
    omega

/-- both modes agree on non-zero arguments -/
theorem bitMask_toNat (mode : Mode) (m : BitVec 32) (h : m ≠ 0) :
    (Rejection.bitMask mode m).toNat = 2 ^ (m.toNat - 1).size - 1 := by
  have hm : 1 ≤ m.toNat := by
    have : m.toNat ≠ 0 := fun h' => h (BitVec.eq_of_toNat_eq (by simpa using h'))
    omega
  have e : (m - 1).toNat = m.toNat - 1 := by
    rw [BitVec.toNat_sub]
    have := m.isLt
    have : (1 : BitVec 32).toNat = 1 := rfl
    omega
  cases mode with
  | numpy =>
    rw [Rejection.bitMask, BitVec.toNat_setWidth, smear_toNat, e]
    apply Nat.mod_eq_of_lt
    have : (m.toNat - 1).size ≤ 32 := Nat.size_le.mpr (by have := m.isLt; omega)
    have := Nat.pow_le_pow_right (n := 2) (by omega) this
    omega
  | numba =>
    have e2 : m.setWidth 64 - 1 = (m - 1).setWidth 64 := by
      apply BitVec.eq_of_toNat_eq
      rw [BitVec.toNat_sub, BitVec.toNat_setWidth, BitVec.toNat_setWidth, e]
      have := m.isLt
      have : (1 : BitVec 64).toNat = 1 := rfl
      omega
    have e3 : ∀ v : BitVec 32, Rejection.smear (v.setWidth 64) = (Rejection.smear v).setWidth 64 := by
      have hs : ∀ (v : BitVec 32) (n : Nat), v.setWidth 64 >>> n = (v >>> n).setWidth 64 := by
        intro v n
        apply BitVec.eq_of_toNat_eq
        simp only [BitVec.toNat_ushiftRight, BitVec.toNat_setWidth, Nat.shiftRight_eq_div_pow]
        have := v.isLt
        rw [Nat.mod_eq_of_lt (by omega), Nat.mod_eq_of_lt (lt_of_le_of_lt (Nat.div_le_self _ _) (by omega))]
      intro v
      simp only [Rejection.smear, hs, ← BitVec.setWidth_or]
    rw [Rejection.bitMask, e2, e3, BitVec.toNat_setWidth, smear_toNat, e]
    apply Nat.mod_eq_of_lt
    have : (m.toNat - 1).size ≤ 32 := Nat.size_le.mpr (by have := m.isLt; omega)
    have := Nat.pow_le_pow_right (n := 2) (by omega) this
    omega

/-- C31: for `m >= 1`, `bit_mask(m)` is the smallest `2^k - 1` that is at least `m - 1`. -/
theorem C31_bit_mask (mode : Mode) (m : BitVec 32) (h : m ≠ 0) :
    ∃ k, (Rejection.bitMask mode m).toNat = 2 ^ k - 1 ∧ m.toNat - 1 ≤ 2 ^ k - 1 ∧
      ∀ k', m.toNat - 1 ≤ 2 ^ k' - 1 → 2 ^ k - 1 ≤ 2 ^ k' - 1 := by
  refine ⟨(m.toNat - 1).size, bitMask_toNat mode m h, ?_, ?_⟩
  · have := Nat.lt_size_self (m.toNat - 1)
    omega
  · intro k' hk
    have : m.toNat - 1 < 2 ^ k' := by have := Nat.one_le_two_pow (n := k'); omega
    have := Nat.size_le.mpr this
    have := Nat.pow_le_pow_right (n := 2) (by omega) this
    omega

/-- C31: `bit_mask(0)` differs between the modes (2^64 - 1 against 2^32 - 1). -/
theorem C31_bit_mask_zero : (Rejection.bitMask .numba 0).toNat = 2 ^ 64 - 1 ∧ (Rejection.bitMask .numpy 0).toNat = 2 ^ 32 - 1 := by
  decide

example : Rejection.bitMask .numba 100 = 127 ∧ (100 : BitVec 32) ≠ 0 := by decide

/-! ### C32, C33 -/

/-- the `k`-th (from 0) raw output of the generator in state `s` -/
def output (mode : Mode) (s : State) (k : Nat) : BitVec 64 := (Rejection.next mode (advance mode s k)).2

theorem output_succ (mode : Mode) (s : State) (k : Nat) : output mode (step mode s) k = output mode s (k + 1) := by
  simp only [output, advance, Function.iterate_succ_apply]

theorem drawLoop_iff (mode : Mode) (mask : BitVec 64) (m : BitVec 32) (fuel : Nat) (s s' : State) (v : BitVec 64) :
    Rejection.drawLoop mode mask m fuel s = some (s', v) ↔
      ∃ k, k < fuel ∧ (∀ j, j < k → m.toNat ≤ (output mode s j &&& mask).toNat) ∧
        (output mode s k &&& mask).toNat < m.toNat ∧ v = output mode s k &&& mask ∧ s' = advance mode s (k + 1) := by
  induction fuel generalizing s with
  | zero => simp [Rejection.drawLoop]
  | succ fuel ih =>
    have hm : (m.setWidth 64).toNat = m.toNat := by
      rw [BitVec.toNat_setWidth]; exact Nat.mod_eq_of_lt (lt_trans m.isLt (by norm_num))
    have ho : (Rejection.next mode s).2 = output mode s 0 := rfl
    simp only [Rejection.drawLoop, ho]
    by_cases hc : output mode s 0 &&& mask ≥ m.setWidth 64
    · rw [if_pos hc]
      have hc' : m.toNat ≤ (output mode s 0 &&& mask).toNat := by rw [← hm]; exact hc
      rw [show (Rejection.next mode s).1 = step mode s from rfl, ih]
      constructor
      · rintro ⟨k, hk, h1, h2, h3, h4⟩
        refine ⟨k + 1, by omega, ?_, ?_, ?_, ?_⟩
        · intro j hj
          cases j with
          | zero => exact hc'
          | succ j => rw [← output_succ]; exact h1 j (by omega)
        · rw [← output_succ]; exact h2
        · rw [← output_succ]; exact h3
        · rw [h4, advance, advance, Function.iterate_succ_apply _ (k + 1)]
      · rintro ⟨k, hk, h1, h2, h3, h4⟩
        cases k with
        | zero => omega
        | succ k =>
          refine ⟨k, by omega, ?_, ?_, ?_, ?_⟩
          · intro j hj
            rw [output_succ]; exact h1 (j + 1) (by omega)
          · rw [output_succ]; exact h2
          · rw [output_succ]; exact h3
          · rw [h4, advance, advance, Function.iterate_succ_apply _ (k + 1)]
    · rw [if_neg hc]
      have hc' : (output mode s 0 &&& mask).toNat < m.toNat := by
        rw [← hm]; exact BitVec.not_le.mp hc
      constructor
      · intro h
        simp only [Option.some.injEq, Prod.mk.injEq] at h
        exact ⟨0, by omega, fun j hj => by omega, hc', h.2.symm, h.1.symm⟩
      · rintro ⟨k, hk, h1, h2, h3, h4⟩
        cases k with
        | zero => simp only [Option.some.injEq, Prod.mk.injEq]; exact ⟨h4.symm, h3.symm⟩
        | succ k => have := h1 0 (by omega); omega

/-- C32: `next_rand(maximum)` returns (within `fuel` draws) exactly when some masked output among the next `fuel` is below
`maximum`; it then returns the first such one, and the state is that after the rejected draws plus one. The mask is
the smallest `2^k - 1 >= maximum - 1` (C31), so every value below `maximum` can occur. -/
theorem C32_rejection (mode : Mode) (fuel : Nat) (s s' : State) (m : BitVec 32) (v : BitVec 64) (hm : m ≠ 0) :
    Rejection.nextRand mode fuel s m = some (s', v) ↔
      ∃ k, k < fuel ∧ (∀ j, j < k → m.toNat ≤ (output mode s j).toNat % 2 ^ (m.toNat - 1).size) ∧
        (output mode s k).toNat % 2 ^ (m.toNat - 1).size < m.toNat ∧
        v.toNat = (output mode s k).toNat % 2 ^ (m.toNat - 1).size ∧ s' = advance mode s (k + 1) := by
  have hmask : ∀ x : BitVec 64, (x &&& Rejection.bitMask mode m).toNat = x.toNat % 2 ^ (m.toNat - 1).size := by
    intro x
    rw [BitVec.toNat_and, bitMask_toNat mode m hm, Nat.and_two_pow_sub_one_eq_mod]
  rw [Rejection.nextRand, drawLoop_iff]
  simp only [hmask, ← BitVec.toNat_inj]

/-- C32: the result is below `maximum`. -/
theorem C32_in_range (mode : Mode) (fuel : Nat) (s s' : State) (m : BitVec 32) (v : BitVec 64)
    (h : Rejection.nextRand mode fuel s m = some (s', v)) : v.toNat < m.toNat := by
  rw [Rejection.nextRand, drawLoop_iff] at h
  obtain ⟨k, -, -, h2, rfl, -⟩ := h
  exact h2

/-- C33: `next_rand(0)` never returns, however many draws are made. -/
theorem C33_empty_range (mode : Mode) (fuel : Nat) (s : State) : Rejection.nextRand mode fuel s 0 = none := by
  cases h : Rejection.nextRand mode fuel s 0 with
  | none => rfl
  | some r =>
    have := C32_in_range mode fuel s r.1 0 r.2 h
    simp at this

example : Rejection.nextRand .numba 5 { s0 := 6, s1 := 1 } 5 =
    some (advance .numba { s0 := 6, s1 := 1 } 5, 1) := by decide

/-! ### C34 -/

/-- one step of the reference SplitMix64 generator (Steele, Lea, Flood; Vigna's `splitmix64.c`): new state, output -/
def refSplitMix (x : BitVec 64) : BitVec 64 × BitVec 64 :=
  let x := x + 0x9e3779b97f4a7c15
  let z := x
  let z := (z ^^^ (z >>> 30)) * 0xbf58476d1ce4e5b9
  let z := (z ^^^ (z >>> 27)) * 0x94d049bb133111eb
  (x, z ^^^ (z >>> 31))

/-- C34: the two words are the first two outputs of SplitMix64 seeded with `seed`. -/
theorem C34_reference (junk : State) (seed : BitVec 64) :
    (SplitMix.new junk seed).s0 = (refSplitMix seed).2 ∧
    (SplitMix.new junk seed).s1 = (refSplitMix (refSplitMix seed).1).2 := by
  refine ⟨?_, ?_⟩
  · simp only [SplitMix.new, SplitMix.reInit, SplitMix.splitmix, refSplitMix, BitVec.mul_comm]
  · have e : seed + 0x9e3779b97f4a7c15 + 0x9e3779b97f4a7c15 = seed + 0x3C6EF372FE94F82A := by
      rw [BitVec.add_assoc]; rfl
    simp only [SplitMix.new, SplitMix.reInit, SplitMix.splitmix, refSplitMix, e, BitVec.mul_comm]

theorem shr30_inj (x : BitVec 64) : (let y := x ^^^ (x >>> 30); y ^^^ (y >>> 30) ^^^ (y >>> 60)) = x := by
  apply BitVec.eq_of_getLsbD_eq
  intro i hi
  simp only [BitVec.getLsbD_xor, BitVec.getLsbD_ushiftRight]
  interval_cases i <;> simp

theorem shr27_inj (x : BitVec 64) : (let y := x ^^^ (x >>> 27); y ^^^ (y >>> 27) ^^^ (y >>> 54)) = x := by
  apply BitVec.eq_of_getLsbD_eq
  intro i hi
  simp only [BitVec.getLsbD_xor, BitVec.getLsbD_ushiftRight]
  interval_cases i <;> simp

theorem shr31_inj (x : BitVec 64) : (let y := x ^^^ (x >>> 31); y ^^^ (y >>> 31) ^^^ (y >>> 62)) = x := by
  apply BitVec.eq_of_getLsbD_eq
  intro i hi
  simp only [BitVec.getLsbD_xor, BitVec.getLsbD_ushiftRight]
  interval_cases i <;> simp

theorem inj_of_left {f g : α → α} (h : ∀ x, g (f x) = x) : Function.Injective f := fun a b hab => by
  rw [← h a, ← h b, hab]

theorem mulc1_inj : Function.Injective (fun x : BitVec 64 => (0xBF58476D1CE4E5B9 : BitVec 64) * x) :=
  inj_of_left (g := fun x => (0x96de1b173f119089 : BitVec 64) * x) (fun x => by
    rw [← BitVec.mul_assoc]
    rw [show (0x96de1b173f119089 : BitVec 64) * 0xBF58476D1CE4E5B9 = 1#64 by decide, BitVec.one_mul])

theorem mulc2_inj : Function.Injective (fun x : BitVec 64 => (0x94D049BB133111EB : BitVec 64) * x) :=
  inj_of_left (g := fun x => (0x319642b2d24d8ec3 : BitVec 64) * x) (fun x => by
    rw [← BitVec.mul_assoc]
    rw [show (0x319642b2d24d8ec3 : BitVec 64) * 0x94D049BB133111EB = 1#64 by decide, BitVec.one_mul])

/-- the mixing function is injective in `seed + state` -/
theorem splitmix_inj (a b c d : BitVec 64) (h : SplitMix.splitmix a c = SplitMix.splitmix b d) : a + c = b + d := by
  simp only [SplitMix.splitmix] at h
  have h1 := inj_of_left (f := fun x : BitVec 64 => x ^^^ (x >>> 31))
    (g := fun y => y ^^^ (y >>> 31) ^^^ (y >>> 62)) shr31_inj h
  have h2 := mulc2_inj h1
  have h3 := inj_of_left (f := fun x : BitVec 64 => x ^^^ (x >>> 27))
    (g := fun y => y ^^^ (y >>> 27) ^^^ (y >>> 54)) shr27_inj h2
  have h4 := mulc1_inj h3
  exact inj_of_left (f := fun x : BitVec 64 => x ^^^ (x >>> 30))
    (g := fun y => y ^^^ (y >>> 30) ^^^ (y >>> 60)) shr30_inj h4

/-- C34: different seeds give different states (already the first word differs, and so does the second). -/
theorem C34_injective (junk junk' : State) (a b : BitVec 64) (h : a ≠ b) :
    (SplitMix.new junk a).s0 ≠ (SplitMix.new junk' b).s0 ∧ (SplitMix.new junk a).s1 ≠ (SplitMix.new junk' b).s1 := by
  have cancel : ∀ x y c : BitVec 64, x + c = y + c → x = y := fun x y c h => by
    have := congrArg (· - c) h
    simpa using this
  exact ⟨fun h' => h (cancel _ _ _ (splitmix_inj _ _ _ _ h')), fun h' => h (cancel _ _ _ (splitmix_inj _ _ _ _ h'))⟩

/-- C34: the seeded state is never all zero; indeed the two words always differ. -/
theorem C34_nonzero (junk : State) (seed : BitVec 64) :
    (SplitMix.new junk seed).s0 ≠ (SplitMix.new junk seed).s1 ∧ SplitMix.new junk seed ≠ { s0 := 0, s1 := 0 } := by
  have h : (SplitMix.new junk seed).s0 ≠ (SplitMix.new junk seed).s1 := by
    intro h'
    have h2 := splitmix_inj _ _ _ _ h'
    have h3 := congrArg (fun x => x - seed) h2
    simp only [BitVec.add_comm seed, BitVec.add_sub_cancel] at h3
    revert h3
    decide
  refine ⟨h, fun h' => ?_⟩
  rw [h'] at h
  exact h rfl

example : (0x12345678 : BitVec 64) ≠ 0x87654321 := by decide

/-! ### C35 -/

/-- C35: `advance(n)` is `n` discarded calls of `next()`, in both classes. -/
theorem C35_advance (mode : Mode) (n : Nat) (s : State) :
    advance mode s n = (runN (Rejection.next mode) n s).1 ∧ advance mode s n = (runN (SplitMix.next mode) n s).1 := by
  induction n generalizing s with
  | zero => exact ⟨rfl, rfl⟩
  | succ n ih =>
    rw [advance, Function.iterate_succ_apply]
    exact ⟨(ih _).1, (ih _).2⟩

theorem step_zero (mode : Mode) : step mode { s0 := 0, s1 := 0 } = { s0 := 0, s1 := 0 } := by
  cases mode <;> decide

theorem step_injective (mode : Mode) : Function.Injective (step mode) := inj_of_left (unstep_step mode)

/-- C35: the all-zero state is a fixed point, and it is reached from no other state. -/
theorem C35_zero (mode : Mode) (n : Nat) (s : State) :
    advance mode s n = { s0 := 0, s1 := 0 } ↔ s = { s0 := 0, s1 := 0 } := by
  have hz : (step mode)^[n] { s0 := 0, s1 := 0 } = { s0 := 0, s1 := 0 } := Function.iterate_fixed (step_zero mode) n
  constructor
  · intro h
    exact (step_injective mode).iterate n (h.trans hz.symm)
  · rintro rfl; exact hz

/-! ### C75, C85: values -/

/-- the outputs of the reference generator started at `(a, b)` -/
def refOutputs : Nat → BitVec 64 → BitVec 64 → List (BitVec 64)
  | 0, _, _ => []
  | n + 1, a, b => (refNext a b).2.2 :: refOutputs n (refNext a b).1 (refNext a b).2.1

theorem runN_ref (mode : Mode) (n : Nat) (s : State) :
    (runN (Rejection.next mode) n s).2 = refOutputs n s.s0 s.s1 ∧
    (runN (SplitMix.next mode) n s).2.map BitVec.toNat = (refOutputs n s.s0 s.s1).map (·.toNat / 2 ^ 32) := by
  induction n generalizing s with
  | zero => exact ⟨rfl, rfl⟩
  | succ n ih =>
    obtain ⟨h1, h2⟩ := C75_reference mode s
    have h11 : (Rejection.next mode s).1.s0 = _ := congrArg Prod.fst h1
    have h12 : (Rejection.next mode s).1.s1 = _ := congrArg (fun p => p.2.1) h1
    have h13 : (Rejection.next mode s).2 = _ := congrArg (fun p => p.2.2) h1
    have h21 : (SplitMix.next mode s).1.s0 = _ := congrArg Prod.fst h2
    have h22 : (SplitMix.next mode s).1.s1 = _ := congrArg (fun p => p.2.1) h2
    have h23 : (SplitMix.next mode s).2.toNat = _ := congrArg (fun p => p.2.2) h2
    constructor
    · show (Rejection.next mode s).2 :: (runN (Rejection.next mode) n (Rejection.next mode s).1).2 = _
      rw [(ih _).1, h11, h12, h13]; rfl
    · show (SplitMix.next mode s).2.toNat :: (runN (SplitMix.next mode) n (SplitMix.next mode s).1).2.map BitVec.toNat = _
      rw [(ih _).2, h21, h22, h23]; rfl

/-- C75 (streams): a new object yields the outputs of the reference generator started at the seed words given (the second
word defaults to 0x82A2B175229D6A5B), or their upper halves started at the two splitmix words. -/
theorem C75_stream (mode : Mode) (junk : State) (n : Nat) (a b : BitVec 64) :
    (runN (Rejection.next mode) n (Rejection.new junk a b)).2 = refOutputs n a b ∧
    (runN (Rejection.next mode) n (Rejection.new junk a)).2 = refOutputs n a 0x82A2B175229D6A5B ∧
    (runN (SplitMix.next mode) n (SplitMix.new junk a)).2.map BitVec.toNat =
      (refOutputs n (refSplitMix a).2 (refSplitMix (refSplitMix a).1).2).map (·.toNat / 2 ^ 32) := by
  refine ⟨(runN_ref mode n _).1, (runN_ref mode n _).1, ?_⟩
  rw [(runN_ref mode n (SplitMix.new junk a)).2, (C34_reference junk a).1, (C34_reference junk a).2]

/-- C85: `SplitMixXoroshiro128Plus.next_rand(maximum)` makes one step and returns the draw modulo `maximum`, which is
below `maximum`. -/
theorem C85_split_next_rand (mode : Mode) (s : State) (maximum : BitVec 32) (hm : maximum ≠ 0) :
    ∃ r, SplitMix.nextRand mode s maximum = ((SplitMix.next mode s).1, .ok r) ∧
      r.toNat = (SplitMix.next mode s).2.toNat % maximum.toNat ∧ r.toNat < maximum.toNat := by
  have hpos : 0 < maximum.toNat := by
    rcases Nat.eq_zero_or_pos maximum.toNat with h | h
    · exact absurd (BitVec.eq_of_toNat_eq h) hm
    · exact h
  refine ⟨(SplitMix.next mode s).2 % maximum, ?_, BitVec.toNat_umod, ?_⟩
  · simp only [SplitMix.nextRand, pyMod, if_neg hm]
  · rw [BitVec.toNat_umod]; exact Nat.mod_lt _ hpos

/-- C85: `next_rand(0)` raises under numba and returns 0 with numpy scalars; the step is made in either case. -/
theorem C85_split_zero (s : State) :
    SplitMix.nextRand .numba s 0 = ((SplitMix.next .numba s).1, .error .zeroDivision) ∧
    SplitMix.nextRand .numpy s 0 = ((SplitMix.next .numpy s).1, .ok 0) := ⟨rfl, rfl⟩

example : (7 : BitVec 32) ≠ 0 ∧ (SplitMix.nextRand .numba (SplitMix.new ⟨0, 0⟩ 1) 7).2 = .ok 2 := by decide +kernel

/-! ### C12 -/

/-- C12 (both Xoroshiro128+ classes) -/
theorem C12_xoroshiro_re_init (s junk : State) (a b : BitVec 64) :
    Rejection.reInit s a b = Rejection.new junk a b ∧ SplitMix.reInit s a = SplitMix.new junk a := ⟨rfl, rfl⟩

end Verif.Xoroshiro
