import Verif.Lemmas.Cycle
import Verif.Props.Lcrng
import Verif.Props.XoroshiroPeriod
import Verif.Props.Xorshift128Period
/-
C102: how often each value is drawn in a full period of the LCRNGs, Xorshift128 and Xoroshiro128+.
-/
namespace Verif.Xorshift128
open Verif.Cycle

theorem next_zero (mode : Mode) : (next mode ⟨0, 0, 0, 0⟩).1 = ⟨0, 0, 0, 0⟩ := by cases mode <;> decide

theorem next_ne (mode : Mode) (s : State) (hs : s ≠ ⟨0, 0, 0, 0⟩) : (next mode s).1 ≠ ⟨0, 0, 0, 0⟩ := by
  intro h
  have h1 := congrArg Prod.fst (previous_next mode s)
  have h2 := congrArg Prod.fst (previous_next mode ⟨0, 0, 0, 0⟩)
  rw [h] at h1
  rw [next_zero] at h2
  exact hs (h1.symm.trans h2)

/-- the states, seen as (three words, fourth word) -/
def words : State ≃ (BitVec 32 × BitVec 32 × BitVec 32) × BitVec 32 where
  toFun s := ((s.s0, s.s1, s.s2), s.s3)
  invFun p := ⟨p.1.1, p.1.2.1, p.1.2.2, p.2⟩
  left_inv _ := rfl
  right_inv _ := rfl

instance : Finite State := Finite.of_equiv _ words.symm

theorem count_states (mode : Mode) (s : State) (hs : s ≠ ⟨0, 0, 0, 0⟩) (m : Nat) (P : State → Prop) :
    { n | n < 2 ^ 128 - 1 ∧ P (advance mode s (m + n)) }.ncard = { t | t ≠ ⟨0, 0, 0, 0⟩ ∧ P t }.ncard :=
  count_cycle (fun s => (next mode s).1) (fun s => s ≠ ⟨0, 0, 0, 0⟩) (2 ^ 128 - 1) (fun s hs k => C83_period mode s hs k)
    (fun s t hs ht => C83_one_cycle mode s t hs ht) (next_ne mode) s hs m P

/-- C102 (Xorshift128): among any 2^128 - 1 consecutive positions each quadruple of consecutive outputs occurs exactly
once, except the quadruple of zeros, which never occurs. -/
theorem C102_quadruples (mode : Mode) (s : State) (hs : s ≠ ⟨0, 0, 0, 0⟩) (m : Nat) (a b c d : BitVec 32) :
    { n | n < 2 ^ 128 - 1 ∧ (runN (next mode) 4 (advance mode s (m + n))).2 = [a, b, c, d] }.ncard
      = if a = 0 ∧ b = 0 ∧ c = 0 ∧ d = 0 then 0 else 1 := by
  have e : ∀ t : State, (runN (next mode) 4 t).2 = [a, b, c, d] ↔ advance mode t 4 = ⟨a, b, c, d⟩ := by
    intro t
    constructor
    · intro h
      simp only [runN, next, List.cons.injEq, and_true] at h
      obtain ⟨h1, h2, h3, h4⟩ := h
      simp only [advance, Function.iterate_succ_apply, Function.iterate_zero_apply, next]
      rw [h1] at h2 h3 h4 ⊢
      rw [h2] at h3 h4 ⊢
      rw [h3] at h4 ⊢
      rw [h4]
    · intro h
      simp only [advance, Function.iterate_succ_apply, Function.iterate_zero_apply, next, State.mk.injEq] at h
      simp only [runN, next, List.cons.injEq, and_true]
      exact h
  have h4 : ∀ t k, advance mode (advance mode t k) 4 = advance mode t (4 + k) := fun t k =>
    (Function.iterate_add_apply _ 4 k t).symm
  have e2 : { n | n < 2 ^ 128 - 1 ∧ (runN (next mode) 4 (advance mode s (m + n))).2 = [a, b, c, d] }
      = { n | n < 2 ^ 128 - 1 ∧ advance mode s ((4 + m) + n) = ⟨a, b, c, d⟩ } := by
    ext n
    rw [Set.mem_ofPred_eq, Set.mem_ofPred_eq, e, h4, Nat.add_assoc]
  rw [e2, count_states mode s hs (4 + m) (fun t => t = ⟨a, b, c, d⟩)]
  by_cases hz : a = 0 ∧ b = 0 ∧ c = 0 ∧ d = 0
  · rw [if_pos hz]
    obtain ⟨rfl, rfl, rfl, rfl⟩ := hz
    have : { t : State | t ≠ ⟨0, 0, 0, 0⟩ ∧ t = ⟨0, 0, 0, 0⟩ } = ∅ := by
      ext t
      simp only [Set.mem_ofPred_eq, Set.mem_empty_iff_false, iff_false]
      exact fun h => h.1 h.2
    rw [this, Set.ncard_empty]
  · rw [if_neg hz]
    have : { t : State | t ≠ ⟨0, 0, 0, 0⟩ ∧ t = ⟨a, b, c, d⟩ } = {⟨a, b, c, d⟩} := by
      ext t
      simp only [Set.mem_ofPred_eq, Set.mem_singleton_iff]
      refine ⟨fun h => h.2, fun h => ⟨fun h' => hz ?_, h⟩⟩
      rw [h, State.mk.injEq] at h'
      exact h'
    rw [this, Set.ncard_singleton]

/-- C102 (Xorshift128): over a period each set of 32-bit values is hit 2^96 times per element, 0 once less. -/
theorem C102_outputs (mode : Mode) (s : State) (hs : s ≠ ⟨0, 0, 0, 0⟩) (m : Nat) (Q : BitVec 32 → Prop) [DecidablePred Q] :
    { n | n < 2 ^ 128 - 1 ∧ Q (next mode (advance mode s (m + n))).2 }.ncard + (if Q 0 then 1 else 0)
      = 2 ^ 96 * { v | Q v }.ncard := by
  have e2 : { n | n < 2 ^ 128 - 1 ∧ Q (next mode (advance mode s (m + n))).2 }
      = { n | n < 2 ^ 128 - 1 ∧ Q (advance mode s ((1 + m) + n)).s3 } := by
    ext n
    have : advance mode s ((1 + m) + n) = (next mode (advance mode s (m + n))).1 := by
      rw [Nat.add_assoc, advance, Function.iterate_add_apply]; rfl
    rw [Set.mem_ofPred_eq, Set.mem_ofPred_eq, this]
    rfl
  rw [e2, count_states mode s hs (1 + m) (fun t => Q t.s3), but_one (⟨0, 0, 0, 0⟩ : State) (fun t => Q t.s3)]
  refine (fibre words Q).trans ?_
  rw [Nat.card_prod, Nat.card_prod, card_bitVec]
  norm_num

/-- C102 (Xorshift128): how often `next_rand(maximum)` returns `v` in a period. -/
theorem C102_next_rand (mode : Mode) (s : State) (hs : s ≠ ⟨0, 0, 0, 0⟩) (m : Nat) (maximum v : BitVec 32)
    (hv : v.toNat < maximum.toNat) :
    { n | n < 2 ^ 128 - 1 ∧ (nextRand mode (advance mode s (m + n)) maximum).2 = .ok v }.ncard + (if v = 0 then 1 else 0)
      = 2 ^ 96 * (2 ^ 32 / maximum.toNat + if v.toNat < 2 ^ 32 % maximum.toNat then 1 else 0) := by
  have hm : maximum ≠ 0 := by rintro rfl; simp at hv
  have key : ∀ t : State, (nextRand mode t maximum).2 = .ok v ↔ (next mode t).2.toNat % maximum.toNat = v.toNat := by
    intro t
    rw [nextRand, pyMod_pos mode _ _ hm, Except.ok.injEq, ← BitVec.toNat_inj, BitVec.toNat_umod]
  have h := C102_outputs mode s hs m (fun y => y.toNat % maximum.toNat = v.toNat)
  rw [ncard_mod 32 maximum.toNat v.toNat hv] at h
  rw [← h]
  congr 1
  · congr 1
    ext n
    rw [Set.mem_ofPred_eq, key]
    rfl
  · refine if_congr ?_ rfl rfl
    rw [show (0 : BitVec 32).toNat = 0 from rfl, Nat.zero_mod]
    constructor
    · rintro rfl; rfl
    · intro h; exact BitVec.eq_of_toNat_eq h.symm

example : (⟨0, 0, 0, 1⟩ : State) ≠ ⟨0, 0, 0, 0⟩ ∧ (24 : BitVec 32).toNat < (25 : BitVec 32).toNat := by decide

end Verif.Xorshift128

namespace Verif.Xoroshiro
open Verif.Cycle

theorem step_ne (mode : Mode) (s : State) (hs : s ≠ ⟨0, 0⟩) : step mode s ≠ ⟨0, 0⟩ := by
  intro h
  exact hs (step_injective mode (h.trans (step_zero mode).symm))

/-- the states, seen as (first word, output) -/
def sums : State ≃ BitVec 64 × BitVec 64 where
  toFun s := (s.s0, s.s0 + s.s1)
  invFun p := ⟨p.1, p.2 - p.1⟩
  left_inv s := by simp [BitVec.add_comm s.s0, BitVec.add_sub_cancel]
  right_inv p := by
    refine Prod.ext rfl ?_
    show p.1 + (p.2 - p.1) = p.2
    rw [BitVec.add_comm, BitVec.sub_add_cancel]

instance : Finite State := Finite.of_equiv _ sums.symm

theorem count_states (mode : Mode) (s : State) (hs : s ≠ ⟨0, 0⟩) (m : Nat) (P : State → Prop) :
    { n | n < 2 ^ 128 - 1 ∧ P (advance mode s (m + n)) }.ncard = { t | t ≠ ⟨0, 0⟩ ∧ P t }.ncard :=
  count_cycle (step mode) (fun s => s ≠ ⟨0, 0⟩) (2 ^ 128 - 1) (fun s hs k => C81_period mode s hs k)
    (fun s t hs ht => C81_one_cycle mode s t hs ht) (step_ne mode) s hs m P

/-- C102 (Xoroshiro128+): over a period each set of 64-bit values is hit 2^64 times per element, 0 once less. -/
theorem C102_outputs (mode : Mode) (s : State) (hs : s ≠ ⟨0, 0⟩) (m : Nat) (Q : BitVec 64 → Prop) [DecidablePred Q] :
    { n | n < 2 ^ 128 - 1 ∧ Q (Rejection.next mode (advance mode s (m + n))).2 }.ncard + (if Q 0 then 1 else 0)
      = 2 ^ 64 * { v | Q v }.ncard := by
  have h := count_states mode s hs m (fun t => Q (t.s0 + t.s1))
  have e : { n | n < 2 ^ 128 - 1 ∧ Q (Rejection.next mode (advance mode s (m + n))).2 } =
    { n | n < 2 ^ 128 - 1 ∧ Q ((advance mode s (m + n)).s0 + (advance mode s (m + n)).s1) } := rfl
  rw [e, h]
  have := but_one (⟨0, 0⟩ : State) (fun t => Q (t.s0 + t.s1))
  rw [show (0 : BitVec 64) + 0 = 0 from rfl] at this
  rw [this]
  refine (fibre sums Q).trans ?_
  rw [card_bitVec]

/-- C102 (Xoroshiro128+): rejection sampling is unbiased. Over a period the draws that `next_rand(maximum)` accepts take
each value `v` below `maximum` equally often, 0 once less. -/
theorem C102_rejection (mode : Mode) (s : State) (hs : s ≠ ⟨0, 0⟩) (m : Nat) (maximum : BitVec 32) (v : BitVec 64)
    (hv : v.toNat < maximum.toNat) :
    { n | n < 2 ^ 128 - 1 ∧ ∃ s', Rejection.nextRand mode 1 (advance mode s (m + n)) maximum = some (s', v) }.ncard
      + (if v = 0 then 1 else 0) = 2 ^ (128 - (maximum.toNat - 1).size) := by
  have hm : maximum ≠ 0 := by rintro rfl; simp at hv
  have key : ∀ t : State, (∃ s', Rejection.nextRand mode 1 t maximum = some (s', v)) ↔
      (Rejection.next mode t).2.toNat % 2 ^ (maximum.toNat - 1).size = v.toNat := by
    intro t
    constructor
    · rintro ⟨s', h⟩
      rw [C32_rejection mode 1 t s' maximum v hm] at h
      obtain ⟨k, hk, -, -, h, -⟩ := h
      obtain rfl : k = 0 := by omega
      exact h.symm
    · intro h
      have h0 : (output mode t 0).toNat % 2 ^ (maximum.toNat - 1).size = v.toNat := h
      refine ⟨advance mode t 1, ?_⟩
      rw [C32_rejection mode 1 t _ maximum v hm]
      exact ⟨0, by omega, fun j hj => by omega, by rw [h0]; exact hv, h0.symm, rfl⟩
  have hk : (maximum.toNat - 1).size ≤ 32 := by
    rw [Nat.size_le]
    have := maximum.isLt
    omega
  have hlt : v.toNat < 2 ^ (maximum.toNat - 1).size := by
    have := Nat.lt_size_self (maximum.toNat - 1)
    omega
  have h := C102_outputs mode s hs m (fun y => y.toNat % 2 ^ (maximum.toNat - 1).size = v.toNat)
  have h1 : { y : BitVec 64 | y.toNat % 2 ^ (maximum.toNat - 1).size = v.toNat }.ncard = 2 ^ (64 - (maximum.toNat - 1).size) := by
    rw [ncard_mod 64 _ _ hlt, Nat.pow_div (by omega) (by omega), Nat.mod_eq_zero_of_dvd (pow_dvd_pow 2 (by omega)),
      if_neg (by omega), Nat.add_zero]
  rw [h1, ← pow_add, show 64 + (64 - (maximum.toNat - 1).size) = 128 - (maximum.toNat - 1).size by omega] at h
  rw [← h]
  congr 1
  · congr 1
    ext n
    rw [Set.mem_ofPred_eq, key]
    rfl
  · refine if_congr ?_ rfl rfl
    rw [show (0 : BitVec 64).toNat = 0 from rfl, Nat.zero_mod]
    constructor
    · rintro rfl; rfl
    · intro h; exact BitVec.eq_of_toNat_eq h.symm

/-- C102 (Xoroshiro128+ with splitmix seeding): over a period each set of 32-bit values is hit 2^96 times per element, 0
once less, for every seed. -/
theorem C102_splitmix (mode : Mode) (junk : State) (seed : BitVec 64) (m : Nat) (Q : BitVec 32 → Prop) [DecidablePred Q] :
    { n | n < 2 ^ 128 - 1 ∧ Q (SplitMix.next mode (advance mode (SplitMix.new junk seed) (m + n))).2 }.ncard
      + (if Q 0 then 1 else 0) = 2 ^ 96 * { v | Q v }.ncard := by
  have h := C102_outputs mode (SplitMix.new junk seed) (C34_nonzero junk seed).2 m (fun y => Q ((y >>> 32).setWidth 32))
  have h1 := fibre (halves 32 32) Q
  rw [card_bitVec] at h1
  have h2 : { y : BitVec 64 | Q ((y >>> 32).setWidth 32) }.ncard = 2 ^ 32 * { v | Q v }.ncard := h1
  rw [h2, ← mul_assoc, ← pow_add] at h
  exact h

/-- C102: how often its `next_rand(maximum)` returns `v` in a period. -/
theorem C102_splitmix_next_rand (mode : Mode) (junk : State) (seed : BitVec 64) (m : Nat) (maximum v : BitVec 32)
    (hv : v.toNat < maximum.toNat) :
    { n | n < 2 ^ 128 - 1 ∧ (SplitMix.nextRand mode (advance mode (SplitMix.new junk seed) (m + n)) maximum).2 = .ok v }.ncard
      + (if v = 0 then 1 else 0)
      = 2 ^ 96 * (2 ^ 32 / maximum.toNat + if v.toNat < 2 ^ 32 % maximum.toNat then 1 else 0) := by
  have hm : maximum ≠ 0 := by rintro rfl; simp at hv
  have key : ∀ t : State, (SplitMix.nextRand mode t maximum).2 = .ok v ↔
      (SplitMix.next mode t).2.toNat % maximum.toNat = v.toNat := by
    intro t
    rw [SplitMix.nextRand, Xorshift128.pyMod_pos mode _ _ hm, Except.ok.injEq, ← BitVec.toNat_inj, BitVec.toNat_umod]
  have h := C102_splitmix mode junk seed m (fun y => y.toNat % maximum.toNat = v.toNat)
  rw [ncard_mod 32 maximum.toNat v.toNat hv] at h
  rw [← h]
  congr 1
  · congr 1
    ext n
    rw [Set.mem_ofPred_eq, key]
    rfl
  · refine if_congr ?_ rfl rfl
    rw [show (0 : BitVec 32).toNat = 0 from rfl, Nat.zero_mod]
    constructor
    · rintro rfl; rfl
    · intro h; exact BitVec.eq_of_toNat_eq h.symm

example : (⟨1, 0⟩ : State) ≠ ⟨0, 0⟩ ∧ (0 : BitVec 64).toNat < (6 : BitVec 32).toNat ∧ ((6 : BitVec 32).toNat - 1).size = 3 := by
  decide

end Verif.Xoroshiro

namespace Verif.Lcrng
open Verif.Cycle

theorem count_states {c : ClassDecl w} (hc : HullDobell c) {p : Params w} (hp : c.params = .ok p) (x : BitVec w) (m : Nat)
    (P : BitVec w → Prop) : { n | n < 2 ^ w ∧ P ((next p)^[m + n] x) }.ncard = { y | P y }.ncard := by
  obtain ⟨p', hp', h⟩ := C05_period c hc
  obtain rfl : p = p' := by rw [hp] at hp'; exact Except.ok.inj hp'
  have := count_cycle (next p) (fun _ => True) (2 ^ w) (fun s _ k => h k s)
    (fun s t _ _ => (reach_of_period (next p) h s t).exists) (fun _ _ => trivial) x trivial m P
  simpa only [true_and] using this

/-- C102 (32-bit LCRNGs): over a period each set of 16-bit values is hit by `next_u16` exactly 2^16 times per element. -/
theorem C102_next_u16 {c : ClassDecl 32} (hc : HullDobell c) {p : Params 32} (hp : c.params = .ok p) (x : BitVec 32) (m : Nat)
    (Q : BitVec 16 → Prop) :
    { n | n < 2 ^ 32 ∧ Q (nextU16 p ((next p)^[m + n] x)).2 }.ncard = 2 ^ 16 * { v | Q v }.ncard := by
  have e : { n | n < 2 ^ 32 ∧ Q (nextU16 p ((next p)^[m + n] x)).2 } =
      { n | n < 2 ^ 32 ∧ Q ((((next p)^[(1 + m) + n] x) >>> 16).setWidth 16) } := by
    ext n
    rw [Set.mem_ofPred_eq, Set.mem_ofPred_eq, Nat.add_assoc 1, Function.iterate_add_apply _ 1]
    rfl
  rw [e, count_states hc hp x (1 + m) (fun y => Q ((y >>> 16).setWidth 16))]
  have h1 := fibre (halves 16 16) Q
  rw [card_bitVec] at h1
  exact h1

/-- C102 (32-bit LCRNGs): how often `next_rand(maximum)` of the MODULO classes returns `v` in a period. -/
theorem C102_modulo (mode : Mode) {c : ClassDecl 32} (hc : HullDobell c) {p : Params 32} (hp : c.params = .ok p)
    (x : BitVec 32) (m : Nat) (maximum v : BitVec 16) (hv : v.toNat < maximum.toNat) :
    { n | n < 2 ^ 32 ∧ (nextRand32 mode p .modulo maximum ((next p)^[m + n] x)).2 = .ok v }.ncard
      = 2 ^ 16 * (2 ^ 16 / maximum.toNat + if v.toNat < 2 ^ 16 % maximum.toNat then 1 else 0) := by
  have hm : maximum ≠ 0 := by rintro rfl; simp at hv
  have h := C102_next_u16 hc hp x m (fun y => y.toNat % maximum.toNat = v.toNat)
  rw [ncard_mod 16 maximum.toNat v.toNat hv] at h
  rw [← h]
  congr 1
  ext n
  rw [Set.mem_ofPred_eq, nextRand32]
  simp only [Xorshift128.pyMod_pos mode _ _ hm, Except.ok.injEq, ← BitVec.toNat_inj, BitVec.toNat_umod]
  rfl

/-- C102 (32-bit LCRNGs): how often `next_rand(maximum)` of the RECIPROCAL_DIVISION classes returns `v` in a period, for
`maximum` at least 2 (C07): each 16-bit draw is divided by `d = 65535 / maximum + 1`. -/
theorem C102_reciprocal (mode : Mode) {c : ClassDecl 32} (hc : HullDobell c) {p : Params 32} (hp : c.params = .ok p)
    (x : BitVec 32) (m : Nat) (maximum v : BitVec 16) (hm : 2 ≤ maximum.toNat) :
    { n | n < 2 ^ 32 ∧ (nextRand32 mode p .reciprocalDivision maximum ((next p)^[m + n] x)).2 = .ok v }.ncard
      = 2 ^ 16 * (min (2 ^ 16) ((v.toNat + 1) * (65535 / maximum.toNat + 1)) - min (2 ^ 16) (v.toNat * (65535 / maximum.toNat + 1))) := by
  have hm0 : maximum ≠ 0 := by rintro rfl; simp at hm
  have hq : 65535 / maximum.toNat ≤ 32767 := by
    calc 65535 / maximum.toNat ≤ 65535 / 2 := Nat.div_le_div_left hm (by omega)
      _ = 32767 := by norm_num
  have hd : (0xFFFF#16 / maximum + 1).toNat = 65535 / maximum.toNat + 1 := by
    rw [BitVec.toNat_add, BitVec.toNat_udiv]
    exact Nat.mod_eq_of_lt (by simp; omega)
  have hd0 : 0xFFFF#16 / maximum + 1 ≠ 0 := by
    intro h
    rw [h] at hd
    simp at hd
  generalize hD : 65535 / maximum.toNat + 1 = d at hd
  have h := C102_next_u16 hc hp x m (fun y => y.toNat / d = v.toNat)
  have e : { n | n < 2 ^ 32 ∧ (nextRand32 mode p .reciprocalDivision maximum ((next p)^[m + n] x)).2 = .ok v } =
      { n | n < 2 ^ 32 ∧ (nextU16 p ((next p)^[m + n] x)).2.toNat / d = v.toNat } := by
    ext n
    rw [Set.mem_ofPred_eq, Set.mem_ofPred_eq, nextRand32]
    simp only [pyDiv, if_neg hm0, if_neg hd0, Except.ok.injEq]
    rw [← BitVec.toNat_inj, BitVec.toNat_udiv, hd]
  rw [e]
  refine h.trans (congrArg (2 ^ 16 * ·) ?_)
  rw [ncard_toNat 16 (fun y => y / d = v.toNat), Nat.count_eq_card_filter_range, ← Nat.card_Ico]
  refine congrArg Finset.card ?_
  ext y
  have hdpos : 0 < d := hD ▸ Nat.succ_pos _
  simp only [Finset.mem_filter, Finset.mem_range, Finset.mem_Ico]
  rw [Nat.div_eq_iff hdpos]
  have e1 : (v.toNat + 1) * d = v.toNat * d + d := by ring
  rw [e1]
  generalize v.toNat * d = vd
  omega

/-- C102 (64-bit LCRNGs): over a period each set of 32-bit values is hit by `next_u32` exactly 2^32 times per element. -/
theorem C102_next_u32 {c : ClassDecl 64} (hc : HullDobell c) {p : Params 64} (hp : c.params = .ok p) (x : BitVec 64) (m : Nat)
    (Q : BitVec 32 → Prop) :
    { n | n < 2 ^ 64 ∧ Q (nextU32 p ((next p)^[m + n] x)).2 }.ncard = 2 ^ 32 * { v | Q v }.ncard := by
  have e : { n | n < 2 ^ 64 ∧ Q (nextU32 p ((next p)^[m + n] x)).2 } =
      { n | n < 2 ^ 64 ∧ Q ((((next p)^[(1 + m) + n] x) >>> 32).setWidth 32) } := by
    ext n
    rw [Set.mem_ofPred_eq, Set.mem_ofPred_eq, Nat.add_assoc 1, Function.iterate_add_apply _ 1]
    rfl
  rw [e, count_states hc hp x (1 + m) (fun y => Q ((y >>> 32).setWidth 32))]
  have h1 := fibre (halves 32 32) Q
  rw [card_bitVec] at h1
  exact h1

/-- C102 (64-bit LCRNGs): `next_rand(maximum)` returns each value below `maximum` equally often, up to 2^32 of the 2^64
positions. -/
theorem C102_mul_shift {c : ClassDecl 64} (hc : HullDobell c) {p : Params 64} (hp : c.params = .ok p) (x : BitVec 64) (m : Nat)
    (maximum v : BitVec 32) (hv : v.toNat < maximum.toNat) :
    { n | n < 2 ^ 64 ∧ (nextRand64 p .multiplicationShift maximum ((next p)^[m + n] x)).2 = .ok v }.ncard
        = 2 ^ 32 * (2 ^ 32 / maximum.toNat) ∨
    { n | n < 2 ^ 64 ∧ (nextRand64 p .multiplicationShift maximum ((next p)^[m + n] x)).2 = .ok v }.ncard
        = 2 ^ 32 * ((2 ^ 32 + maximum.toNat - 1) / maximum.toNat) := by
  have h := C102_next_u32 hc hp x m (fun y => mulShift y maximum = v)
  have e : { n | n < 2 ^ 64 ∧ (nextRand64 p .multiplicationShift maximum ((next p)^[m + n] x)).2 = .ok v } =
      { n | n < 2 ^ 64 ∧ mulShift (nextU32 p ((next p)^[m + n] x)).2 maximum = v } := by
    ext n
    rw [Set.mem_ofPred_eq, Set.mem_ofPred_eq, nextRand64]
    simp only [Except.ok.injEq]
  have h2 : { y : BitVec 32 | mulShift y maximum = v }.ncard = ((Finset.range (2 ^ 32)).filter
      (fun u => (mulShift (BitVec.ofNat 32 u) maximum).toNat = v.toNat)).card := by
    have := ncard_toNat 32 (fun u => (mulShift (BitVec.ofNat 32 u) maximum).toNat = v.toNat)
    rw [Nat.count_eq_card_filter_range] at this
    rw [← this]
    congr 1
    ext y
    rw [Set.mem_ofPred_eq, Set.mem_ofPred_eq, BitVec.ofNat_toNat, BitVec.setWidth_eq, BitVec.toNat_inj]
  rw [e]
  refine (C09_balanced maximum v.toNat hv).imp (fun h' => ?_) (fun h' => ?_)
  · exact h.trans (by rw [h2, h'])
  · exact h.trans (by rw [h2, h'])

example : HullDobell pokeRNG ∧ pokeRNG.params = .ok { add := 0x6073, mult := 0x41C64E6D } ∧
    (24 : BitVec 16).toNat < (25 : BitVec 16).toNat := ⟨C05_shipped.1, rfl, by decide⟩
example : HullDobell bwrng ∧ bwrng.params = .ok { add := 0x269EC3, mult := 0x5D588B656C078965 } :=
  ⟨C05_shipped.2.2.2.2.2.2.1, rfl⟩

end Verif.Lcrng
