import Verif.Model.Mt
import Verif.Spec.Mt
import Mathlib.Tactic.Ring
import Mathlib.Tactic.IntervalCases
import Mathlib.Data.Fintype.EquivFin
/-
Helper lemmas: the array of the model is a window of the MT19937 sequence.
-/
namespace Verif.Mt
open Verif.Spec

theorem twist_eq (u v : BitVec 32) :
    (((u &&& 0x80000000) ||| (v &&& 0x7FFFFFFF)) >>> 1) ^^^ mag02 ((u &&& 0x80000000) ||| (v &&& 0x7FFFFFFF))
      = mtTwist u v := by
  have h : (u &&& 0x80000000) ||| (v &&& 0x7FFFFFFF) = u.extractLsb' 31 1 ++ v.extractLsb' 0 31 := by
    apply BitVec.eq_of_getLsbD_eq
    intro i hi
    rw [BitVec.getLsbD_append]
    interval_cases i <;> simp
  have h2 : ∀ y : BitVec 32, y &&& 1 = 0 ↔ y.getLsbD 0 = false := by
    intro y
    constructor
    · intro h
      have := congrArg (fun z => z.getLsbD 0) h
      simpa using this
    · intro h
      apply BitVec.eq_of_getLsbD_eq
      intro i hi
      rcases Nat.eq_zero_or_pos i with rfl | h'
      · simpa using h
      · simp only [BitVec.getLsbD_and]
        have : (1 : BitVec 32).getLsbD i = false := by
          simp [BitVec.getLsbD_one]; omega
        rw [this]; simp
  rw [h, mtTwist, mag02]
  generalize u.extractLsb' 31 1 ++ v.extractLsb' 0 31 = y
  cases hy : y.getLsbD 0
  · rw [if_pos ((h2 y).2 hy)]; simp
  · rw [if_neg (by rw [h2, hy]; simp)]; simp

/-- the first 624 cells of `m` are the block of `x` starting at `N` -/
def Window (x : Nat → BitVec 32) (m : Mem) (N : Nat) : Prop := ∀ j, j < 624 → m j = x (N + j)

/-- block `N` with the first `i` cells already replaced by the next block -/
def Mixed (x : Nat → BitVec 32) (m : Mem) (N i : Nat) : Prop :=
  (∀ j, j < i → m j = x (N + 624 + j)) ∧ ∀ j, i ≤ j → j < 624 → m j = x (N + j)

theorem mixed_step {x : Nat → BitVec 32} (hx : ∀ k, x (k + 624) = x (k + 397) ^^^ mtTwist (x k) (x (k + 1)))
    {m : Mem} {N i n f : Nat} (hm : Mixed x m N i) (hi : i < 624)
    (hn : m n = x (N + i + 1)) (hf : m f = x (N + i + 397)) : Mixed x (shuffleStep m (i, n, f)) N (i + 1) := by
  have hv : shuffleStep m (i, n, f) = m.set i (x (N + 624 + i)) := by
    simp only [shuffleStep]
    congr 1
    rw [twist_eq, hn, hf, hm.2 i le_rfl hi, show N + 624 + i = N + i + 624 by omega, hx, BitVec.xor_comm]
  rw [hv]
  constructor
  · intro j hj
    rcases Nat.lt_or_ge j i with h | h
    · rw [Mem.set_ne _ _ (by omega), hm.1 j h]
    · have : j = i := by omega
      subst this; simp
  · intro j h1 h2
    rw [Mem.set_ne _ _ (by omega), hm.2 j (by omega) h2]

theorem foldl_mixed (x : Nat → BitVec 32) (N : Nat) (g : Nat → Nat × Nat × Nat) :
    ∀ (c a : Nat) (m : Mem), Mixed x m N a →
      (∀ i m, a ≤ i → i < a + c → Mixed x m N i → Mixed x (shuffleStep m (g i)) N (i + 1)) →
      Mixed x (((List.range' a c).map g).foldl shuffleStep m) N (a + c) := by
  intro c
  induction c with
  | zero => intro a m hm _; simpa using hm
  | succ c ih =>
    intro a m hm hstep
    rw [List.range'_succ, List.map_cons, List.foldl_cons]
    have := ih (a + 1) _ (hstep a m le_rfl (by omega) hm)
      (fun i m h1 h2 h => hstep i m (by omega) (by omega) h)
    rwa [show a + 1 + c = a + (c + 1) by omega] at this

/-- `shuffle` replaces a block by the next one -/
theorem shuffleMem_window {x : Nat → BitVec 32}
    (hx : ∀ k, x (k + 624) = x (k + 397) ^^^ mtTwist (x k) (x (k + 1)))
    {m : Mem} {N : Nat} (hm : Window x m N) : Window x (shuffleMem m) (N + 624) := by
  have h0 : Mixed x m N 0 := ⟨fun j hj => by omega, fun j _ hj => hm j hj⟩
  have h1 : Mixed x (idx1.foldl shuffleStep m) N 227 := by
    have := foldl_mixed x N (fun i => (i, i + 1, i + 397)) 227 0 m h0 (fun i m _ h2 h => by
      apply mixed_step hx h (by omega)
      · exact (h.2 (i + 1) (by omega) (by omega)).trans (congrArg x (by omega))
      · exact (h.2 (i + 397) (by omega) (by omega)).trans (congrArg x (by omega)))
    simpa [idx1, List.range_eq_range'] using this
  have h2 : Mixed x (idx2.foldl shuffleStep (idx1.foldl shuffleStep m)) N 623 := by
    have := foldl_mixed x N (fun i => (i, i + 1, i - 227)) 396 227 _ h1 (fun i m h1 h2 h => by
      apply mixed_step hx h (by omega)
      · exact (h.2 (i + 1) (by omega) (by omega)).trans (congrArg x (by omega))
      · exact (h.1 (i - 227) (by omega)).trans (congrArg x (by omega)))
    exact this
  have h3 := mixed_step (n := 0) (f := 396) hx h2 (by omega) 
    ((h2.1 0 (by omega)).trans (congrArg x (by omega))) ((h2.1 396 (by omega)).trans (congrArg x (by omega)))
  have e : shuffleMem m = shuffleStep (idx2.foldl shuffleStep (idx1.foldl shuffleStep m)) (623, 0, 396) := by
    rw [shuffleMem, idx3]
  intro j hj
  rw [e]
  exact h3.1 j (by omega)

/-- the initialisation loop writes the first 624 words -/
theorem seedLoop {x : Nat → BitVec 32}
    (hi : ∀ i, 0 < i → i < 624 → x i = 1812433253 * (x (i - 1) ^^^ (x (i - 1) >>> 30)) + BitVec.ofNat 32 i) :
    ∀ (c a : Nat) (s : Mem × BitVec 32), 0 < a → a + c ≤ 624 → (∀ j, j < a → s.1 j = x j) → s.2 = x (a - 1) →
      ∀ j, j < a + c → ((List.range' a c).foldl seedStep s).1 j = x j := by
  intro c
  induction c with
  | zero => intro a s _ _ h _ j hj; simpa using h j (by omega)
  | succ c ih =>
    intro a s ha hac h1 h2 j hj
    rw [List.range'_succ, List.foldl_cons]
    have hv : (seedStep s a).2 = x a := by
      rw [hi a ha (by omega), ← h2]; rfl
    apply ih (a + 1) _ (by omega) (by omega) _ (by simpa using hv) j (by omega)
    intro k hk
    rcases Nat.lt_or_ge k a with h | h
    · simp only [seedStep]; rw [Mem.set_ne _ _ (by omega), h1 k h]
    · have : k = a := by omega
      subst this
      rw [← hv]; simp [seedStep]

theorem reInit_window (s : State) (seed : BitVec 32) {x : Nat → BitVec 32} (hx : IsMT19937 seed x) :
    Window x (reInit s seed).state 0 := by
  intro j hj
  have := seedLoop hx.init 623 1 (s.state.set 0 seed, seed) (by omega) (by omega)
    (by intro j hj; have : j = 0 := by omega
        subst this; simp [hx.zero]) (by simp [hx.zero]) j (by omega)
  simpa [reInit] using this

/-- state `s` sits in block `b` of `x`; its stream cursor is `624*b + index` -/
structure At (x : Nat → BitVec 32) (s : State) (c : Nat) : Prop where
  idx : s.index ≤ 624
  block : ∃ b, Window x s.state (624 * b) ∧ c = 624 * b + s.index

theorem at_shuffle {x : Nat → BitVec 32}
    (hx : ∀ k, x (k + 624) = x (k + 397) ^^^ mtTwist (x k) (x (k + 1))) {s : State} {b : Nat}
    (h : Window x s.state (624 * b)) : Window x (shuffle s).state (624 * (b + 1)) := by
  have := shuffleMem_window hx h
  rwa [show 624 * b + 624 = 624 * (b + 1) by ring] at this

theorem shuffle_state (s : State) : (shuffle s).state = shuffleMem s.state := rfl
theorem shuffle_index (s : State) : (shuffle s).index = 0 := rfl

theorem next_at {x : Nat → BitVec 32}
    (hx : ∀ k, x (k + 624) = x (k + 397) ^^^ mtTwist (x k) (x (k + 1))) {s : State} {c : Nat} (h : At x s c) :
    At x (next s).1 (c + 1) ∧ (next s).2 = .ok (temper (x c)) := by
  obtain ⟨hidx, b, hw, hc⟩ := h
  by_cases h624 : s.index = 624
  · have hw' := at_shuffle hx hw
    rw [shuffle_state] at hw'
    have hv := hw' 0 (by omega)
    have e : next s = ({ state := shuffleMem s.state, index := 1 }, .ok (temper (shuffleMem s.state 0))) := by
      simp [next, h624, shuffle]
    rw [e]
    refine ⟨⟨(by omega : 1 ≤ 624), b + 1, hw', ?_⟩, ?_⟩
    · simp only; omega
    · simp only
      rw [hv, show 624 * (b + 1) + 0 = c by omega]
  · have hlt : s.index < 624 := by omega
    have e : next s = ({ s with index := s.index + 1 }, .ok (temper (s.state s.index))) := by
      simp [next, h624, hlt, Nat.mod_eq_of_lt (show s.index + 1 < 65536 by omega)]
    rw [e]
    refine ⟨⟨by simp only; omega, b, hw, ?_⟩, ?_⟩
    · simp only; omega
    · simp only; rw [hw _ hlt, hc]

theorem advanceLoop_at {x : Nat → BitVec 32}
    (hx : ∀ k, x (k + 624) = x (k + 397) ^^^ mtTwist (x k) (x (k + 1))) : ∀ (adv : Nat) (s : State) (b : Nat),
    Window x s.state (624 * b) →
    ∃ b', Window x (advanceLoop s adv).1.state (624 * b') ∧ (advanceLoop s adv).2 < 624 ∧
      624 * b + adv = 624 * b' + (advanceLoop s adv).2 := by
  intro adv
  induction adv using Nat.strong_induction_on with
  | _ adv ih =>
    intro s b hw
    unfold advanceLoop
    by_cases h : 624 ≤ adv
    · rw [dif_pos h]
      obtain ⟨b', h1, h2, h3⟩ := ih (adv - 624) (by omega) (shuffle s) (b + 1) (at_shuffle hx hw)
      exact ⟨b', h1, h2, by omega⟩
    · rw [dif_neg h]
      exact ⟨b, hw, by simp only; omega, rfl⟩

/-- the effective distance of `advance`: exact under numba, wrapped at `2^32` (together with the index) under numpy -/
theorem advance_at {x : Nat → BitVec 32}
    (hx : ∀ k, x (k + 624) = x (k + 397) ^^^ mtTwist (x k) (x (k + 1))) {s : State} {c : Nat} (mode : Mode)
    (adv : BitVec 32) (h : At x s c) (hfit : mode = .numba ∨ adv.toNat + s.index < 2 ^ 32) :
    At x (advance mode s adv) (c + adv.toNat) := by
  obtain ⟨hidx, b, hw, hc⟩ := h
  have ht : advTotal mode adv s.index = adv.toNat + s.index := by
    cases mode with
    | numba => rfl
    | numpy =>
      rcases hfit with h | h
      · cases h
      · simp only [advTotal]; exact Nat.mod_eq_of_lt h
  obtain ⟨b', h1, h2, h3⟩ := advanceLoop_at hx (adv.toNat + s.index) s b hw
  refine ⟨?_, b', ?_, ?_⟩
  · simp only [advance, ht]
    rw [Nat.mod_eq_of_lt (by omega)]; omega
  · simpa only [advance, ht] using h1
  · simp only [advance, ht]
    rw [Nat.mod_eq_of_lt (by omega)]; omega

/-! ### tempering -/

theorem bits_zero_left (k : Nat) (hk : 0 < k) (B d : BitVec 32) (h : d = (d <<< k) &&& B) : d = 0 := by
  have key : ∀ i, d.getLsbD i = false := by
    intro i
    induction i using Nat.strong_induction_on with
    | _ i ih =>
      have := congrArg (fun z => z.getLsbD i) h
      simp only [BitVec.getLsbD_and, BitVec.getLsbD_shiftLeft] at this
      rw [this]
      by_cases hik : i < k
      · simp [hik]
      · simp [ih (i - k) (by omega)]
  apply BitVec.eq_of_getLsbD_eq
  intro i _; simp [key i]

theorem bits_zero_right (k : Nat) (hk : 0 < k) (d : BitVec 32) (h : d = d >>> k) : d = 0 := by
  have key : ∀ n i, 32 - i = n → d.getLsbD i = false := by
    intro n
    induction n using Nat.strong_induction_on with
    | _ n ih =>
      intro i hi
      by_cases hb : 32 ≤ i
      · exact BitVec.getLsbD_of_ge d i hb
      · have := congrArg (fun z => z.getLsbD i) h
        simp only [BitVec.getLsbD_ushiftRight] at this
        rw [this]
        exact ih (32 - (k + i)) (by omega) (k + i) rfl
  apply BitVec.eq_of_getLsbD_eq
  intro i _; simp [key _ i rfl]

theorem eq_of_xor_zero (a b : BitVec w) (h : a ^^^ b = 0) : a = b := by
  have := congrArg (· ^^^ b) h
  simpa [BitVec.xor_assoc] using this

theorem xor_swap {a b c d : BitVec w} (h : a ^^^ b = c ^^^ d) : a ^^^ c = b ^^^ d := by
  apply BitVec.eq_of_getLsbD_eq
  intro i _
  have := congrArg (fun z => z.getLsbD i) h
  simp only [BitVec.getLsbD_xor] at this ⊢
  revert this
  cases a.getLsbD i <;> cases b.getLsbD i <;> cases c.getLsbD i <;> cases d.getLsbD i <;> simp

theorem left_inj (k : Nat) (hk : 0 < k) (B : BitVec 32) :
    Function.Injective (fun y : BitVec 32 => y ^^^ ((y <<< k) &&& B)) := by
  intro a b h
  have h1 := xor_swap h
  apply eq_of_xor_zero
  apply bits_zero_left k hk B
  rw [BitVec.shiftLeft_xor_distrib]
  rw [h1]
  apply BitVec.eq_of_getLsbD_eq
  intro i hi
  simp only [BitVec.getLsbD_xor, BitVec.getLsbD_and]
  cases (a <<< k).getLsbD i <;> cases (b <<< k).getLsbD i <;> cases B.getLsbD i <;> rfl

theorem right_inj (k : Nat) (hk : 0 < k) :
    Function.Injective (fun y : BitVec 32 => y ^^^ (y >>> k)) := by
  intro a b h
  have h1 := xor_swap h
  apply eq_of_xor_zero
  apply bits_zero_right k hk
  rw [BitVec.ushiftRight_xor_distrib]
  exact h1

theorem temper_injective : Function.Injective temper := by
  have h : temper = (fun y : BitVec 32 => y ^^^ (y >>> 18)) ∘ (fun y : BitVec 32 => y ^^^ ((y <<< 15) &&& 0xEFC60000)) ∘
      (fun y : BitVec 32 => y ^^^ ((y <<< 7) &&& 0x9D2C5680)) ∘ (fun y : BitVec 32 => y ^^^ (y >>> 11)) := rfl
  rw [h]
  exact (right_inj 18 (by omega)).comp ((left_inj 15 (by omega) _).comp ((left_inj 7 (by omega) _).comp
    (right_inj 11 (by omega))))

instance finiteBitVec (w : Nat) : Finite (BitVec w) :=
  Finite.of_injective (BitVec.toFin) (fun _ _ h => BitVec.eq_of_toFin_eq h)

end Verif.Mt
