import Verif.Props.Mt
import Verif.Props.SfmtPeriod
/-
C122: how many advances the method `shuffle` of the twisters is worth. The docstrings (`mt.py:64`, `sfmt.py:319`) both say 624.
-/
namespace Verif.ShuffleDoc

/-- the state after a call of `next` -/
def stepOf (next : S → S × O) (s : S) : S := (next s).1

/-- From `t` on, the calls of `next` return what they return from `s` on after `k` calls. -/
def Ahead (next : S → S × O) (k : Nat) (s t : S) : Prop :=
  ∀ n, (next ((stepOf next)^[n] t)).2 = (next ((stepOf next)^[k + n] s)).2

/-- Full C122: a call of `shuffle` at the start of a block is worth 624 calls of `next`, for both twisters. False for the SFMT. -/
def C122_full : Prop :=
  (∀ s : Mt.State, s.index = 0 → Ahead Mt.next 624 s (Mt.shuffle s)) ∧
  (∀ s : Sfmt.State, s.index = 0 → Ahead Sfmt.next 624 s (Sfmt.shuffle s))

private theorem ahead_of {next : S → S × O} {k : Nat} {s t : S} (h : next t = next ((stepOf next)^[k] s)) : Ahead next k s t := by
  intro n
  rw [Nat.add_comm, Function.iterate_add_apply]
  cases n with
  | zero => rw [Function.iterate_zero_apply, Function.iterate_zero_apply, h]
  | succ n =>
    rw [Function.iterate_succ_apply, Function.iterate_succ_apply]
    rw [show stepOf next t = stepOf next ((stepOf next)^[k] s) from congrArg Prod.fst h]

/-! ### Mersenne Twister -/

private theorem mt_next_shuffle (s : Mt.State) (h : s.index = 624) : Mt.next (Mt.shuffle s) = Mt.next s := by
  have h0 : (Mt.shuffle s).index ≠ 624 := (by decide : 0 ≠ 624)
  generalize hs : Mt.shuffle s = t at h0
  simp only [Mt.next, h, h0, hs, if_true, if_false]

private theorem mt_run (s : Mt.State) (k : Nat) (h : s.index + k ≤ 624) :
    (stepOf Mt.next)^[k] s = { s with index := s.index + k } := by
  induction k with
  | zero => rfl
  | succ k ih =>
    rw [Function.iterate_succ_apply', ih (by omega), stepOf, Mt.next]
    have h1 : s.index + k ≠ 624 := by omega
    have h2 : s.index + k < 624 := by omega
    simp only [h1, h2, if_false, if_true]
    rw [Nat.mod_eq_of_lt (by omega), Nat.add_assoc]

/-- C122 (MT19937): from any state `shuffle` skips what is left of the block, 624 - index values, and does what
`advance(624 - index)` does; at the start of a block these are the documented 624. -/
theorem C122_mt (s : Mt.State) (h : s.index ≤ 624) :
    Ahead Mt.next (624 - s.index) s (Mt.shuffle s) ∧
    ∀ mode, Mt.advance mode s (BitVec.ofNat 32 (624 - s.index)) = Mt.shuffle s := by
  constructor
  · apply ahead_of
    rw [mt_run s _ (by omega), Nat.add_sub_cancel' h]
    exact mt_next_shuffle { s with index := 624 } rfl
  · intro mode
    have e : Mt.advTotal mode (BitVec.ofNat 32 (624 - s.index)) s.index = 624 := by
      cases mode <;> simp only [Mt.advTotal, BitVec.toNat_ofNat] <;> omega
    rw [Mt.advance, e, Mt.advanceLoop, dif_pos (Nat.le_refl _), Mt.advanceLoop, dif_neg (by decide)]
    rfl

/-! ### SFMT -/

private theorem size (e : Nat) (h : 9 ≤ e) : 312 < 2 ^ e - 1 :=
  Nat.lt_of_lt_of_le (by decide : 312 < 2 ^ 9 - 1) (Nat.sub_le_sub_right (Nat.pow_le_pow_right (by decide) h) 1)

private theorem sfmt_next_shuffle (s : Sfmt.State) (h : s.index = 624) : Sfmt.next (Sfmt.shuffle s) = Sfmt.next s := by
  have h0 : (Sfmt.shuffle s).index ≠ 624 := (by decide : 0 ≠ 624)
  generalize hs : Sfmt.shuffle s = t at h0
  simp only [Sfmt.next, h, h0, hs, if_true, if_false]

private theorem sfmt_run (s : Sfmt.State) (k : Nat) (he : s.index % 2 = 0) (h : s.index + 2 * k ≤ 624) :
    (stepOf Sfmt.next)^[k] s = { s with index := s.index + 2 * k } := by
  induction k with
  | zero => rfl
  | succ k ih =>
    rw [Function.iterate_succ_apply', ih (by omega), stepOf, Sfmt.next]
    have h1 : s.index + 2 * k ≠ 624 := by omega
    have h2 : s.index + 2 * k < 624 := by omega
    have h3 : (s.index + 2 * k + 1) % 2 ^ 16 < 624 := by omega
    simp only [h1, h2, h3, if_false, if_true]
    congr 1
    omega

/-- C122 (SFMT19937): `shuffle` skips what is left of the block. A value takes two of the 624 words: at the start of a block these are
312 values, not 624. -/
theorem C122_sfmt_partial (s : Sfmt.State) (h : s.index ≤ 624) (he : s.index % 2 = 0) :
    Ahead Sfmt.next (312 - s.index / 2) s (Sfmt.shuffle s) ∧
    ∀ mode, Sfmt.advance mode s (BitVec.ofNat 32 (312 - s.index / 2)) = Sfmt.shuffle s := by
  constructor
  · apply ahead_of
    rw [sfmt_run s _ he (by omega), show s.index + 2 * (312 - s.index / 2) = 624 by omega]
    exact sfmt_next_shuffle { s with index := 624 } rfl
  · intro mode
    have e : Sfmt.advTotal mode (BitVec.ofNat 32 (312 - s.index / 2)) s.index = 624 := by
      cases mode <;> simp only [Sfmt.advTotal, BitVec.toNat_ofNat] <;> omega
    rw [Sfmt.advance, e, Sfmt.advanceLoop, dif_pos (Nat.le_refl _), Sfmt.advanceLoop, dif_neg (by decide)]
    rfl

/-- At every moment of every seed's stream that number is the only one (below the prime 2^19937 - 1): `shuffle` is never worth 624
calls of `next` there. -/
theorem C122_sfmt_only (junk : Mem) (seed : BitVec 32) (m k : Nat) (N : Nat) (hN : N = 2 ^ 19937 - 1) (hk : k < N) :
    (SfmtPeriod.after junk seed m).index ≤ 624 ∧ (SfmtPeriod.after junk seed m).index % 2 = 0 ∧
    (Ahead Sfmt.next k (SfmtPeriod.after junk seed m) (Sfmt.shuffle (SfmtPeriod.after junk seed m)) ↔
      k = 312 - (SfmtPeriod.after junk seed m).index / 2) := by
  have hi : (SfmtPeriod.after junk seed m).index ≤ 624 ∧ (SfmtPeriod.after junk seed m).index % 2 = 0 := by
    obtain ⟨h, h', _⟩ := SfmtPeriod.after_at junk seed m
    exact ⟨h, h'⟩
  refine ⟨hi.1, hi.2, fun hA => ?_, fun h => h ▸ (C122_sfmt_partial _ hi.1 hi.2).1⟩
  have h1 := (C122_sfmt_partial _ hi.1 hi.2).1
  have e : ∀ k, SfmtPeriod.output junk seed (m + k) =
      (Sfmt.next ((stepOf Sfmt.next)^[k] (SfmtPeriod.after junk seed m))).2 := by
    intro k
    rw [SfmtPeriod.output, SfmtPeriod.after, SfmtPeriod.after, Nat.add_comm, Function.iterate_add_apply]
    rfl
  have hsz : 312 < N := by
    rw [hN]
    exact size 19937 (by decide)
  have hj : 312 - (SfmtPeriod.after junk seed m).index / 2 ≤ 312 := Nat.sub_le _ _
  generalize 312 - (SfmtPeriod.after junk seed m).index / 2 = j at *
  have e' : ∀ n, SfmtPeriod.output junk seed (m + k + n) = SfmtPeriod.output junk seed (m + j + n) := by
    intro n
    rw [Nat.add_assoc, Nat.add_assoc, e, e, ← hA n, ← h1 n]
  rcases Nat.lt_trichotomy k j with h | h | h
  · obtain ⟨n, hn⟩ := SfmtPeriod.C101_distinct junk seed N hN (m + k) (m + j) (by omega) (by clear hN; omega)
    exact absurd (e' n) hn
  · exact h
  · obtain ⟨n, hn⟩ := SfmtPeriod.C101_distinct junk seed N hN (m + j) (m + k) (by omega) (by clear hN; omega)
    exact absurd (e' n).symm hn

/- a new object generates its first block at the first call -/
private theorem at_start (junk : Mem) (seed : BitVec 32) : Ahead Sfmt.next 0 (Sfmt.shuffle (Sfmt.new junk seed)) (Sfmt.new junk seed) := by
  apply ahead_of
  rw [Function.iterate_zero_apply]
  exact (sfmt_next_shuffle _ (Sfmt.reInit_index _ seed)).symm

theorem C122_full_false : ¬ C122_full := by
  intro h
  have hA := h.2 (Sfmt.shuffle (Sfmt.new ⟨fun _ => 0⟩ 0)) rfl
  have h1 := (C122_sfmt_partial (Sfmt.shuffle (Sfmt.new ⟨fun _ => 0⟩ 0)) (by decide) rfl).1
  have h0 := at_start ⟨fun _ => 0⟩ 0
  obtain ⟨N, hN⟩ : ∃ N, N = 2 ^ 19937 - 1 := ⟨_, rfl⟩
  have hsz : 312 < N := by
    rw [hN]
    exact size 19937 (by decide)
  obtain ⟨n, hn⟩ := SfmtPeriod.C101_distinct ⟨fun _ => 0⟩ 0 N hN 312 624 (by omega) (by clear hN; omega)
  clear hN hsz
  apply hn
  have e : (Sfmt.next ((stepOf Sfmt.next)^[624 + n] _)).2 = (Sfmt.next ((stepOf Sfmt.next)^[312 + n] _)).2 :=
    (hA n).symm.trans (h1 n)
  have e1 := h0 (312 + n)
  have e2 := h0 (624 + n)
  rw [Nat.zero_add] at e1 e2
  rw [← e1, ← e2] at e
  exact e.symm

/- objects that meet the hypotheses -/
example (junk : Mem) (seed : BitVec 32) : (Mt.new junk seed).index ≤ 624 ∧ (Sfmt.new junk seed).index = 624 ∧
    (Sfmt.shuffle (Sfmt.new junk seed)).index = 0 := ⟨Nat.le_refl _, Sfmt.reInit_index _ _, rfl⟩

end Verif.ShuffleDoc
