import Verif.Props.ObserveMt
import Verif.Props.SfmtPeriod
/-
C109: how many whole outputs determine the outputs that follow.
-/
namespace Verif.Determined
open Verif.Spec

/-! ### Mersenne Twister -/

/-- what call number `n` of `next` returns, for an object in any state -/
def mtOut (s : Mt.State) (n : Nat) : Except PyErr (BitVec 32) := (Mt.next ((fun s => (Mt.next s).1)^[n] s)).2

/-- the words that a memory develops into -/
def mtWords (mem : Mem) (n : Nat) : BitVec 32 :=
  if n < 624 then mem n else mtWords mem (n - 227) ^^^ mtTwist (mtWords mem (n - 624)) (mtWords mem (n - 623))
termination_by n

theorem mtWords_rec (mem : Mem) (k : Nat) :
    mtWords mem (k + 624) = mtWords mem (k + 397) ^^^ mtTwist (mtWords mem k) (mtWords mem (k + 1)) := by
  conv_lhs => rw [mtWords, if_neg (by omega)]
  rw [show k + 624 - 227 = k + 397 by omega, show k + 624 - 624 = k by omega, show k + 624 - 623 = k + 1 by omega]

theorem mtOut_eq (s : Mt.State) (hs : s.index ≤ 624) (n : Nat) : mtOut s n = .ok (Mt.temper (mtWords s.state (s.index + n))) := by
  have h : ∀ n, Mt.At (mtWords s.state) ((fun s => (Mt.next s).1)^[n] s) (s.index + n) := by
    intro n
    induction n with
    | zero =>
      refine ⟨hs, 0, ?_, by simp⟩
      intro i hi
      rw [Function.iterate_zero_apply, Nat.mul_zero, Nat.zero_add, mtWords, if_pos hi]
    | succ n ih =>
      rw [Function.iterate_succ_apply']
      exact (Mt.next_at (mtWords_rec _) ih).1
  exact (Mt.next_at (mtWords_rec _) (h n)).2

/-- C109 (MT19937): 624 consecutive outputs, from objects in any states, determine all outputs that follow. -/
theorem C109_mt (s t : Mt.State) (hs : s.index ≤ 624) (ht : t.index ≤ 624) (h : ∀ i < 624, mtOut s i = mtOut t i) (n : Nat) :
    mtOut s n = mtOut t n := by
  rw [mtOut_eq s hs, mtOut_eq t ht]
  congr 2
  induction n using Nat.strong_induction_on with
  | _ n ih =>
    rcases Nat.lt_or_ge n 624 with hn | hn
    · have := h n hn
      rw [mtOut_eq s hs, mtOut_eq t ht] at this
      injection this with this
      exact Mt.temper_injective this
    · obtain ⟨k, rfl⟩ := Nat.exists_eq_add_of_le' hn
      rw [← Nat.add_assoc, ← Nat.add_assoc, mtWords_rec, mtWords_rec]
      have h0 := ih k (by omega)
      have h1 := ih (k + 1) (by omega)
      have h2 := ih (k + 397) (by omega)
      rw [← Nat.add_assoc, ← Nat.add_assoc] at h1 h2
      rw [h0, h1, h2]

/-- C109 (MT19937): 623 outputs are not enough. In the stream of every seed, at every position where they are not all
zero, the same 623 outputs occur at a second position of the period, and the outputs after them differ. -/
theorem C109_mt_623 (junk : Mem) (seed : BitVec 32) (m : Nat)
    (hm : ∃ i < 623, MtPeriod.output junk seed (m + i) ≠ .ok 0) :
    ∃ n, (∀ i < 623, MtPeriod.output junk seed (n + i) = MtPeriod.output junk seed (m + i)) ∧
      ∃ k, MtPeriod.output junk seed (n + k) ≠ MtPeriod.output junk seed (m + k) := by
  obtain ⟨N, hN⟩ : ∃ N, N = 2 ^ 19937 - 1 := ⟨_, rfl⟩
  let w : Fin 623 → BitVec 32 := fun i => Mt.temper (mtSeq seed (624 + (m + i)))
  have hw : ∀ i : Fin 623, MtPeriod.output junk seed (m + i) = .ok (w i) := fun i => MtPeriod.output_eq _ _ _
  have hne : ¬ ∀ i, w i = 0 := by
    intro h
    obtain ⟨i, hi, h1⟩ := hm
    exact h1 ((hw ⟨i, hi⟩).trans (congrArg _ (h ⟨i, hi⟩)))
  have hc := MtPeriod.C100_equidistributed junk seed N hN m w
  rw [if_neg hne] at hc
  obtain ⟨a, b, hab, hS⟩ := Set.ncard_eq_two.mp hc
  have ha : a ∈ ({a, b} : Set Nat) := Or.inl rfl
  have hb : b ∈ ({a, b} : Set Nat) := Or.inr rfl
  rw [← hS] at ha hb
  -- one of the two is not the given position
  have key : ∀ c, c ≠ 0 → c < N → (∀ i : Fin 623, MtPeriod.output junk seed (m + c + i) = .ok (w i)) →
      ∃ n, (∀ i < 623, MtPeriod.output junk seed (n + i) = MtPeriod.output junk seed (m + i)) ∧
        ∃ k, MtPeriod.output junk seed (n + k) ≠ MtPeriod.output junk seed (m + k) := by
    intro c hc hcN h
    refine ⟨m + c, fun i hi => (h ⟨i, hi⟩).trans (hw ⟨i, hi⟩).symm, ?_⟩
    obtain ⟨k, hk⟩ := MtPeriod.C100_distinct junk seed N hN m (m + c) (by clear hN; omega) (by clear hN; omega)
    exact ⟨k, hk.symm⟩
  by_cases h0 : a = 0
  · exact key b (fun h => hab (h0.trans h.symm)) hb.1 hb.2
  · exact key a h0 ha.1 ha.2

/-! ### SFMT -/

/-- the words are determined by 156 of them -/
theorem sfmt_forward {x y : Nat → BitVec 128}
    (hx : ∀ k, x (k + 156) = sfmtRec (x k) (x (k + 122)) (x (k + 154)) (x (k + 155)))
    (hy : ∀ k, y (k + 156) = sfmtRec (y k) (y (k + 122)) (y (k + 154)) (y (k + 155))) (h : ∀ i < 156, x i = y i) (i : Nat) :
    x i = y i := by
  induction i using Nat.strong_induction_on with
  | _ i ih =>
    rcases Nat.lt_or_ge i 156 with hi | hi
    · exact h i hi
    · obtain ⟨j, rfl⟩ := Nat.exists_eq_add_of_le' hi
      rw [hx, hy, ih j (by omega), ih (j + 122) (by omega), ih (j + 154) (by omega), ih (j + 155) (by omega)]

/-- the lower half of a new word determines the lower half of the oldest one -/
theorem sfmtRec_low {a a' b c d : BitVec 128}
    (h : (sfmtRec a b c d).extractLsb' 0 64 = (sfmtRec a' b c d).extractLsb' 0 64) :
    a.extractLsb' 0 64 = a'.extractLsb' 0 64 := by
  have hb : ∀ i, i < 64 → a.getLsbD i = a'.getLsbD i := by
    intro i
    induction i using Nat.strong_induction_on with
    | _ i ih =>
      intro hi
      have h1 := congrArg (fun w => w.getLsbD i) h
      simp only [BitVec.getLsbD_extractLsb', hi, decide_true, Bool.true_and, Nat.zero_add, sfmtRec, BitVec.getLsbD_xor,
        BitVec.getLsbD_shiftLeft, show i < 128 by omega, Bool.xor_left_inj] at h1
      rcases Nat.lt_or_ge i 8 with h8 | h8
      · simpa [h8] using h1
      · rw [ih (i - 8) (by omega) (by omega)] at h1
        simpa using h1
  apply BitVec.eq_of_getLsbD_eq
  intro i hi
  simp only [BitVec.getLsbD_extractLsb', hi, decide_true, Bool.true_and, Nat.zero_add]
  exact hb i hi

theorem sfmt_halves {x y : Nat → BitVec 128}
    (hx : ∀ k, x (k + 156) = sfmtRec (x k) (x (k + 122)) (x (k + 154)) (x (k + 155)))
    (hy : ∀ k, y (k + 156) = sfmtRec (y k) (y (k + 122)) (y (k + 154)) (y (k + 155))) (r : Nat) (hr : r < 2)
    (h : ∀ i < 312, Sfmt.out64 x (r + i) = Sfmt.out64 y (r + i)) (i : Nat) : Sfmt.out64 x (r + i) = Sfmt.out64 y (r + i) := by
  have lo : ∀ k, r ≤ 2 * k → 2 * k < r + 312 → (x k).extractLsb' 0 64 = (y k).extractLsb' 0 64 := by
    intro k h1 h2
    have := h (2 * k - r) (by omega)
    rw [Nat.add_sub_cancel' h1] at this
    simpa only [Sfmt.out64, show 2 * k / 2 = k by omega, show 2 * k % 2 = 0 by omega, Nat.mul_zero] using this
  have hi : ∀ k, 2 * k + 1 < r + 312 → (x k).extractLsb' 64 64 = (y k).extractLsb' 64 64 := by
    intro k h2
    have := h (2 * k + 1 - r) (by omega)
    rw [Nat.add_sub_cancel' (by omega)] at this
    simpa only [Sfmt.out64, show (2 * k + 1) / 2 = k by omega, show (2 * k + 1) % 2 = 1 by omega, Nat.mul_one] using this
  have h1 : ∀ k, 0 < k → k < 156 → x k = y k := fun k h1 h2 =>
    SfmtPeriod.halves _ _ (lo k (by omega) (by omega)) (hi k (by omega))
  have h0 : x 0 = y 0 := by
    refine SfmtPeriod.halves _ _ ?_ (hi 0 (by omega))
    rcases Nat.eq_zero_or_pos r with hr0 | hr0
    · exact lo 0 (by omega) (by omega)
    · have h2 := lo 156 (by omega) (by omega)
      rw [show (156 : Nat) = 0 + 156 from rfl, hx, hy, h1 (0 + 122) (by omega) (by omega), h1 (0 + 154) (by omega) (by omega),
        h1 (0 + 155) (by omega) (by omega)] at h2
      exact sfmtRec_low h2
  have h2 := sfmt_forward hx hy (fun i hi => by
    rcases Nat.eq_zero_or_pos i with rfl | h'
    · exact h0
    · exact h1 i h' hi)
  rw [Sfmt.out64, Sfmt.out64, h2]

/-- C109 (SFMT19937): 312 consecutive outputs determine all outputs that follow: two generators, with any seeds, that have
given 312 equal outputs, from positions of the same parity on, give equal outputs ever after. -/
theorem C109_sfmt (junk junk' : Mem) (seed seed' : BitVec 32) (m n : Nat) (hmn : m % 2 = n % 2)
    (h : ∀ i < 312, SfmtPeriod.output junk seed (m + i) = SfmtPeriod.output junk' seed' (n + i)) (k : Nat) :
    SfmtPeriod.output junk seed (m + k) = SfmtPeriod.output junk' seed' (n + k) := by
  have e : ∀ seed p i, Sfmt.out64 (sfmtSeq seed) (312 + (p + i)) =
      Sfmt.out64 (fun k => sfmtSeq seed (k + (156 + p / 2))) (p % 2 + i) := by
    intro seed p i
    rw [Sfmt.out64, Sfmt.out64, show (312 + (p + i)) / 2 = (p % 2 + i) / 2 + (156 + p / 2) by omega,
      show (312 + (p + i)) % 2 = (p % 2 + i) % 2 by omega]
  have hr : ∀ seed p k, sfmtSeq seed (k + 156 + p) =
      sfmtRec (sfmtSeq seed (k + p)) (sfmtSeq seed (k + 122 + p)) (sfmtSeq seed (k + 154 + p)) (sfmtSeq seed (k + 155 + p)) := by
    intro seed p k
    have := (isSFMT_sfmtSeq seed).rec_ (k + p)
    simpa only [Nat.add_right_comm] using this
  rw [SfmtPeriod.output_eq, SfmtPeriod.output_eq, e, e, hmn]
  congr 1
  refine sfmt_halves (hr seed _) (hr seed' _) _ (by omega) (fun i hi => ?_) k
  have := h i hi
  rw [SfmtPeriod.output_eq, SfmtPeriod.output_eq, e, e, hmn] at this
  injection this

/- the hypotheses: a fresh object, an object with arbitrary memory, and a moment with a non-zero output -/
example (junk : Mem) : (Mt.new junk 5).index ≤ 624 ∧ (⟨junk, 17⟩ : Mt.State).index ≤ 624 := by
  refine ⟨?_, (by change 17 ≤ 624; omega)⟩
  exact (Mt.new_at junk 5).idx
example (junk : Mem) (seed : BitVec 32) : ∃ m, ∃ i < 623, MtPeriod.output junk seed (m + i) ≠ .ok 0 := by
  obtain ⟨n, -, h⟩ := MtPeriod.C100_occurs junk seed (fun _ => 1) 0
  exact ⟨n, 0, by omega, by rw [show n + 0 = n + (0 : Fin 623).val from rfl, h 0]; decide⟩

end Verif.Determined
