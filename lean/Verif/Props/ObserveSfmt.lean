import Verif.Lemmas.SfmtBits
import Verif.Props.SfmtExact
/-
C111: one bit of the SFMT outputs determines the stream, for all places but twelve.
-/
namespace Verif.SfmtPeriod
open Verif.Spec Verif.MtPeriod Verif.Gf2

/-- what call number `n` of `next` returns, for an object in any state -/
def outFrom (s : Sfmt.State) (n : Nat) : Except PyErr (BitVec 64) := (Sfmt.next ((fun s => (Sfmt.next s).1)^[n] s)).2

/-- bit `b` of what call number `n` of `next` returns -/
def bitFrom (s : Sfmt.State) (b n : Nat) : Except PyErr Bool := (outFrom s n).map (·.getLsbD b)

/-- The outputs are, in turn, the lower and the upper halves of 128-bit words; the half that call number `n` of `next` returns. -/
def halfOf (s : Sfmt.State) (n : Nat) : Nat := (s.index / 2 + n) % 2

/-- the places, half and bit, that do not determine the stream -/
def blind : List (Nat × Nat) := [(0, 23), (0, 26), (0, 32), (0, 49), (0, 52), (0, 55), (1, 6), (1, 7), (1, 13), (1, 40), (1, 54), (1, 56)]

theorem good_of (half b : Nat) (hh : half < 2) (hb : b < 64) (h : (half, b) ∉ blind) : goodBits.testBit (64 * half + b) = true := by
  have key : ∀ half < 2, ∀ b < 64, (half, b) ∉ blind → goodBits.testBit (64 * half + b) = true := by decide +kernel
  exact key half hh b hb h

/-! ### words of a state -/

/-- the words that a memory develops into -/
def words (mem : Mem) : Nat → BitVec 128 := extend fun k => pack mem.get (4 * k)

theorem outFrom_eq (s : Sfmt.State) (hs : s.index ≤ 624) (he : s.index % 2 = 0) (n : Nat) :
    outFrom s n = .ok (Sfmt.out64 (words s.state) (s.index / 2 + n)) := by
  have h : ∀ n, Sfmt.At (words s.state) ((fun s => (Sfmt.next s).1)^[n] s) (s.index / 2 + n) := by
    intro n
    induction n with
    | zero =>
      refine ⟨hs, he, 0, ?_, by simp⟩
      intro j hj l hl
      rw [Function.iterate_zero_apply, Nat.mul_zero, Nat.zero_add, words, extend, if_pos hj, Sfmt.pack_lane _ _ _ hl]
    | succ n ih =>
      rw [Function.iterate_succ_apply']
      exact (Sfmt.next_at (extend_rec _) ih).1
  exact (Sfmt.next_at (extend_rec _) (h n)).2

theorem bitFrom_eq (s : Sfmt.State) (hs : s.index ≤ 624) (he : s.index % 2 = 0) (b n : Nat) (hb : b < 64) :
    bitFrom s b n = .ok ((words s.state ((s.index / 2 + n) / 2)).getLsbD (64 * halfOf s n + b)) := by
  rw [bitFrom, outFrom_eq s hs he, Sfmt.out64, halfOf]
  change Except.ok (BitVec.getLsbD _ _) = _
  rw [BitVec.getLsbD_extractLsb', decide_eq_true hb, Bool.true_and]

/-- the words that a memory with given words develops into -/
theorem words_of (x : Nat → BitVec 128) (hx : Sfmt.Rec x) : words ⟨fun i => Sfmt.lane (x (i / 4)) (i % 4)⟩ = x := by
  funext k
  induction k using Nat.strong_induction_on with
  | _ k ih =>
    rcases Nat.lt_or_ge k 156 with hk | hk
    · rw [words, extend, if_pos hk]
      apply BitVec.eq_of_getLsbD_eq
      intro j hj
      rw [pack_bit _ _ _ hj]
      simp only
      rw [show (4 * k + j / 32) / 4 = k by omega, show (4 * k + j / 32) % 4 = j / 32 by omega,
        Sfmt.lane_getLsbD, decide_eq_true (by omega), Bool.true_and, show 32 * (j / 32) + j % 32 = j by omega]
    · obtain ⟨k, rfl⟩ := Nat.exists_eq_add_of_le' hk
      rw [hx, ← ih k (by omega), ← ih (k + 122) (by omega), ← ih (k + 154) (by omega), ← ih (k + 155) (by omega)]
      exact extend_rec _ k

/-! ### sequences of words -/

theorem words_good {x y : Nat → BitVec 128} (hx : Sfmt.Rec x) (hy : Sfmt.Rec y) (j : Nat) (hj : j < 128) (hg : goodBits.testBit j = true)
    (h : ∀ k < 19968, (x k).getLsbD j = (y k).getLsbD j) : x = y := by
  have hr : Run (flat x + flat y) := Run.add (rel_words hx) (rel_words hy)
  have h0 := track_good hr j hj hg (track_first hr j fun k hk => by
    rw [track, Pi.add_apply, Nat.add_comm j, flat_at x k j hj, flat_at y k j hj, h k hk]
    exact CharTwo.add_self_eq_zero _)
  apply flat_inj
  funext i
  exact two _ _ (congrFun h0 i)

theorem shifted_rec {x : Nat → BitVec 128} (hx : Sfmt.Rec x) (c : Nat) : Sfmt.Rec fun k => x (k + c) := fun k => by
  have := hx (k + c)
  rwa [show k + c + 156 = k + 156 + c by omega, show k + c + 122 = k + 122 + c by omega, show k + c + 154 = k + 154 + c by omega,
    show k + c + 155 = k + 155 + c by omega] at this

theorem words_back {x y : Nat → BitVec 128} (hx : Sfmt.Rec x) (hy : Sfmt.Rec y) (h : ∀ k, x (k + 1) = y (k + 1)) : x = y := by
  funext k
  rcases k with _ | k
  · have e := h 155
    rw [show 155 + 1 = 0 + 156 by omega, hx, hy, show 0 + 122 = 121 + 1 by omega, show 0 + 154 = 153 + 1 by omega,
      show 0 + 155 = 154 + 1 by omega, h, h, h] at e
    exact sfmtRec_inj e
  · exact h k

/-- C111: if one bit of the outputs of one half is the same in 19968 of them in a row (39936 outputs, of which every other one is looked at),
for two generators in any states with the same half next, and the place is not one of the twelve of `blind`, then all outputs are the same. -/
theorem C111_determines (s t : Sfmt.State) (hs : s.index ≤ 624) (hs2 : s.index % 2 = 0) (ht : t.index ≤ 624) (ht2 : t.index % 2 = 0)
    (hst : halfOf s 0 = halfOf t 0) (half b : Nat) (hh : half < 2) (hb : b < 64) (hg : (half, b) ∉ blind)
    (h : ∀ n < 39936, halfOf s n = half → bitFrom s b n = bitFrom t b n) (n : Nat) : outFrom s n = outFrom t n := by
  have hgood := good_of half b hh hb hg
  obtain ⟨c, hc⟩ : ∃ c, c = s.index / 4 := ⟨_, rfl⟩
  obtain ⟨d, hd⟩ : ∃ d, d = t.index / 4 := ⟨_, rfl⟩
  obtain ⟨e, he, hcs, hdt⟩ : ∃ e, e < 2 ∧ s.index / 2 = 2 * c + e ∧ t.index / 2 = 2 * d + e := by
    rw [halfOf, halfOf] at hst
    exact ⟨s.index / 2 % 2, by omega, by omega, by omega⟩
  have key : ∀ k0 i0, e + i0 = 2 * k0 + half → i0 < 2 → ∀ k < 19968,
      (words s.state (k + (c + k0))).getLsbD (64 * half + b) = (words t.state (k + (d + k0))).getLsbD (64 * half + b) := by
    intro k0 i0 h0 h1 k hk
    have h2 : halfOf s (2 * k + i0) = half := by rw [halfOf]; omega
    have h3 : halfOf t (2 * k + i0) = half := by rw [halfOf]; omega
    have := h (2 * k + i0) (by omega) h2
    rw [bitFrom_eq s hs hs2 _ _ hb, bitFrom_eq t ht ht2 _ _ hb, h2, h3] at this
    injection this with this
    rwa [show (s.index / 2 + (2 * k + i0)) / 2 = k + (c + k0) by omega,
      show (t.index / 2 + (2 * k + i0)) / 2 = k + (d + k0) by omega] at this
  have hw : (fun k => words s.state (k + c)) = fun k => words t.state (k + d) := by
    by_cases hcase : e ≤ half
    · exact words_good (shifted_rec (extend_rec _) c) (shifted_rec (extend_rec _) d) _ (by omega) hgood
        (key 0 (half - e) (by omega) (by omega))
    · refine words_back (shifted_rec (extend_rec _) c) (shifted_rec (extend_rec _) d) fun k => ?_
      have := congrFun (words_good (shifted_rec (extend_rec _) (c + 1)) (shifted_rec (extend_rec _) (d + 1)) _ (by omega) hgood
        (key 1 1 (by omega) (by omega))) k
      rw [show k + 1 + c = k + (c + 1) by omega, show k + 1 + d = k + (d + 1) by omega]
      exact this
  rw [outFrom_eq s hs hs2, outFrom_eq t ht ht2, Sfmt.out64, Sfmt.out64, hcs, hdt]
  have e1 : words s.state ((e + n) / 2 + c) = words t.state ((e + n) / 2 + d) := congrFun hw ((e + n) / 2)
  rw [show (2 * c + e + n) / 2 = (e + n) / 2 + c by omega, show (2 * d + e + n) / 2 = (e + n) / 2 + d by omega,
    show (2 * c + e + n) % 2 = (e + n) % 2 by omega, show (2 * d + e + n) % 2 = (e + n) % 2 by omega]
  rw [e1]

/-- C111: seeds. If one bit of 19968 outputs of one half is the same from two moments on, of two generators with any seeds, then all
outputs from there on are the same. -/
theorem C111_seeds (junk junk' : Mem) (seed seed' : BitVec 32) (m n : Nat) (hmn : m % 2 = n % 2) (b : Nat) (hb : b < 64)
    (hg : (m % 2, b) ∉ blind)
    (h : ∀ i < 19968, (output junk seed (m + 2 * i)).map (·.getLsbD b) = (output junk' seed' (n + 2 * i)).map (·.getLsbD b)) (k : Nat) :
    output junk seed (m + k) = output junk' seed' (n + k) := by
  have ho : ∀ junk seed m i, output junk seed (m + i) = outFrom (after junk seed m) i := by
    intro junk seed m i
    rw [output, after, Nat.add_comm, Function.iterate_add_apply]
    rfl
  have hx : ∀ junk seed m, (after junk seed m).index ≤ 624 ∧ (after junk seed m).index % 2 = 0 ∧ (after junk seed m).index / 2 % 2 = m % 2 := by
    intro junk seed m
    obtain ⟨h1, h2, b, -, h3⟩ := after_at junk seed m
    exact ⟨h1, h2, by omega⟩
  obtain ⟨s1, s2, s3⟩ := hx junk seed m
  obtain ⟨t1, t2, t3⟩ := hx junk' seed' n
  rw [ho, ho]
  refine C111_determines _ _ s1 s2 t1 t2 (by rw [halfOf, halfOf]; omega) (m % 2) b (Nat.mod_lt _ (by omega)) hb hg (fun i hi hi2 => ?_) k
  rw [halfOf] at hi2
  have := h (i / 2) (by omega)
  rwa [ho, ho, show 2 * (i / 2) = i by omega] at this

theorem word_of (n : Nat) (f : Nat → Bool) : ∃ w : BitVec n, ∀ j < n, w.getLsbD j = f j := by
  induction n with
  | zero => exact ⟨0, fun j hj => by omega⟩
  | succ n ih =>
    obtain ⟨w, hw⟩ := ih
    refine ⟨BitVec.cons (f n) w, fun j hj => ?_⟩
    rw [BitVec.getLsbD_cons]
    by_cases h : j = n
    · rw [if_pos h, h]
    · rw [if_neg h, hw j (by omega)]

/-- C111: no fewer bits are enough. At every place not in `blind` all patterns of 19968 bits occur. -/
theorem C111_any (half b : Nat) (hh : half < 2) (hb : b < 64) (hg : (half, b) ∉ blind) (pattern : Nat → Bool) :
    ∃ s : Sfmt.State, s.index = 0 ∧ ∀ i < 19968, bitFrom s b (2 * i + half) = .ok (pattern i) := by
  obtain ⟨v, hv, h⟩ := track_any (64 * half + b) (by omega) (good_of half b hh hb hg) fun i => z (pattern i)
  obtain ⟨x, hx, rfl⟩ : ∃ x : Nat → BitVec 128, Sfmt.Rec x ∧ v = flat x := by
    have hbit : ∀ i, ∃ c : Bool, v i = z c := by
      intro i
      have : ∀ a : ZMod 2, ∃ c : Bool, a = z c := by decide
      exact this (v i)
    choose c hc using hbit
    choose w hw using fun k => word_of 128 fun j => c (128 * k + j)
    refine ⟨extend w, extend_rec _, ?_⟩
    refine Run.ext hv (rel_words (extend_rec _)) fun i hi => ?_
    rw [flat, extend, if_pos (by omega), hc i, hw _ _ (Nat.mod_lt _ (by decide)), Nat.div_add_mod]
  refine ⟨⟨⟨fun i => Sfmt.lane (x (i / 4)) (i % 4)⟩, 0⟩, rfl, fun i hi => ?_⟩
  rw [bitFrom_eq _ (by simp) (by simp) _ _ hb, words_of x hx, halfOf]
  simp only [Nat.zero_div, Nat.zero_add]
  rw [show (2 * i + half) / 2 = i by omega, show (2 * i + half) % 2 = half by omega]
  have := h i hi
  rw [track, Nat.add_comm _ (128 * i), flat_at x i _ (by omega)] at this
  exact congrArg _ (z_inj this)

/-- seven words that repeat -/
def seven : List (BitVec 128) := [0xfa306c2e5b95532a3d6d9fe26053bdd6, 0xae336488b8cf1b19e2602776fb6b1ef0, 0x588cf2798ce1870de70dd12aaa5d5f6f,
  0x540308a6e35a4833df0db8949b38a326, 0xf6bf96f1342e9c14056df65c5136419f, 0x0c8ffadf6fbbcf3e380069be3165fc49,
  0xa2bc9e57d774d427da604ec8ca0ee2b9]

def sevenWords (k : Nat) : BitVec 128 := seven.getD (k % 7) 0

theorem seven_rec : Sfmt.Rec sevenWords := by
  have key : ∀ r < 7, seven.getD ((r + 2) % 7) 0 =
      sfmtRec (seven.getD r 0) (seven.getD ((r + 3) % 7) 0) (seven.getD r 0) (seven.getD ((r + 1) % 7) 0) := by decide +kernel
  intro k
  rw [sevenWords, sevenWords, sevenWords, sevenWords, sevenWords, show (k + 156) % 7 = (k % 7 + 2) % 7 by omega,
    show (k + 122) % 7 = (k % 7 + 3) % 7 by omega, show (k + 154) % 7 = k % 7 by omega, show (k + 155) % 7 = (k % 7 + 1) % 7 by omega]
  exact key _ (Nat.mod_lt _ (by decide))

theorem zero_rec : Sfmt.Rec fun _ => 0#128 := fun _ => by
  change 0#128 = sfmtRec 0#128 0#128 0#128 0#128
  decide +kernel

/-- C111: at the twelve places the bits do not determine the stream. There are two states, with the same index, whose outputs have the same
bits at all these places for ever, and no output is the same. One gives only zeros, the other 14 numbers over and over. -/
theorem C111_blind : ∃ s t : Sfmt.State, s.index = 0 ∧ t.index = 0 ∧
    (∀ half b, (half, b) ∈ blind → ∀ n, halfOf s n = half → bitFrom s b n = bitFrom t b n) ∧ (∀ n, outFrom s n ≠ outFrom t n) ∧
    (∀ n, outFrom s (n + 14) = outFrom s n) ∧ ∀ n, outFrom t n = .ok 0 := by
  refine ⟨⟨⟨fun i => Sfmt.lane (sevenWords (i / 4)) (i % 4)⟩, 0⟩, ⟨⟨fun i => Sfmt.lane 0#128 (i % 4)⟩, 0⟩, rfl, rfl, ?_⟩
  have hs := fun n => outFrom_eq ⟨⟨fun i => Sfmt.lane (sevenWords (i / 4)) (i % 4)⟩, 0⟩ (by simp) (by simp) n
  have ht := fun n => outFrom_eq ⟨⟨fun i => Sfmt.lane 0#128 (i % 4)⟩, 0⟩ (by simp) (by simp) n
  have hz : words ⟨fun i => Sfmt.lane 0#128 (i % 4)⟩ = fun _ => 0#128 := words_of (fun _ => 0#128) zero_rec
  simp only [words_of _ seven_rec, hz, Nat.zero_div, Nat.zero_add] at hs ht
  have hz : ∀ n, Sfmt.out64 (fun _ => 0#128) n = 0 := fun n => by rw [Sfmt.out64]; simp
  have hp : ∀ n, Sfmt.out64 sevenWords n = (seven.getD (n % 14 / 2) 0).extractLsb' (64 * (n % 14 % 2)) 64 := fun n => by
    rw [Sfmt.out64, sevenWords, show n / 2 % 7 = n % 14 / 2 by omega, show n % 14 % 2 = n % 2 by omega]
  have k1 : ∀ r < 14, ∀ p ∈ blind, r % 2 = p.1 → ((seven.getD (r / 2) 0).extractLsb' (64 * (r % 2)) 64).getLsbD p.2 = false := by
    decide +kernel
  have k2 : ∀ r < 14, (seven.getD (r / 2) 0).extractLsb' (64 * (r % 2)) 64 ≠ 0 := by decide +kernel
  refine ⟨fun half b hb n hn => ?_, fun n => ?_, fun n => ?_, fun n => ?_⟩
  · rw [halfOf] at hn
    simp only [Nat.zero_div, Nat.zero_add] at hn
    rw [bitFrom, bitFrom, hs, ht, hz, hp]
    have h1 := k1 (n % 14) (Nat.mod_lt _ (by decide)) (half, b) hb (by simp only; omega)
    change Except.ok (BitVec.getLsbD _ b) = Except.ok (BitVec.getLsbD 0 b)
    rw [h1]
    simp
  · rw [hs, ht, hz, hp]
    intro h
    injection h with h
    exact k2 _ (Nat.mod_lt _ (by decide)) h
  · rw [hs, hs, hp, hp, Nat.add_mod_right]
  · rw [ht, hz]

/- concrete cases: the hypotheses of `C111_determines` hold for different states (a period apart); a place of each kind -/
example : (0, 0) ∉ blind ∧ (1, 63) ∉ blind ∧ (1, 56) ∈ blind := by decide
example (junk : Mem) (N : Nat) (hN : N = 2 ^ 19937 - 1) : ∀ i < 19968, (output junk 87607476 (5 + 2 * N + 2 * i)).map (·.getLsbD 0) =
    (output junk 87607476 (5 + 2 * i)).map (·.getLsbD 0) := fun i _ => by
  rw [Nat.add_right_comm, C110_from_start junk 87607476 (2 * N) ((C110_occurs (87607476, 1) (by simp) junk N hN (2 * N)).mpr (by rw [Nat.mul_one]))]

end Verif.SfmtPeriod
