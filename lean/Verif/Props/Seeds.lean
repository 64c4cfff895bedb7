import Verif.Props.Mt
import Verif.Props.Sfmt
import Verif.Props.TinyMt
/-
C89: different seeds give different streams (Mersenne Twister, SFMT, TinyMT).
-/
namespace Verif.Mt
open Spec

theorem seedMix_inj {p q : BitVec 32} (h : 1812433253#32 * (p ^^^ (p >>> 30)) = 1812433253#32 * (q ^^^ (q >>> 30))) : p = q := by
  apply right_inj 30 (by omega)
  have hinv : ∀ x : BitVec 32, 0x9638806D#32 * (1812433253#32 * x) = x := by
    intro x
    rw [← BitVec.mul_assoc, show 0x9638806D#32 * 1812433253#32 = 1#32 by decide, BitVec.one_mul]
  show p ^^^ (p >>> 30) = q ^^^ (q >>> 30)
  rw [← hinv (p ^^^ (p >>> 30)), h, hinv]

theorem add_cancel {p q c : BitVec 32} (h : p + c = q + c) : p = q := by
  have := congrArg (fun x => x - c) h
  simpa [BitVec.add_sub_cancel] using this

theorem append_inj {p q : BitVec m} {r t : BitVec n} (h : p ++ r = q ++ t) : p = q ∧ r = t := by
  constructor
  · apply BitVec.eq_of_getLsbD_eq
    intro i hi
    have := congrArg (fun z => z.getLsbD (n + i)) h
    simpa [BitVec.getLsbD_append] using this
  · apply BitVec.eq_of_getLsbD_eq
    intro i hi
    have := congrArg (fun z => z.getLsbD i) h
    simpa [BitVec.getLsbD_append, hi] using this

theorem mtTwist_inj {u v u' v' : BitVec 32} (h : mtTwist u v = mtTwist u' v') :
    u.extractLsb' 31 1 = u'.extractLsb' 31 1 ∧ v.extractLsb' 0 31 = v'.extractLsb' 0 31 := by
  have key : ∀ y z : BitVec 32, (if y.getLsbD 0 then (y >>> 1) ^^^ 0x9908B0DF else y >>> 1)
      = (if z.getLsbD 0 then (z >>> 1) ^^^ 0x9908B0DF else z >>> 1) → y = z := by
    intro y z h
    have h31 := congrArg (fun w => w.getLsbD 31) h
    have m31 : (0x9908B0DF : BitVec 32).getLsbD 31 = true := by decide
    have e0 : y.getLsbD 0 = z.getLsbD 0 := by
      revert h31
      cases y.getLsbD 0 <;> cases z.getLsbD 0 <;> simp [BitVec.getLsbD_xor, m31]
    have hs : y >>> 1 = z >>> 1 := by
      rw [e0] at h
      cases hz : z.getLsbD 0
      · rw [hz] at h
        simpa only [Bool.false_eq_true, if_false] using h
      · rw [hz] at h
        simp only [if_true] at h
        have := congrArg (fun w => w ^^^ 0x9908B0DF) h
        simpa [BitVec.xor_assoc] using this
    apply BitVec.eq_of_getLsbD_eq
    intro i hi
    rcases i with _ | i
    · exact e0
    · have := congrArg (fun w => w.getLsbD i) hs
      simpa [BitVec.getLsbD_ushiftRight, Nat.add_comm 1] using this
  have hy := key _ _ h
  exact append_inj hy

theorem word_ext {v w : BitVec 32} (h1 : v.extractLsb' 31 1 = w.extractLsb' 31 1)
    (h2 : v.extractLsb' 0 31 = w.extractLsb' 0 31) : v = w := by
  apply BitVec.eq_of_getLsbD_eq
  intro i hi
  by_cases hi31 : i < 31
  · have := congrArg (fun z => z.getLsbD i) h2
    simpa [BitVec.getLsbD_extractLsb', hi31] using this
  · obtain rfl : i = 31 := by omega
    have := congrArg (fun z => z.getLsbD 0) h1
    simpa [BitVec.getLsbD_extractLsb'] using this

/-- two sequences with the MT recurrence that agree on 624 words agree on all words before, except (at most) on the low
31 bits of word 0 -/
theorem words_back (x y : Nat → BitVec 32) (hx : ∀ k, x (k + 624) = x (k + 397) ^^^ mtTwist (x k) (x (k + 1)))
    (hy : ∀ k, y (k + 624) = y (k + 397) ^^^ mtTwist (y k) (y (k + 1))) (n : Nat)
    (h : ∀ i, n ≤ i → i < n + 624 → x i = y i) : ∀ d k, k + d = n → 0 < k → ∀ i, k ≤ i → i < n + 624 → x i = y i := by
  intro d
  induction d with
  | zero => intro k hk _ i h1 h2; exact h i (by omega) h2
  | succ d ih =>
    intro k hk h0 i h1 h2
    rcases Nat.lt_or_ge k i with hlt | hge
    · exact ih (k + 1) (by omega) (by omega) i hlt h2
    · obtain rfl : i = k := by omega
      have later := ih (i + 1) (by omega) (by omega)
      have tw : ∀ j, i ≤ j + 1 → j ≤ i → x (j + 624) = y (j + 624) → x (j + 397) = y (j + 397) →
          mtTwist (x j) (x (j + 1)) = mtTwist (y j) (y (j + 1)) := by
        intro j _ _ e1 e2
        rw [hx j, hy j, e2] at e1
        have := congrArg (fun w => y (j + 397) ^^^ w) e1
        simpa [← BitVec.xor_assoc] using this
      obtain ⟨k, rfl⟩ : ∃ k, i = k + 1 := ⟨i - 1, by omega⟩
      have a1 := mtTwist_inj (tw (k + 1) (by omega) (by omega) (later _ (by omega) (by omega)) (later _ (by omega) (by omega)))
      have a2 := mtTwist_inj (tw k (by omega) (by omega) (later _ (by omega) (by omega)) (later _ (by omega) (by omega)))
      exact word_ext a1.1 a2.2

/-- C89 (MT): the first 624 outputs determine the seed. -/
theorem C89_mt (mode mode' : Mode) (junk junk' : Mem) (a b : BitVec 32)
    (h : results mode (new junk a) (List.replicate 624 .next) = results mode' (new junk' b) (List.replicate 624 .next)) :
    a = b := by
  rw [C13_mt19937, C13_mt19937] at h
  have hout : ∀ i < 624, mtSeq a (624 + i) = mtSeq b (624 + i) := by
    intro i hi
    have := congrArg (fun l => l[i]?) h
    simp only [List.getElem?_map, List.getElem?_range hi, Option.map_some, Option.some.injEq, Except.ok.injEq] at this
    exact temper_injective this
  have h1 := words_back _ _ (isMT_mtSeq a).rec_ (isMT_mtSeq b).rec_ 624 (fun i h1 h2 => by
    have := hout (i - 624) (by omega)
    rwa [show 624 + (i - 624) = i by omega] at this) 623 1 rfl (by omega) 1 (by omega) (by omega)
  rw [(isMT_mtSeq a).init 1 (by omega) (by omega), (isMT_mtSeq b).init 1 (by omega) (by omega)] at h1
  have h3 := seedMix_inj (add_cancel h1)
  simpa only [Nat.sub_self, (isMT_mtSeq a).zero, (isMT_mtSeq b).zero] using h3

example (junk : Mem) : results .numba (new junk 5) (List.replicate 624 .next)
    ≠ results .numba (new junk 6) (List.replicate 624 .next) := fun h => absurd (C89_mt _ _ _ _ _ _ h) (by decide)

end Verif.Mt

namespace Verif.Sfmt
open Spec

theorem sfmtRec_inj {a b c d a' : BitVec 128} (h : sfmtRec a b c d = sfmtRec a' b c d) : a = a' := by
  have e : a ^^^ (a <<< 8) = a' ^^^ (a' <<< 8) := by
    unfold sfmtRec at h
    exact BitVec.xor_left_inj _ |>.mp (BitVec.xor_left_inj _ |>.mp (BitVec.xor_left_inj _ |>.mp h))
  apply BitVec.eq_of_getLsbD_eq
  intro i
  induction i using Nat.strong_induction_on with
  | _ i ih =>
    intro hi
    have hb := congrArg (fun z => z.getLsbD i) e
    simp only [BitVec.getLsbD_xor, BitVec.getLsbD_shiftLeft] at hb
    by_cases h8 : i < 8
    · simpa [h8] using hb
    · rw [ih (i - 8) (by omega) (by omega)] at hb
      simpa using hb

theorem words_back (x y : Nat → BitVec 128) (hx : ∀ k, x (k + 156) = sfmtRec (x k) (x (k + 122)) (x (k + 154)) (x (k + 155)))
    (hy : ∀ k, y (k + 156) = sfmtRec (y k) (y (k + 122)) (y (k + 154)) (y (k + 155))) (n : Nat)
    (h : ∀ i, n ≤ i → i < n + 156 → x i = y i) : ∀ d k, k + d = n → ∀ i, k ≤ i → i < n + 156 → x i = y i := by
  intro d
  induction d with
  | zero => intro k hk i h1 h2; exact h i (by omega) h2
  | succ d ih =>
    intro k hk i h1 h2
    rcases Nat.lt_or_ge k i with hlt | hge
    · exact ih (k + 1) (by omega) i hlt h2
    · obtain rfl : i = k := by omega
      have later := ih (i + 1) (by omega)
      have e := later (i + 156) (by omega) (by omega)
      rw [hx, hy, later (i + 122) (by omega) (by omega), later (i + 154) (by omega) (by omega),
        later (i + 155) (by omega) (by omega)] at e
      exact sfmtRec_inj e

/-- C89 (SFMT): the first 312 outputs determine the seed. -/
theorem C89_sfmt (mode mode' : Mode) (junk junk' : Mem) (a b : BitVec 32)
    (h : results mode (new junk a) (List.replicate 312 .next) = results mode' (new junk' b) (List.replicate 312 .next)) :
    a = b := by
  rw [C20_sfmt19937, C20_sfmt19937] at h
  have hout : ∀ i < 312, sfmtOut a i = sfmtOut b i := by
    intro i hi
    have := congrArg (fun l => l[i]?) h
    simpa only [List.getElem?_map, List.getElem?_range hi, Option.map_some, Option.some.injEq, Except.ok.injEq] using this
  have hword : ∀ k < 156, sfmtSeq a (156 + k) = sfmtSeq b (156 + k) := by
    intro k hk
    have e0 := hout (2 * k) (by omega)
    have e1 := hout (2 * k + 1) (by omega)
    unfold sfmtOut at e0 e1
    rw [show 2 * k / 2 = k by omega, show 2 * k % 2 = 0 by omega] at e0
    rw [show (2 * k + 1) / 2 = k by omega, show (2 * k + 1) % 2 = 1 by omega] at e1
    apply BitVec.eq_of_getLsbD_eq
    intro i hi
    by_cases h64 : i < 64
    · have := congrArg (fun z => z.getLsbD i) e0
      simpa [BitVec.getLsbD_extractLsb', h64] using this
    · have := congrArg (fun z => z.getLsbD (i - 64)) e1
      simp only [BitVec.getLsbD_extractLsb', Nat.mul_one, show 64 + (i - 64) = i by omega,
        show i - 64 < 64 by omega, decide_true, Bool.true_and] at this
      exact this
  have h1 := words_back _ _ (isSFMT_sfmtSeq a).rec_ (isSFMT_sfmtSeq b).rec_ 156 (fun i h1 h2 => by
    have := hword (i - 156) (by omega)
    rwa [show 156 + (i - 156) = i by omega] at this) 156 0 rfl 0 (by omega) (by omega)
  rw [(isSFMT_sfmtSeq a).zero, (isSFMT_sfmtSeq b).zero] at h1
  have h2 : initWord a 1 = initWord b 1 := by
    have hc : ∀ v : BitVec 128, (certify v).extractLsb' 32 32 = v.extractLsb' 32 32 := by
      intro v
      unfold certify
      split
      · rfl
      · apply BitVec.eq_of_getLsbD_eq
        intro i hi
        simp only [BitVec.getLsbD_extractLsb', BitVec.getLsbD_xor]
        have : (1 : BitVec 128).getLsbD (32 + i) = false := by
          rw [show (1 : BitVec 128) = 1#128 from rfl, BitVec.getLsbD_one]; simp
        rw [this]; simp
    have hp : ∀ u : Nat → BitVec 32, (pack u 0).extractLsb' 32 32 = u 1 := by
      intro u
      apply BitVec.eq_of_getLsbD_eq
      intro i hi
      unfold pack
      simp only [BitVec.getLsbD_extractLsb', BitVec.getLsbD_append]
      rw [if_neg (by omega), if_pos (by omega)]
      simp [hi]
    rw [← hp (initWord a), ← hc, h1, hc, hp]
  unfold initWord at h2
  exact Mt.seedMix_inj (Mt.add_cancel h2)

example (junk : Mem) : results .numba (new junk 5) (List.replicate 312 .next)
    ≠ results .numba (new junk 6) (List.replicate 312 .next) := fun h => absurd (C89_sfmt _ _ _ _ _ _ h) (by decide)

end Verif.Sfmt

namespace Verif.TinyMt
open Spec

theorem initWord_rel (seed : BitVec 32) (i : Nat) : tinyInitWord seed (i + 1) = (match i with
    | 0 => 0x8F7011EE
    | 1 => 0xFC78FF1F
    | 2 => 0x3793FDFF
    | j + 3 => tinyInitWord seed j) ^^^ (1812433253#32 * (tinyInitWord seed i ^^^ (tinyInitWord seed i >>> 30))
      + BitVec.ofNat 32 (i + 1)) := by
  rw [BitVec.add_comm]
  rcases i with _ | _ | _ | i <;> (conv => lhs; rw [tinyInitWord])

theorem xor_cancel {p q c : BitVec 32} (h : c ^^^ p = c ^^^ q) : p = q := by
  have := congrArg (fun x => c ^^^ x) h
  simpa [← BitVec.xor_assoc] using this

theorem xor_cancel' {p q c : BitVec 32} (h : p ^^^ c = q ^^^ c) : p = q := by
  rw [BitVec.xor_comm p, BitVec.xor_comm q] at h
  exact xor_cancel h

/-- the last three words determine the seed -/
theorem initWord_inj {a b : BitVec 32} (h5 : tinyInitWord a 5 = tinyInitWord b 5) (h6 : tinyInitWord a 6 = tinyInitWord b 6) :
    a = b := by
  have e6 : tinyInitWord a 2 = tinyInitWord b 2 := by
    have r := initWord_rel a 5
    have r' := initWord_rel b 5
    simp only [Nat.reduceAdd] at r r'
    rw [r, r', h5] at h6
    exact xor_cancel' h6
  have e1 : tinyInitWord a 1 = tinyInitWord b 1 := by
    have r := initWord_rel a 1
    have r' := initWord_rel b 1
    simp only [Nat.reduceAdd] at r r'
    rw [r, r'] at e6
    exact Mt.seedMix_inj (Mt.add_cancel (xor_cancel e6))
  have r := initWord_rel a 0
  have r' := initWord_rel b 0
  simp only [Nat.reduceAdd] at r r'
  rw [r, r'] at e1
  exact Mt.seedMix_inj (Mt.add_cancel (xor_cancel e1))

/-- the certification branch is never taken: no seed gives the zero state -/
theorem C89_tiny_no_zero (junk : State) (seed : BitVec 32) : certify (seedWords junk seed) = seedWords junk seed := by
  rw [seedWords_eq, certify, if_neg]
  rintro ⟨-, h5, h6, h7⟩
  dsimp only at h5 h6 h7
  have r6 := initWord_rel seed 5
  have r7 := initWord_rel seed 6
  have r3 := initWord_rel seed 2
  simp only [Nat.reduceAdd] at r6 r7 r3
  rw [h5, h6] at r6
  rw [h6, h7] at r7
  have e2 : tinyInitWord seed 2 = 6#32 := by
    have : 0#32 ^^^ tinyInitWord seed 2 = 0#32 ^^^ 6#32 := by
      rw [show (0#32 ^^^ 6#32 : BitVec 32) = 0#32 ^^^ 6#32 from rfl]
      have z : (1812433253#32 * ((0 : BitVec 32) ^^^ (0 : BitVec 32) >>> 30) + BitVec.ofNat 32 6) = 6#32 := by decide
      rw [z] at r6
      have := congrArg (fun x => x ^^^ 6#32) r6
      simpa [BitVec.xor_assoc] using this.symm
    exact xor_cancel this
  have e3 : tinyInitWord seed 3 = 7#32 := by
    have z : (1812433253#32 * ((0 : BitVec 32) ^^^ (0 : BitVec 32) >>> 30) + BitVec.ofNat 32 7) = 7#32 := by decide
    rw [z] at r7
    have := congrArg (fun x => x ^^^ 7#32) r7
    simpa [BitVec.xor_assoc] using this.symm
  rw [e2, e3] at r3
  revert r3
  decide

/-- C89 (TinyMT): objects with different seeds never have the same (effective) state, at any time. -/
theorem C89_tiny (mode mode' : Mode) (junk junk' : State) (a b : BitVec 32) (hab : a ≠ b) (n : Nat) :
    eff ((shuffle mode)^[n] (new mode junk a)) ≠ eff ((shuffle mode')^[n] (new mode' junk' b)) := by
  have hm : shuffle mode' = shuffle mode := by rw [shuffle_mode, shuffle_mode]
  rw [new, new, reInit, reInit, hm, ← Function.iterate_add_apply, ← Function.iterate_add_apply]
  apply C25_never_merge
  rw [C89_tiny_no_zero, C89_tiny_no_zero, seedWords_eq, seedWords_eq]
  intro h
  simp only [eff, Prod.mk.injEq] at h
  exact hab (initWord_inj h.2.1 h.2.2.1)

end Verif.TinyMt
