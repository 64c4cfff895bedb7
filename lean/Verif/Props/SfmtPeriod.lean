import Verif.Lemmas.SfmtSeq
import Verif.Props.Sfmt
import Verif.Props.MtPeriod
/-
C101: the period of the SFMT.
-/
namespace Verif.SfmtPeriod
open Verif.Spec

/-- state of `SIMDFastMersenneTwister(seed)` after `n` calls of `next` -/
def after (junk : Mem) (seed : BitVec 32) (n : Nat) : Sfmt.State := (fun s => (Sfmt.next s).1)^[n] (Sfmt.new junk seed)

/-- what the next call returns after `n` calls of `next` on `SIMDFastMersenneTwister(seed)` -/
def output (junk : Mem) (seed : BitVec 32) (n : Nat) : Except PyErr (BitVec 64) := (Sfmt.next (after junk seed n)).2

theorem after_at (junk : Mem) (seed : BitVec 32) (n : Nat) :
    Sfmt.At (sfmtSeq seed) (after junk seed n) (312 + n) := by
  induction n with
  | zero => exact Sfmt.new_at junk seed
  | succ n ih =>
    rw [after, Function.iterate_succ', Function.comp, ← after]
    exact (Sfmt.next_at (isSFMT_sfmtSeq seed).rec_ ih).1

theorem output_eq (junk : Mem) (seed : BitVec 32) (n : Nat) :
    output junk seed n = .ok (Sfmt.out64 (sfmtSeq seed) (312 + n)) :=
  (Sfmt.next_at (isSFMT_sfmtSeq seed).rec_ (after_at junk seed n)).2

theorem halves (u v : BitVec 128) (h0 : u.extractLsb' 0 64 = v.extractLsb' 0 64)
    (h1 : u.extractLsb' 64 64 = v.extractLsb' 64 64) : u = v := by
  apply BitVec.eq_of_getLsbD_eq
  intro i hi
  rcases Nat.lt_or_ge i 64 with h | h
  · have := congrArg (fun w => w.getLsbD i) h0
    simpa only [BitVec.getLsbD_extractLsb', h, decide_true, Bool.true_and, Nat.zero_add] using this
  · have := congrArg (fun w => w.getLsbD (i - 64)) h1
    simpa only [BitVec.getLsbD_extractLsb', show i - 64 < 64 by omega, decide_true, Bool.true_and,
      Nat.add_sub_cancel' h] using this

/-- the parity of the first word is odd -/
theorem chk_zero (seed : BitVec 32) : chk (sfmtSeq seed) 0 = 1 := by
  rw [chk, (isSFMT_sfmtSeq seed).zero, certify]
  cases h : bitParity (pack (initWord seed) 0 &&& parityVector)
  · rw [if_neg (by decide), Sfmt.bitParity_xor_one, h]; rfl
  · rw [if_pos rfl, h]; rfl

/-- the recursion runs backwards as well -/
theorem sfmtRec_inj {a a' b c d : BitVec 128} (h : sfmtRec a b c d = sfmtRec a' b c d) : a = a' := by
  have h : a ^^^ (a <<< 8) = a' ^^^ (a' <<< 8) := by
    simpa only [sfmtRec, BitVec.xor_left_inj] using h
  have hb : ∀ i, i < 128 → a.getLsbD i = a'.getLsbD i := by
    intro i
    induction i using Nat.strong_induction_on with
    | _ i ih =>
      intro hi
      have h1 := congrArg (fun w => w.getLsbD i) h
      simp only [BitVec.getLsbD_xor, BitVec.getLsbD_shiftLeft, hi, decide_true, Bool.true_and] at h1
      rcases Nat.lt_or_ge i 8 with h8 | h8
      · simpa [h8] using h1
      · rw [ih (i - 8) (by omega) (by omega)] at h1
        simpa using h1
  exact BitVec.eq_of_getLsbD_eq hb

section words
variable {x : Nat → BitVec 128} (hx : ∀ k, x (k + 156) = sfmtRec (x k) (x (k + 122)) (x (k + 154)) (x (k + 155)))
include hx

theorem forward (a b : Nat) (h : ∀ i < 156, x (a + i) = x (b + i)) (i : Nat) : x (a + i) = x (b + i) := by
  induction i using Nat.strong_induction_on with
  | _ i ih =>
    rcases Nat.lt_or_ge i 156 with hi | hi
    · exact h i hi
    · obtain ⟨j, rfl⟩ := Nat.exists_eq_add_of_le' hi
      rw [← Nat.add_assoc, ← Nat.add_assoc, hx, hx]
      have h0 := ih j (by omega)
      have h1 := ih (j + 122) (by omega)
      have h2 := ih (j + 154) (by omega)
      have h3 := ih (j + 155) (by omega)
      rw [← Nat.add_assoc, ← Nat.add_assoc] at h1 h2 h3
      rw [h0, h1, h2, h3]

theorem backward (c p : Nat) (h : ∀ i, x (c + i) = x (c + p + i)) : ∀ i, x i = x (p + i) := by
  induction c with
  | zero => intro i; have := h i; rwa [Nat.zero_add, Nat.zero_add] at this
  | succ c ih =>
    apply ih
    intro i
    rcases Nat.eq_zero_or_pos i with rfl | hi
    · have e := h 155
      rw [show c + 1 + 155 = c + 156 by omega, show c + 1 + p + 155 = c + p + 156 by omega, hx, hx] at e
      have h1 := h 121
      have h2 := h 153
      have h3 := h 154
      rw [show c + 1 + 121 = c + 122 by omega, show c + 1 + p + 121 = c + p + 122 by omega] at h1
      rw [show c + 1 + 153 = c + 154 by omega, show c + 1 + p + 153 = c + p + 154 by omega] at h2
      rw [show c + 1 + 154 = c + 155 by omega, show c + 1 + p + 154 = c + p + 155 by omega] at h3
      rw [h1, h2, h3] at e
      exact sfmtRec_inj e
    · have := h (i - 1)
      rwa [show c + 1 + (i - 1) = c + i by omega, show c + 1 + p + (i - 1) = c + p + i by omega] at this

omit hx in
theorem card_states : Nat.card (Fin 156 → BitVec 128) = 2 ^ 19968 := by
  rw [Nat.card_fun, Nat.card_congr (BitVec.equivFin (m := 128)).toEquiv, Nat.card_fin, Nat.card_fin, ← pow_mul]

/-- among `C + 1` states two are equal -/
theorem periodic (C : Nat) (hC : C = 2 ^ 19968) : ∃ p, 0 < p ∧ p ≤ C ∧ ∀ i, x i = x (p + i) := by
  have hcard : Nat.card (Fin 156 → BitVec 128) = C := card_states.trans hC.symm
  clear hC
  have hni : ¬ Function.Injective (fun (n : Fin (C + 1)) (i : Fin 156) => x (n + i)) := by
    intro hi
    have := Nat.card_le_card_of_injective _ hi
    rw [Nat.card_fin, hcard] at this
    omega
  rw [Function.not_injective_iff] at hni
  obtain ⟨a, b, hab, hne⟩ := hni
  have key : ∀ a b : Nat, a < b → b ≤ C → (∀ i < 156, x (a + i) = x (b + i)) → ∃ p, 0 < p ∧ p ≤ C ∧ ∀ i, x i = x (p + i) := by
    intro a b h1 h2 h3
    refine ⟨b - a, by omega, by omega, backward hx a (b - a) (fun i => ?_)⟩
    rw [Nat.add_sub_cancel' (by omega)]
    exact forward hx a b h3 i
  have hw : ∀ i < 156, x (a + i) = x (b + i) := fun i hi => congrFun hab ⟨i, hi⟩
  rcases Nat.lt_trichotomy a.val b.val with h | h | h
  · exact key a b h (by omega) hw
  · exact absurd (Fin.ext h) hne
  · exact key b a h (by omega) (fun i hi => (hw i hi).symm)

end words

/-- C101: for every seed the stream of 64-bit outputs is purely periodic. -/
theorem C101_periodic (junk : Mem) (seed : BitVec 32) :
    ∃ p, 0 < p ∧ p ≤ 2 ^ 19969 ∧ ∀ n, output junk seed (n + p) = output junk seed n := by
  obtain ⟨C, hC⟩ : ∃ C, C = 2 ^ 19968 := ⟨_, rfl⟩
  obtain ⟨p, h0, h1, h2⟩ := periodic (isSFMT_sfmtSeq seed).rec_ C hC
  refine ⟨2 * p, by omega, ?_, fun n => ?_⟩
  · rw [pow_succ, mul_comm, ← hC]
    exact Nat.mul_le_mul_right 2 h1
  · clear hC
    rw [output_eq, output_eq, Sfmt.out64, Sfmt.out64, show (312 + (n + 2 * p)) / 2 = p + (312 + n) / 2 by omega,
      show (312 + (n + 2 * p)) % 2 = (312 + n) % 2 by omega, ← h2]

/-- C101: for every seed, if the outputs repeat with period `p` from any point `M` on, then `p` is a multiple of the
prime 2^19937 - 1: no seed has a shorter cycle, and no part of the stream settles into one. -/
theorem C101_least (junk : Mem) (seed : BitVec 32) (N : Nat) (hN : N = 2 ^ 19937 - 1) (p M : Nat)
    (h : ∀ n, M ≤ n → output junk seed (n + p) = output junk seed n) : N ∣ p := by
  obtain ⟨h1, h2⟩ := MtPeriod.size N hN
  clear hN
  obtain ⟨g, hg, g0, g1, hk⟩ := exists_poly
  have hd := hg (N + 1) h1
  clear hg h1
  refine no_short_period g (N + 1) N rfl h2 hd g0 g1 (chk (sfmtSeq seed)) (hk _ (isSFMT_sfmtSeq seed).rec_) ?_ p (156 + M) ?_
  · intro h0
    have := congrFun h0 0
    rw [chk_zero] at this
    exact absurd this (by decide)
  · intro k hk
    have e : ∀ n, M ≤ n → Sfmt.out64 (sfmtSeq seed) (312 + (n + 2 * p)) = Sfmt.out64 (sfmtSeq seed) (312 + n) := by
      intro n hn
      have e1 := (h (n + p) (by omega)).trans (h n hn)
      rw [output_eq, output_eq] at e1
      injection e1 with e1
      rwa [show n + p + p = n + 2 * p by omega] at e1
    have e0 := e (2 * (k - 156)) (by omega)
    have e1 := e (2 * (k - 156) + 1) (by omega)
    rw [Sfmt.out64, Sfmt.out64, show (312 + (2 * (k - 156) + 2 * p)) / 2 = k + p by omega,
      show (312 + (2 * (k - 156) + 2 * p)) % 2 = 0 by omega, show (312 + 2 * (k - 156)) / 2 = k by omega,
      show (312 + 2 * (k - 156)) % 2 = 0 by omega] at e0
    rw [Sfmt.out64, Sfmt.out64, show (312 + (2 * (k - 156) + 1 + 2 * p)) / 2 = k + p by omega,
      show (312 + (2 * (k - 156) + 1 + 2 * p)) % 2 = 1 by omega, show (312 + (2 * (k - 156) + 1)) / 2 = k by omega,
      show (312 + (2 * (k - 156) + 1)) % 2 = 1 by omega] at e1
    rw [chk, chk, halves _ _ e0 e1]

/-- C101: two moments less than 2^19937 - 1 calls apart have different outputs ahead of them. -/
theorem C101_distinct (junk : Mem) (seed : BitVec 32) (N : Nat) (hN : N = 2 ^ 19937 - 1) (a b : Nat) (hab : a < b)
    (hb : b - a < N) : ∃ n, output junk seed (a + n) ≠ output junk seed (b + n) := by
  by_contra h
  have h' : ∀ n, output junk seed (a + n) = output junk seed (b + n) := by
    intro n
    by_contra hn
    exact h ⟨n, hn⟩
  have hd := C101_least junk seed N hN (b - a) a (fun n hn => by
    have := h' (n - a)
    clear hN
    rw [Nat.add_sub_cancel' hn, show b + (n - a) = n + (b - a) by omega] at this
    exact this.symm)
  clear hN
  have := Nat.le_of_dvd (by omega) hd
  omega

/- concrete cases: the first outputs; a period from call 7 on, as in the hypothesis of `C101_least` -/
example (junk : Mem) : (output junk 0 0, output junk 1234 1) = (.ok (sfmtOut 0 0), .ok (sfmtOut 1234 1)) := by
  rw [output_eq, output_eq, Sfmt.out64_eq, Sfmt.out64_eq]
example (junk : Mem) (seed : BitVec 32) : ∃ p, 0 < p ∧ ∀ n, 7 ≤ n → output junk seed (n + p) = output junk seed n := by
  obtain ⟨p, h0, -, h⟩ := C101_periodic junk seed
  exact ⟨p, h0, fun n _ => h n⟩
example (junk : Mem) (seed : BitVec 32) (N : Nat) (hN : N = 2 ^ 19937 - 1) :
    ∃ n, output junk seed (5 + n) ≠ output junk seed (6 + n) := by
  refine C101_distinct junk seed N hN 5 6 (by omega) ?_
  have := (MtPeriod.size N hN).2.one_lt
  clear hN
  omega

end Verif.SfmtPeriod
