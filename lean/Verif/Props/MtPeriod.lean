import Verif.Lemmas.MtSeq
import Verif.Props.Mt
import Verif.Props.Seeds
import Mathlib.Data.Nat.ModEq
import Mathlib.Data.Set.Card
import Mathlib.Data.BitVec
/-
C99, C100: the period of the Mersenne Twister, and its distribution in 623 dimensions.
-/
namespace Verif.MtPeriod
open Verif.Spec

section words
variable {x : Nat → BitVec 32} (hx : ∀ k, x (k + 624) = x (k + 397) ^^^ mtTwist (x k) (x (k + 1)))
  {N : Nat} (hN : N + 1 = 2 ^ 19937)
include hx

include hN in
theorem per (k : Nat) : x (k + 63 + N) = x (k + 63) := by
  have h := words_period hx (N + 1) hN k
  clear hN
  rwa [show k + 62 + (N + 1) = k + 63 + N by omega, show k + 62 + 1 = k + 63 by omega] at h

include hN in
theorem per_mul (m k : Nat) (hk : 63 ≤ k) : x (k + N * m) = x k := by
  induction m with
  | zero => rfl
  | succ m ih =>
    have h := per hx hN (k - 63 + N * m)
    clear hN
    rw [show k - 63 + N * m + 63 + N = k + N * (m + 1) by rw [Nat.mul_succ]; omega,
      show k - 63 + N * m + 63 = k + N * m by omega] at h
    rw [h, ih]

/-- a zero window only comes from a zero sequence -/
theorem zero_back (n : Nat) (hn : 0 < n) (h : ∀ i, n ≤ i → x i = 0) (k : Nat) (hk : 0 < k) : x k = 0 := by
  rcases Nat.lt_or_ge k n with h1 | h1
  · exact Mt.words_back x (fun _ => 0) hx (fun _ => by decide) n (fun i h1 _ => h i h1) (n - k) k (by omega) hk k le_rfl (by omega)
  · exact h k h1

theorem const_zero (n : Nat) (hn : 0 < n) (h : ∀ i, n ≤ i → x (i + 1) = x i) (k : Nat) (hk : 0 < k) : x k = 0 := by
  have hc : ∀ i, x (n + i) = x n := by
    intro i
    induction i with
    | zero => rfl
    | succ i ih => rw [← Nat.add_assoc, h (n + i) (by omega), ih]
  have h0 : mtTwist (x n) (x n) = mtTwist 0 0 := by
    have h1 := hx n
    rw [hc 624, hc 397, hc 1] at h1
    have := congrArg (fun w => x n ^^^ w) h1
    simp only [BitVec.xor_self, ← BitVec.xor_assoc, BitVec.zero_xor] at this
    rw [← this]
    decide
  obtain ⟨h1, h2⟩ := Mt.mtTwist_inj h0
  have hz : x n = 0 := Mt.word_ext h1 h2
  refine zero_back hx n hn (fun i hi => ?_) k hk
  rw [← hz, ← hc (i - n), Nat.add_sub_cancel' hi]

variable (hp : N.Prime) (hne : ∃ k, 0 < k ∧ x k ≠ 0)

include hN hp hne in
/-- every period is a multiple of `N` -/
theorem least (p M : Nat) (h : ∀ k, M ≤ k → x (k + p) = x k) : N ∣ p := by
  by_contra hd
  have hper := per_mul hx hN
  clear hN
  have hcop : Nat.Coprime p N := ((Nat.Prime.coprime_iff_not_dvd hp).mpr hd).symm
  have h1 : ∀ k, 63 ≤ k → x (k + p) = x k := by
    intro k hk
    have hpos := hp.pos
    have hM : M ≤ k + N * M := (Nat.le_mul_of_pos_left M hpos).trans (Nat.le_add_left _ _)
    rw [← hper M (k + p) (by omega), Nat.add_right_comm, h _ hM, hper M k hk]
  have h2 : ∀ u k, 63 ≤ k → x (k + p * u) = x k := by
    intro u
    induction u with
    | zero => intro k _; rfl
    | succ u ih => intro k hk; rw [Nat.mul_succ, ← Nat.add_assoc, h1 _ (by omega), ih k hk]
  obtain ⟨u, _, hu⟩ := Nat.exists_mul_mod_eq_one_of_coprime hcop hp.one_lt
  have h3 : ∀ k, 63 ≤ k → x (k + 1) = x k := by
    intro k hk
    have e : p * u = 1 + N * (p * u / N) := by
      have := Nat.mod_add_div (p * u) N
      rw [hu] at this
      exact this.symm
    rw [← h2 u k hk, e, ← Nat.add_assoc, hper _ _ (by omega)]
  obtain ⟨k, hk, h4⟩ := hne
  exact h4 (const_zero hx 63 (by omega) h3 k hk)

/-! ### windows -/

/-- what determines the words after word `k`: the top bit of word `k` and the 623 following words -/
def window (x : Nat → BitVec 32) (k : Nat) : BitVec 1 × (Fin 623 → BitVec 32) :=
  ((x k).extractLsb' 31 1, fun i => x (k + 1 + i))

/-- the words after a window -/
theorem window_next (k l : Nat) (h : window x k = window x l) : ∀ i, x (k + 1 + i) = x (l + 1 + i) := by
  have h1 : (x k).extractLsb' 31 1 = (x l).extractLsb' 31 1 := congrArg Prod.fst h
  have h2 : ∀ i, i < 623 → x (k + 1 + i) = x (l + 1 + i) := fun i hi => congrFun (congrArg Prod.snd h) ⟨i, hi⟩
  have tw : ∀ u u' v : BitVec 32, u.extractLsb' 31 1 = u'.extractLsb' 31 1 → mtTwist u v = mtTwist u' v := by
    intro u u' v hu
    simp only [mtTwist, hu]
  intro i
  induction i using Nat.strong_induction_on with
  | _ i ih =>
    rcases Nat.lt_or_ge i 623 with hi | hi
    · exact h2 i hi
    · have e : ∀ j, x (j + 1 + i) = x (j + (i - 623) + 397) ^^^ mtTwist (x (j + (i - 623))) (x (j + (i - 623) + 1)) := by
        intro j
        rw [← hx, show j + (i - 623) + 624 = j + 1 + i by omega]
      rw [e k, e l]
      have a1 := ih (i - 227) (by omega)
      have a2 := ih (i - 623) (by omega)
      rw [show k + 1 + (i - 227) = k + (i - 623) + 397 by omega, show l + 1 + (i - 227) = l + (i - 623) + 397 by omega] at a1
      rw [show k + 1 + (i - 623) = k + (i - 623) + 1 by omega, show l + 1 + (i - 623) = l + (i - 623) + 1 by omega] at a2
      refine congrArg₂ (· ^^^ ·) a1 ?_
      rw [a2]
      apply tw
      rcases Nat.eq_or_lt_of_le hi with h0 | h0
      · rw [← h0]
        exact h1
      · have a3 := ih (i - 624) (by omega)
        rw [show k + 1 + (i - 624) = k + (i - 623) by omega, show l + 1 + (i - 624) = l + (i - 623) by omega] at a3
        rw [a3]

include hN hp hne in
theorem window_inj (m a b : Nat) (hab : a < b) (hb : b < N) (h : window x (m + a) = window x (m + b)) : False := by
  have h1 := window_next hx _ _ h
  have h2 : N ∣ b - a := by
    refine least hx hN hp hne (b - a) (m + b + 1) (fun k hk => ?_)
    have := h1 (k - (m + a + 1))
    clear hN
    rw [show m + a + 1 + (k - (m + a + 1)) = k by omega, show m + b + 1 + (k - (m + a + 1)) = k + (b - a) by omega] at this
    exact this.symm
  have := Nat.le_of_dvd (by clear hN; omega) h2
  clear hN
  omega

include hne in
theorem window_ne (m : Nat) : window x m ≠ 0 := by
  intro h
  have h1 : ∀ i, x (m + 1 + i) = 0 := by
    have hw : ∀ k, (∀ i < 623, x (k + 1 + i) = 0) → (x k).extractLsb' 31 1 = 0 → ∀ i, x (k + 1 + i) = 0 := by
      intro k hz ht i
      induction i using Nat.strong_induction_on with
      | _ i ih =>
        rcases Nat.lt_or_ge i 623 with hi | hi
        · exact hz i hi
        · have e : x (k + 1 + i) = x (k + (i - 623) + 397) ^^^ mtTwist (x (k + (i - 623))) (x (k + (i - 623) + 1)) := by
            rw [← hx, show k + (i - 623) + 624 = k + 1 + i by omega]
          have a1 := ih (i - 227) (by omega)
          have a2 := ih (i - 623) (by omega)
          rw [show k + 1 + (i - 227) = k + (i - 623) + 397 by omega] at a1
          rw [show k + 1 + (i - 623) = k + (i - 623) + 1 by omega] at a2
          have a3 : (x (k + (i - 623))).extractLsb' 31 1 = 0 := by
            rcases Nat.eq_or_lt_of_le hi with h0 | h0
            · rw [← h0]; exact ht
            · have a3 := ih (i - 624) (by omega)
              rw [show k + 1 + (i - 624) = k + (i - 623) by omega] at a3
              rw [a3]; decide
          rw [e, a1, a2]
          simp only [mtTwist, a3]
          decide
    exact hw m (fun i hi => congrFun (congrArg Prod.snd h) ⟨i, hi⟩) (congrArg Prod.fst h)
  obtain ⟨k, hk, h4⟩ := hne
  exact h4 (zero_back hx (m + 1) (by omega) (fun i hi => by rw [← h1 (i - (m + 1)), Nat.add_sub_cancel' hi]) k hk)

omit hx

theorem card_windows : Nat.card (BitVec 1 × (Fin 623 → BitVec 32)) = 2 ^ 19937 := by
  have e : ∀ w, Nat.card (BitVec w) = 2 ^ w := fun w => by
    rw [Nat.card_congr (BitVec.equivFin (m := w)).toEquiv, Nat.card_fin]
  rw [Nat.card_prod, Nat.card_fun, Nat.card_fin, e, e, ← pow_mul, ← pow_add]

include hx hN hp hne in
/-- every window but 0 occurs exactly once among `N` consecutive ones -/
theorem window_bij (m : Nat) : Function.Bijective
    (fun a : Fin N => (⟨window x (m + a), window_ne hx hne (m + a)⟩ : { w : BitVec 1 × (Fin 623 → BitVec 32) // w ≠ 0 })) := by
  refine Function.Injective.bijective_of_nat_card_le ?_ ?_
  · intro a b h
    have h := congrArg Subtype.val h
    rcases Nat.lt_trichotomy a.val b.val with h1 | h1 | h1
    · exact (window_inj hx hN hp hne m a b h1 b.isLt h).elim
    · exact Fin.ext h1
    · exact (window_inj hx hN hp hne m b a h1 a.isLt h.symm).elim
  · have h1 := Set.ncard_compl ({0} : Set (BitVec 1 × (Fin 623 → BitVec 32)))
    rw [card_windows, ← hN, Set.ncard_singleton] at h1
    rw [Nat.card_fin]
    exact le_of_eq h1

end words

/-! ### the generator -/

/-- state of `MersenneTwister(seed)` after `n` calls of `next` -/
def after (junk : Mem) (seed : BitVec 32) (n : Nat) : Mt.State := (fun s => (Mt.next s).1)^[n] (Mt.new junk seed)

/-- what the next call returns after `n` calls of `next` on `MersenneTwister(seed)` -/
def output (junk : Mem) (seed : BitVec 32) (n : Nat) : Except PyErr (BitVec 32) := (Mt.next (after junk seed n)).2

theorem after_at (junk : Mem) (seed : BitVec 32) (n : Nat) :
    Mt.At (mtSeq seed) (after junk seed n) (624 + n) := by
  induction n with
  | zero => exact Mt.new_at junk seed
  | succ n ih =>
    rw [after, Function.iterate_succ', Function.comp, ← after]
    exact (Mt.next_at (isMT_mtSeq seed).rec_ ih).1

theorem output_eq (junk : Mem) (seed : BitVec 32) (n : Nat) :
    output junk seed n = .ok (Mt.temper (mtSeq seed (624 + n))) :=
  (Mt.next_at (isMT_mtSeq seed).rec_ (after_at junk seed n)).2

theorem output_iff (junk : Mem) (seed : BitVec 32) (m n : Nat) :
    output junk seed m = output junk seed n ↔ mtSeq seed (624 + m) = mtSeq seed (624 + n) := by
  rw [output_eq, output_eq]
  constructor
  · intro h
    injection h with h
    exact Mt.temper_injective h
  · intro h
    rw [h]

theorem seq_ne (seed : BitVec 32) : ∃ k, 0 < k ∧ mtSeq seed k ≠ 0 := by
  by_cases h : mtSeq seed 1 = 0
  · refine ⟨2, by omega, ?_⟩
    rw [(isMT_mtSeq seed).init 2 (by omega) (by omega), h]
    decide
  · exact ⟨1, by omega, h⟩

theorem size (N : Nat) (hN : N = 2 ^ 19937 - 1) : N + 1 = 2 ^ 19937 ∧ N.Prime := by
  refine ⟨?_, hN ▸ Mersenne.prime⟩
  rw [hN]
  exact Nat.sub_add_cancel (Nat.pow_pos (by omega))

/-- C99: the number of the next theorems is a prime. -/
theorem C99_prime (N : Nat) (hN : N = 2 ^ 19937 - 1) : N.Prime := (size N hN).2

/-- C99: for every seed, the outputs repeat after 2^19937 - 1 calls, from the first call on. -/
theorem C99_period (junk : Mem) (seed : BitVec 32) (n : Nat) (N : Nat) (hN : N = 2 ^ 19937 - 1) :
    output junk seed (n + N) = output junk seed n := by
  have h := per_mul (isMT_mtSeq seed).rec_ (size N hN).1 1 (624 + n) (by omega)
  rw [output_iff, ← h, Nat.mul_one, Nat.add_assoc]

/-- C99: and not earlier: for every seed, if the outputs repeat with period `p` from any point `M` on, then `p` is a
multiple of 2^19937 - 1 (so no seed has a shorter cycle, and no part of the stream settles into one). -/
theorem C99_least (junk : Mem) (seed : BitVec 32) (N : Nat) (hN : N = 2 ^ 19937 - 1) (p M : Nat)
    (h : ∀ n, M ≤ n → output junk seed (n + p) = output junk seed n) : N ∣ p := by
  obtain ⟨h1, h2⟩ := size N hN
  clear hN
  refine least (isMT_mtSeq seed).rec_ h1 h2 (seq_ne seed) p (624 + M) (fun k hk => ?_)
  clear h1
  have := (output_iff junk seed _ _).mp (h (k - 624) (by omega))
  rwa [show 624 + (k - 624 + p) = k + p by omega, Nat.add_sub_cancel' (by omega)] at this

/-- C100: in every seed's stream, among any 2^19937 - 1 consecutive positions, every tuple of 623 consecutive outputs
occurs exactly twice, except the tuple of zeros, which occurs exactly once. -/
theorem C100_equidistributed (junk : Mem) (seed : BitVec 32) (N : Nat) (hN : N = 2 ^ 19937 - 1) (m : Nat)
    (w : Fin 623 → BitVec 32) :
    { n | n < N ∧ ∀ i : Fin 623, output junk seed (m + n + i) = .ok (w i) }.ncard
      = if ∀ i, w i = 0 then 1 else 2 := by
  obtain ⟨h1, h2⟩ := size N hN
  clear hN
  have hb := window_bij (isMT_mtSeq seed).rec_ h1 h2 (seq_ne seed) (623 + m)
  clear h1
  obtain ⟨v, hv⟩ : ∃ v : Fin 623 → BitVec 32, ∀ i, Mt.temper (v i) = w i :=
    ⟨fun i => (Mt.C17_temper_bijective.2.2 (w i)).choose, fun i => (Mt.C17_temper_bijective.2.2 (w i)).choose_spec⟩
  have h0 : (∀ i, w i = 0) ↔ v = 0 := by
    have t0 : Mt.temper 0 = 0 := by decide
    constructor
    · intro h
      funext i
      exact Mt.temper_injective ((hv i).trans ((h i).trans t0.symm))
    · rintro rfl i
      rw [← hv i]
      exact t0
  -- the positions are those whose window ends in `v`
  let S : Set { u : BitVec 1 × (Fin 623 → BitVec 32) // u ≠ 0 } := { u | u.1.2 = v }
  have e1 : { n | n < N ∧ ∀ i : Fin 623, output junk seed (m + n + i) = .ok (w i) }
      = Fin.val '' ((Equiv.ofBijective _ hb) ⁻¹' S) := by
    ext n
    have key : ∀ n, (∀ i : Fin 623, output junk seed (m + n + i) = .ok (w i)) ↔
        (window (mtSeq seed) (623 + m + n)).2 = v := by
      intro n
      constructor
      · intro h
        funext i
        have := h i
        rw [output_eq, ← hv i] at this
        injection this with this
        rw [← Mt.temper_injective this]
        exact congrArg (mtSeq seed) (by omega)
      · intro h i
        rw [output_eq, ← hv i, ← h]
        exact congrArg (fun k => Except.ok (Mt.temper (mtSeq seed k))) (by omega)
    constructor
    · rintro ⟨hn, h⟩
      exact ⟨⟨n, hn⟩, (key n).mp h, rfl⟩
    · rintro ⟨a, ha, rfl⟩
      exact ⟨a.isLt, (key a).mpr ha⟩
  rw [e1, Set.ncard_image_of_injective _ Fin.val_injective,
    Set.ncard_preimage_of_injective_subset_range (Equiv.injective _) (by rw [Equiv.range_eq_univ]; exact Set.subset_univ _)]
  have e2 : S.ncard = (Subtype.val '' S).ncard := (Set.ncard_image_of_injective _ Subtype.val_injective).symm
  rw [e2]
  by_cases hz : v = 0
  · rw [if_pos (h0.mpr hz)]
    have : Subtype.val '' S = {(1, v)} := by
      ext u
      constructor
      · rintro ⟨⟨u, hu⟩, h, rfl⟩
        have h : u.2 = v := h
        refine Prod.ext ?_ h
        have : ∀ b : BitVec 1, b ≠ 0 → b = 1 := by decide
        exact this _ (fun h' => hu (Prod.ext h' (h.trans hz)))
      · rintro rfl
        exact ⟨⟨(1, v), fun h => absurd (show (1 : BitVec 1) = 0 from congrArg Prod.fst h) (by decide)⟩, rfl, rfl⟩
    rw [this, Set.ncard_singleton]
  · rw [if_neg (fun h => hz (h0.mp h))]
    have : Subtype.val '' S = {(0, v), (1, v)} := by
      ext u
      constructor
      · rintro ⟨⟨u, hu⟩, h, rfl⟩
        have h : u.2 = v := h
        have : ∀ b : BitVec 1, b = 0 ∨ b = 1 := by decide
        rcases this u.1 with h' | h'
        · exact Or.inl (Prod.ext h' h)
        · exact Or.inr (Prod.ext h' h)
      · rintro (rfl | rfl)
        · exact ⟨⟨(0, v), fun h => hz (congrArg Prod.snd h)⟩, rfl, rfl⟩
        · exact ⟨⟨(1, v), fun h => hz (congrArg Prod.snd h)⟩, rfl, rfl⟩
    rw [this, Set.ncard_pair (fun h => absurd (show (0 : BitVec 1) = 1 from congrArg Prod.fst h) (by decide))]

/-- C100: hence from every seed, every sequence of 623 outputs is reached, again and again. -/
theorem C100_occurs (junk : Mem) (seed : BitVec 32) (w : Fin 623 → BitVec 32) (m : Nat) :
    ∃ n, m ≤ n ∧ ∀ i : Fin 623, output junk seed (n + i) = .ok (w i) := by
  obtain ⟨N, hN⟩ : ∃ N, N = 2 ^ 19937 - 1 := ⟨_, rfl⟩
  have h := C100_equidistributed junk seed N hN m w
  clear hN
  have hne : { n | n < N ∧ ∀ i : Fin 623, output junk seed (m + n + i) = .ok (w i) }.Nonempty := by
    rw [Set.nonempty_iff_ne_empty]
    intro h'
    rw [h', Set.ncard_empty] at h
    split at h <;> omega
  obtain ⟨n, _, hn⟩ := hne
  exact ⟨m + n, by omega, hn⟩

/-- C100: the states themselves never recur within a period: two different moments less than a period apart never have
the same outputs ahead of them. -/
theorem C100_distinct (junk : Mem) (seed : BitVec 32) (N : Nat) (hN : N = 2 ^ 19937 - 1) (a b : Nat) (hab : a < b)
    (hb : b - a < N) : ∃ n, output junk seed (a + n) ≠ output junk seed (b + n) := by
  by_contra h
  have h' : ∀ n, output junk seed (a + n) = output junk seed (b + n) := by
    intro n
    by_contra hn
    exact h ⟨n, hn⟩
  have hd := C99_least junk seed N hN (b - a) a (fun n hn => by
    have := h' (n - a)
    clear hN
    rw [Nat.add_sub_cancel' hn, show b + (n - a) = n + (b - a) by omega] at this
    exact this.symm)
  clear hN
  have := Nat.le_of_dvd (by omega) hd
  omega

/- concrete cases: two seeds with their first outputs; a period that the hypothesis of `C99_least` allows -/
example (junk : Mem) : (output junk 0 0, output junk 5489 0)
    = (.ok (Mt.temper (mtSeq 0 624)), .ok (Mt.temper (mtSeq 5489 624))) := by
  rw [output_eq, output_eq]
example (junk : Mem) (seed : BitVec 32) (N : Nat) (hN : N = 2 ^ 19937 - 1) :
    ∀ n, 7 ≤ n → output junk seed (n + N) = output junk seed n := fun n _ => C99_period junk seed n N hN
example (junk : Mem) (seed : BitVec 32) : ∃ n, 1000 ≤ n ∧ ∀ i : Fin 623, output junk seed (n + i) = .ok 12345 :=
  C100_occurs junk seed (fun _ => 12345) 1000

end Verif.MtPeriod
