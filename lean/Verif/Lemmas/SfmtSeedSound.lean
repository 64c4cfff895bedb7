import Verif.Lemmas.SfmtSeeds
import Verif.Lemmas.SfmtParts
/-
What the checks of `Lemmas/SfmtSeeds` mean.
-/
namespace Verif.SfmtPeriod
open Verif.Gf2 Verif.Data.SfmtPoly Verif.Data.SfmtFull Verif.Spec Verif.MtPeriod Polynomial Finset

theorem pair_low (x m : Nat) (s : Nat → ZMod 2) :
    pair x s = pair (Nat.mod x (Nat.pow 2 m)) s + pair (Nat.shiftRight x m) (fun i => s (i + m)) := by
  rw [← pair_shl, ← pair_xor]
  congr 1
  apply Nat.eq_of_testBit_eq
  intro i
  change x.testBit i = ((x % 2 ^ m) ^^^ ((x >>> m) <<< m)).testBit i
  rw [Nat.testBit_xor, Nat.testBit_mod_two_pow, Nat.testBit_shiftLeft, Nat.testBit_shiftRight]
  by_cases h : i < m
  · rw [decide_eq_true h, decide_eq_false (by omega)]; simp
  · rw [decide_eq_false h, decide_eq_true (by omega), Nat.add_sub_cancel' (by omega)]; simp

theorem xorBits_sum (l x : Nat) (h : x < 2 ^ 2 ^ l) : (xorBits l x = 0 ∧ pair x (fun _ => 1) = 0) ∨ (xorBits l x = 1 ∧ pair x (fun _ => 1) = 1) := by
  induction l generalizing x with
  | zero =>
    have : x = 0 ∨ x = 1 := by rw [pow_zero, pow_one] at h; omega
    rcases this with rfl | rfl
    · exact .inl ⟨rfl, pair_zero _⟩
    · exact .inr ⟨rfl, pair_one _⟩
  | succ l ih =>
    rw [xorBits, Mersenne.force_eq, pair_low x (2 ^ l), ← pair_xor]
    refine ih _ ?_
    change (x % 2 ^ 2 ^ l) ^^^ (x >>> 2 ^ l) < _
    refine Nat.xor_lt_two_pow (Nat.mod_lt _ (Nat.two_pow_pos _)) ?_
    rw [Nat.shiftRight_eq_div_pow, Nat.div_lt_iff_lt_mul (Nat.two_pow_pos _), ← pow_add, ← two_mul, ← pow_succ']
    exact h

theorem pair_congr (c l : Nat) (hc : c < 2 ^ l) (s t : Nat → ZMod 2) (h : ∀ i < l, s i = t i) : pair c s = pair c t := by
  rw [pair_eq c l hc, pair_eq c l hc]
  exact sum_congr rfl fun i hi => by rw [h i (mem_range.mp hi)]

/-- one element of the sequence -/
theorem xorBits_act (c g p n : Nat) (hc : c < 2 ^ 2560000) (hp : p < 65536 ^ 2 ^ 15) (he : c = spreadH 1 15 p) (v : Nat → ZMod 2)
    (hv : ∀ i < 128 * 20064, v i = z (g.testBit i)) (hn : n < 15) :
    xorBits 22 (Nat.land c (Nat.shiftRight g (Nat.mul 128 n))) = 0 ↔ act (pv X p) (track 0 v) n = 0 := by
  have h1 : Nat.land c (Nat.shiftRight g (Nat.mul 128 n)) < 2 ^ 2 ^ 22 :=
    (Nat.and_le_left.trans_lt hc).trans_le (Nat.pow_le_pow_right (by omega) (by norm_num))
  have h2 : pair (Nat.land c (Nat.shiftRight g (Nat.mul 128 n))) (fun _ => 1) = act (pv X p) (track 0 v) n := by
    rw [pair_and, pair_congr c 2560000 hc _ (fun i => v (i + 128 * n))]
    · rw [he, pair_spreadH 1 15 p _ hp]
      simp only [pair_one]
      rw [act_shift (pv X p) _ n]
      congr 1
      funext k
      rw [track, show 0 + 128 * k + 128 * n = 0 + 128 * (k + n) by ring]
    · intro i hi
      rw [mul_one, hv (i + 128 * n) (by omega)]
      congr 1
      change (g >>> (128 * n)).testBit i = _
      rw [Nat.testBit_shiftRight, Nat.add_comm]
  rcases xorBits_sum 22 _ h1 with ⟨a, b⟩ | ⟨a, b⟩
  · rw [a, ← h2, b]; simp
  · rw [a, ← h2, b]; simp

theorem scan_act (c g p k : Nat) (hk : k ≤ 15) (hc : c < 2 ^ 2560000) (hp : p < 65536 ^ 2 ^ 15) (he : c = spreadH 1 15 p) (v : Nat → ZMod 2)
    (hv : ∀ i < 128 * 20064, v i = z (g.testBit i)) : scan c g k = 0 ↔ ∀ n < k, act (pv X p) (track 0 v) n = 0 := by
  induction k with
  | zero => exact ⟨fun _ n h => absurd h (by omega), fun _ => rfl⟩
  | succ k ih =>
    have e : scan c g (k + 1) = scan c g k + xorBits 22 (Nat.land c (Nat.shiftRight g (Nat.mul 128 k))) := rfl
    rw [e, Nat.add_eq_zero_iff, ih (by omega), xorBits_act c g p k hc hp he v hv (by omega)]
    constructor
    · rintro ⟨h1, h2⟩ n hn
      rcases Nat.lt_or_ge n k with h | h
      · exact h1 n h
      · rwa [show n = k by omega]
    · exact fun h => ⟨fun n hn => h n (by omega), h k (by omega)⟩

theorem act_zeros' (g : (ZMod 2)[X]) (hg : g ≠ 0) (s : Nat → ZMod 2) (h : act g s = 0) (h0 : ∀ i < g.natDegree, s i = 0)
    (k : Nat) : s k = 0 := by
  induction k using Nat.strong_induction_on with
  | _ k ih =>
    rcases Nat.lt_or_ge k g.natDegree with hk | hk
    · exact h0 k hk
    · have h1 := congrFun h (k - g.natDegree)
      rw [act_sum_range', Finset.sum_range_succ, Finset.sum_eq_zero, zero_add, Nat.sub_add_cancel hk, Pi.zero_apply] at h1
      · rcases mul_eq_zero.mp h1 with h2 | h2
        · exact absurd (leadingCoeff_eq_zero.mp h2) hg
        · exact h2
      · intro i hi
        rw [Finset.mem_range] at hi
        rw [ih _ (by omega), mul_zero]

/-- A part is zero if the first elements of its lowest bits are. -/
theorem part_zero {v : Nat → ZMod 2} (hv : Run v) (r q : (ZMod 2)[X]) (hq : q ≠ 0) (hd : q.natDegree ≤ 15) (h : big (q * r) v = 0) :
    big r v = 0 ↔ ∀ n < 15, act r (track 0 v) n = 0 := by
  constructor
  · intro h1 n _
    rw [← track_big, h1]
    rfl
  · intro h1
    refine track_zero (hv.big r) ?_
    rw [track_big]
    funext k
    refine act_zeros' q hq _ ?_ (fun i hi => h1 i (by omega)) k
    rw [← act_mul, ← track_big, h]
    rfl

theorem natDegree_ev (k a : Nat) (h : a < 2 ^ (k + 1)) : (ev X a : (ZMod 2)[X]).natDegree ≤ k := by
  induction k generalizing a with
  | zero =>
    have : a = 0 ∨ a = 1 := by rw [zero_add, pow_one] at h; omega
    rcases this with rfl | rfl
    · rw [ev_zero, natDegree_zero]
    · rw [ev_one, natDegree_one]
  | succ k ih =>
    rw [ev_step]
    refine (natDegree_add_le _ _).trans (max_le ?_ ?_)
    · rw [bit]
      split_ifs
      · rw [natDegree_one]; omega
      · rw [natDegree_zero]; omega
    · refine natDegree_mul_le.trans ?_
      rw [natDegree_X]
      have := ih (a / 2) (by rw [pow_succ] at h; omega)
      omega

theorem small_3 : q3 ≠ 0 ∧ q3.natDegree ≤ 15 := by
  refine ⟨?_, by rw [q3, pv_3]; exact natDegree_ev 15 11 (by decide)⟩
  intro h
  have := dvd_3
  rw [h, zero_dvd_iff, sub_eq_zero] at this
  exact absurd (congrArg (fun p => p.coeff 0) this) (by simp)

theorem small_13 : q13 ≠ 0 ∧ q13.natDegree ≤ 15 := by
  refine ⟨?_, by rw [q13, pv_13]; exact natDegree_ev 15 10571 (by decide)⟩
  intro h
  have := dvd_13
  rw [h, zero_dvd_iff, sub_eq_zero] at this
  exact absurd (congrArg (fun p => p.coeff 0) this) (by simp)

theorem small_15 : q15 ≠ 0 ∧ q15.natDegree ≤ 15 := by
  refine ⟨?_, by rw [q15, pv_15]; exact natDegree_ev 15 33827 (by decide)⟩
  intro h
  have := dvd_15
  rw [h, zero_dvd_iff, sub_eq_zero] at this
  exact absurd (congrArg (fun p => p.coeff 0) this) (by simp)

theorem lt_of_shift (c m : Nat) (h : Nat.beq (Nat.shiftRight c m) 0 = true) : c < 2 ^ m := by
  have h := Nat.eq_of_beq_eq_true h
  change c >>> m = 0 at h
  rw [Nat.shiftRight_eq_div_pow, Nat.div_eq_zero_iff] at h
  rcases h with h | h
  · exact absurd h (Nat.two_pow_pos m).ne'
  · exact h

/-- one comparison of `seedCheck` -/
theorem scan_part (p a g : Nat) (hp : packed (spread p) = true) (ha : packed (spread a) = true)
    (hm : packed (mulp (ones 40000) (spread p) (spread a)) = true)
    (hc : Nat.beq (Nat.shiftRight (lowBits p a) 2560000) 0 = true) (b : Bool)
    (h : (Nat.beq (force (lowBits p a) fun c => scan c g 15) 0 == b) = true) (v : Nat → ZMod 2)
    (hv : ∀ i < 128 * 20064, v i = z (g.testBit i)) :
    (∀ n < 15, act (pv X (spread p) * pv X (spread a)) (track 0 v) n = 0) ↔ b = true := by
  have hc := lt_of_shift _ _ hc
  rw [Mersenne.force_eq] at h
  have hm : mulp (ones 40000) (spread p) (spread a) < 65536 ^ 2 ^ 15 :=
    (packed_iff _ hm).2.trans_le (Nat.pow_le_pow_right (by omega) (by norm_num))
  rw [← pv_mulp char2 X _ _ (packed_iff _ hp) (packed_iff _ ha), ← scan_act (lowBits p a) g _ 15 (by omega) hc hm rfl v hv]
  rw [beq_iff_eq] at h
  rw [← h]
  constructor
  · intro h; rw [h]; rfl
  · exact Nat.eq_of_beq_eq_true

/-! ### the initial state -/

theorem initLoop_succ (n i w acc : Nat) : initLoop (n + 1) i w acc =
    initLoop n (i + 1) ((1812433253 * (w ^^^ (w >>> 30)) + (i + 1)) % 4294967296) (acc + w <<< (32 * i)) := by
  have e : initLoop (n + 1) i w acc = force (acc + w <<< (32 * i)) fun acc => force (i + 1) fun i =>
      force ((1812433253 * (w ^^^ (w >>> 30)) + i) % 4294967296) fun w => initLoop n i w acc := rfl
  rw [e, Mersenne.force_eq, Mersenne.force_eq, Mersenne.force_eq]

theorem initWord_toNat (seed : BitVec 32) (i : Nat) : (initWord seed (i + 1)).toNat =
    (1812433253 * ((initWord seed i).toNat ^^^ ((initWord seed i).toNat >>> 30)) + (i + 1)) % 4294967296 := by
  rw [initWord, BitVec.toNat_add, BitVec.toNat_mul, BitVec.toNat_xor, BitVec.toNat_ushiftRight, BitVec.toNat_ofNat]
  simp

theorem initLoop_bits (seed : BitVec 32) (n i acc : Nat) (ha : acc < 2 ^ (32 * i)) (j : Nat) (hj : j < 32 * (i + n)) :
    (initLoop n i (initWord seed i).toNat acc).testBit j =
      if j < 32 * i then acc.testBit j else (initWord seed (j / 32)).getLsbD (j % 32) := by
  induction n generalizing i acc with
  | zero => rw [if_pos (by omega)]; rfl
  | succ n ih =>
    have hw : (initWord seed i).toNat < 2 ^ 32 := (initWord seed i).isLt
    have e : acc + (initWord seed i).toNat <<< (32 * i) = (initWord seed i).toNat <<< (32 * i) ||| acc := by
      rw [Nat.shiftLeft_eq, Nat.mul_comm, ← Nat.two_pow_add_eq_or_of_lt ha, Nat.add_comm]
    rw [initLoop_succ, ← initWord_toNat, ih (i + 1) _ ?_ (by omega)]
    · rw [e]
      by_cases h1 : j < 32 * i
      · rw [if_pos (by omega), if_pos h1, Nat.testBit_or, Nat.testBit_shiftLeft, decide_eq_false (by omega)]; simp
      · rw [if_neg h1]
        by_cases h2 : j < 32 * (i + 1)
        · rw [if_pos h2, Nat.testBit_or, Nat.testBit_shiftLeft, decide_eq_true (by omega),
            Nat.testBit_lt_two_pow (ha.trans_le (Nat.pow_le_pow_right (by omega) (by omega))), Bool.or_false, Bool.true_and,
            show j / 32 = i by omega, show j % 32 = j - 32 * i by omega]
          rfl
        · rw [if_neg h2]
    · rw [e]
      refine Nat.or_lt_two_pow ?_ (ha.trans_le (Nat.pow_le_pow_right (by omega) (by omega)))
      rw [Nat.shiftLeft_eq, show 32 * (i + 1) = 32 + 32 * i by ring, pow_add]
      exact Nat.mul_lt_mul_of_pos_right hw (Nat.two_pow_pos _)

theorem pack_bit (u : Nat → BitVec 32) (i j : Nat) (hj : j < 128) : (pack u i).getLsbD j = (u (i + j / 32)).getLsbD (j % 32) := by
  simp only [pack, BitVec.getLsbD_append]
  by_cases h0 : j < 32
  · rw [if_pos h0, show j / 32 = 0 by omega, show j % 32 = j by omega]; rfl
  · rw [if_neg h0]
    by_cases h1 : j < 64
    · rw [if_pos (by omega), show j / 32 = 1 by omega, show j % 32 = j - 32 by omega]
    · rw [if_neg (by omega)]
      by_cases h2 : j < 96
      · rw [if_pos (by omega), show j / 32 = 2 by omega, show j % 32 = j - 32 - 32 by omega]
      · rw [if_neg (by omega), show j / 32 = 3 by omega, show j % 32 = j - 32 - 32 - 32 by omega]

/-- the bits of the run of a seed; `e` is the correction by the period certification -/
theorem seed_bits (seed : BitVec 32) (e : Nat) (he : e < 2) (hs : certify (pack (initWord seed) 0) = pack (initWord seed) 0 ^^^ BitVec.ofNat 128 e)
    (i : Nat) (hi : i < 19968) : flat (sfmtSeq seed) i = z ((Nat.xor (initLoop 624 0 seed.toNat 0) e).testBit i) := by
  have h0 : ∀ i < 19968, (initLoop 624 0 seed.toNat 0).testBit i = (pack (initWord seed) (4 * (i / 128))).getLsbD (i % 128) := by
    intro i hi
    have := initLoop_bits seed 624 0 0 (by decide) i (by omega)
    rw [if_neg (by omega)] at this
    rw [pack_bit _ _ _ (Nat.mod_lt _ (by decide)), show 4 * (i / 128) + i % 128 / 32 = i / 32 by omega,
      show i % 128 % 32 = i % 32 by omega]
    exact this
  change _ = z ((initLoop 624 0 seed.toNat 0 ^^^ e).testBit i)
  rw [Nat.testBit_xor, h0 i hi, flat]
  rcases Nat.lt_or_ge i 128 with h | h
  · rw [show i / 128 = 0 by omega, show i % 128 = i by omega, (isSFMT_sfmtSeq seed).zero, hs, BitVec.getLsbD_xor, BitVec.getLsbD_ofNat,
      decide_eq_true h, Bool.true_and]
  · rw [(isSFMT_sfmtSeq seed).init (i / 128) (by omega) (by omega),
      Nat.testBit_lt_two_pow (he.trans_le ?_), Bool.xor_false]
    calc 2 = 2 ^ 1 := rfl
      _ ≤ 2 ^ i := Nat.pow_le_pow_right (by omega) (by omega)

theorem full_part {v : Nat → ZMod 2} (hv : Run v) : big (q0 * (q3 * (q13 * q15))) v = 0 := by
  rw [← factors]
  exact full_run hv

theorem cofactors : (pv X (spread 335937213) : (ZMod 2)[X]) = q13 * q15 ∧ (pv X (spread 372093) : (ZMod 2)[X]) = q3 * q15 ∧
    (pv X (spread 78213) : (ZMod 2)[X]) = q3 * q13 := by
  have hf := product_full
  simp only [Bool.and_eq_true] at hf
  obtain ⟨⟨⟨-, f3⟩, f4⟩, f5⟩ := hf
  have pk : ∀ a b, packed a = true → packed b = true → ∀ c, Nat.beq (mulp (ones 40000) a b) c = true →
      (pv X c : (ZMod 2)[X]) = pv X a * pv X b := fun a b ha hb c hc => by
    rw [← Nat.eq_of_beq_eq_true hc, pv_mulp char2 X a b (packed_iff a ha) (packed_iff b hb)]
  rw [pk _ _ (by decide +kernel) (by decide +kernel) _ f3, pk _ _ (by decide +kernel) (by decide +kernel) _ f4,
    pk _ _ (by decide +kernel) (by decide +kernel) _ f5, q3, q13, q15]
  exact ⟨rfl, rfl, rfl⟩

/-- what `seedCheck` says -/
theorem seedCheck_sound (seed : BitVec 32) (e : Nat) (he : e < 2)
    (hs : certify (pack (initWord seed) 0) = pack (initWord seed) 0 ^^^ BitVec.ofNat 128 e) (b3 b13 b15 : Bool)
    (h : seedCheck phi seed.toNat e b3 b13 b15 = true) :
    (big (q0 * (q13 * q15)) (flat (sfmtSeq seed)) = 0 ↔ b3 = true) ∧ (big (q0 * (q3 * q15)) (flat (sfmtSeq seed)) = 0 ↔ b13 = true) ∧
      (big (q0 * (q3 * q13)) (flat (sfmtSeq seed)) = 0 ↔ b15 = true) := by
  obtain ⟨g, h1, h2, h3⟩ := runCheck_sound _ _ h
  have hr : Run (flat (sfmtSeq seed)) := rel_words (isSFMT_sfmtSeq seed).rec_
  have hb := run_bits h1 h2 hr (seed_bits seed e he hs)
  have hk := packed_phi
  have hl := lowBits_lt
  have hm := lowBits_packed
  simp only [Bool.and_eq_true] at h3 hk hl hm
  have h0 := full_part hr
  obtain ⟨c3, c13, c15⟩ := cofactors
  refine ⟨?_, ?_, ?_⟩
  · rw [part_zero hr _ q3 small_3.1 small_3.2 (by rw [show q3 * (q0 * (q13 * q15)) = q0 * (q3 * (q13 * q15)) by ring, h0]),
      ← scan_part phi 335937213 g hk.1.1.1 (by decide +kernel) hm.1.1 hl.1.1 b3 h3.1.1 _ hb, c3, q0]
  · rw [part_zero hr _ q13 small_13.1 small_13.2 (by rw [show q13 * (q0 * (q3 * q15)) = q0 * (q3 * (q13 * q15)) by ring, h0]),
      ← scan_part phi 372093 g hk.1.1.1 (by decide +kernel) hm.1.2 hl.1.2 b13 h3.1.2 _ hb, c13, q0]
  · rw [part_zero hr _ q15 small_15.1 small_15.2 (by rw [show q15 * (q0 * (q3 * q13)) = q0 * (q3 * (q13 * q15)) by ring, h0]),
      ← scan_part phi 78213 g hk.1.1.1 (by decide +kernel) hm.2 hl.2 b15 h3.2 _ hb, c15, q0]

end Verif.SfmtPeriod
