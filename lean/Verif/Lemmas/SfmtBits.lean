import Verif.Lemmas.SfmtIrreducible
import Verif.Props.MtPeriod
/-
Which bits of the words of SFMT19937 determine the run.
-/
namespace Verif.SfmtPeriod
open Verif.Gf2 Verif.Data.SfmtPoly Verif.Data.SfmtFull Verif.Spec Verif.MtPeriod Polynomial Finset

/-- the positions of bit `j` -/
def places (j i : Nat) : ZMod 2 := if i % 128 = j then 1 else 0

theorem pair_places (l x j : Nat) (h : x < 2 ^ (128 * 2 ^ l)) (hj : j < 128) : pair x (places j) = z ((xorWords l x).testBit j) := by
  induction l generalizing x with
  | zero =>
    rw [pow_zero, mul_one] at h
    rw [pair_eq x 128 h, xorWords, sum_eq_single j]
    · rw [places, if_pos (Nat.mod_eq_of_lt hj), mul_one]
    · intro i hi hne
      rw [mem_range] at hi
      rw [places, Nat.mod_eq_of_lt hi, if_neg hne, mul_zero]
    · intro h
      exact absurd (mem_range.mpr hj) h
  | succ l ih =>
    rw [xorWords, Mersenne.force_eq, ← ih, pair_xor, pair_low x (128 * 2 ^ l)]
    · congr 2
      funext i
      rw [places, places, Nat.add_mul_mod_self_left]
    · change (x % 2 ^ (128 * 2 ^ l)) ^^^ (x >>> (128 * 2 ^ l)) < _
      refine Nat.xor_lt_two_pow (Nat.mod_lt _ (Nat.two_pow_pos _)) ?_
      rw [Nat.shiftRight_eq_div_pow, Nat.div_lt_iff_lt_mul (Nat.two_pow_pos _), ← pow_add, ← mul_add, ← two_mul, ← pow_succ']
      exact h

/-- one word of the sequence -/
theorem xorWords_act (c g p n j : Nat) (hj : j < 128) (hc : c < 2 ^ 2560000) (hp : p < 65536 ^ 2 ^ 15) (he : c = spreadH allBits 15 p)
    (v : Nat → ZMod 2) (hv : ∀ i < 128 * 20064, v i = z (g.testBit i)) (hn : n < 15) :
    act (pv X p) (track j v) n = z ((xorWords 15 (Nat.land c (Nat.shiftRight g (Nat.mul 128 n)))).testBit j) := by
  have hlt : Nat.land c (Nat.shiftRight g (Nat.mul 128 n)) < 2 ^ (128 * 2 ^ 15) :=
    (Nat.and_le_left.trans_lt hc).trans_le (Nat.pow_le_pow_right (by omega) (by norm_num))
  rw [← pair_places 15 _ j hlt hj, pair_and, pair_congr c 2560000 hc _ (fun i => v (i + 128 * n) * places j i)]
  · rw [he, pair_spreadH allBits 15 p _ hp, act_shift]
    refine congrArg (fun t => act (pv X p) t 0) (funext fun k => ?_)
    rw [pair_eq allBits 128 (by decide), sum_eq_single j]
    · rw [places, if_pos (by omega), mul_one, track, show j + 128 * (k + n) = j + 128 * k + 128 * n by ring]
      have : ∀ j < 128, allBits.testBit j = true := by decide
      rw [this j hj]
      exact (one_mul _).symm
    · intro i hi hne
      rw [mem_range] at hi
      rw [places, if_neg (by omega), mul_zero, mul_zero]
    · intro h
      exact absurd (mem_range.mpr hj) h
  · intro i hi
    rw [hv (i + 128 * n) (by omega)]
    congr 2
    change (g >>> (128 * n)).testBit i = _
    rw [Nat.testBit_shiftRight, Nat.add_comm]

theorem seen_act (c g p k j : Nat) (hj : j < 128) (hk : k ≤ 15) (hc : c < 2 ^ 2560000) (hp : p < 65536 ^ 2 ^ 15) (he : c = spreadH allBits 15 p)
    (v : Nat → ZMod 2) (hv : ∀ i < 128 * 20064, v i = z (g.testBit i)) (h : act (pv X p) (track j v) = 0) : (seen c g k).testBit j = false := by
  induction k with
  | zero => exact Nat.zero_testBit j
  | succ k ih =>
    change (seen c g k ||| xorWords 15 (Nat.land c (Nat.shiftRight g (Nat.mul 128 k)))).testBit j = false
    rw [Nat.testBit_or, ih (by omega), Bool.false_or]
    have h1 := xorWords_act c g p k j hj hc hp he v hv (by omega)
    rw [h, Pi.zero_apply] at h1
    exact z_inj (h1.symm.trans rfl)

theorem shows_act (w m g j : Nat) (hj : j < 128) (hw : w < 65536 ^ 2 ^ 15) (h : shows w m g = true) (hm : m.testBit j = true)
    (v : Nat → ZMod 2) (hv : ∀ i < 128 * 20064, v i = z (g.testBit i)) : act (pv X w) (track j v) ≠ 0 := by
  intro h0
  have h := Nat.eq_of_beq_eq_true h
  rw [Mersenne.force_eq] at h
  cases hc : Nat.beq (Nat.shiftRight (spreadH allBits 15 w) 2560000) 0 with
  | false =>
    rw [hc, cond_false] at h
    rw [← h, Nat.zero_testBit] at hm
    exact absurd hm (by decide)
  | true =>
    rw [hc, cond_true] at h
    have h1 := seen_act _ g w 15 j hj le_rfl (lt_of_shift _ _ hc) hw rfl v hv h0
    have h2 := congrArg (fun x => x.testBit j) h
    change (seen (spreadH allBits 15 w) g 15 &&& m).testBit j = m.testBit j at h2
    rw [Nat.testBit_and, h1, hm] at h2
    exact absurd h2 (by decide)

theorem start_parts (j : Nat) (hj : j < 128) :
    (goodBits.testBit j = true → act (q0 * (q13 * q15)) (track j (runOf start)) ≠ 0) ∧
    act (q0 * (q3 * q15)) (track j (runOf start)) ≠ 0 ∧ act (q0 * (q3 * q13)) (track j (runOf start)) ≠ 0 ∧
    (j ≠ 0 → act (q3 * (q13 * q15)) (track j (runOf start)) ≠ 0) := by
  obtain ⟨g, h1, h2, h3⟩ := runCheck_sound _ _ run_words
  have hb := run_bits h1 h2 (runOf_run start) (runOf_bits start)
  clear h1 h2
  have hk := packed_phi
  have hm := lowBits_packed
  have hf := product_full
  simp only [Bool.and_eq_true] at h3 hk hm hf
  obtain ⟨c3, c13, c15⟩ := cofactors
  have big : ∀ w, packed w = true → w < 65536 ^ 2 ^ 15 := fun w h =>
    (packed_iff w h).2.trans_le (Nat.pow_le_pow_right (by omega) (by norm_num))
  have mul : ∀ a b, packed a = true → packed b = true → (pv X (mulp (ones 40000) a b) : (ZMod 2)[X]) = pv X a * pv X b := fun a b ha hb =>
    pv_mulp char2 X a b (packed_iff a ha) (packed_iff b hb)
  have e3 : (q0 * (q13 * q15)) = pv X (mulp (ones 40000) (spread phi) (spread 335937213)) := by
    rw [mul _ _ hk.1.1.1 (by decide +kernel), c3, q0]
  have e13 : (q0 * (q3 * q15)) = pv X (mulp (ones 40000) (spread phi) (spread 372093)) := by
    rw [mul _ _ hk.1.1.1 (by decide +kernel), c13, q0]
  have e15 : (q0 * (q3 * q13)) = pv X (mulp (ones 40000) (spread phi) (spread 78213)) := by
    rw [mul _ _ hk.1.1.1 (by decide +kernel), c15, q0]
  have e0 : (q3 * (q13 * q15)) = pv X (spread 2619471407) := by
    rw [← c3, q3, ← mul _ _ (by decide +kernel) (by decide +kernel), Nat.eq_of_beq_eq_true hf.1.1.1.2]
  have hall : ∀ j < 128, allBits.testBit j = true := by decide
  have hall' : ∀ j < 128, j ≠ 0 → (Nat.sub allBits 1).testBit j = true := by decide
  rw [e3, e13, e15, e0]
  exact ⟨fun h => shows_act _ _ g j hj (big _ hm.1.1) h3.1.1.1 h _ hb, shows_act _ _ g j hj (big _ hm.1.2) h3.1.1.2 (hall j hj) _ hb,
    shows_act _ _ g j hj (big _ hm.2) h3.1.2 (hall j hj) _ hb,
    fun h => shows_act _ _ g j hj (big _ (by decide +kernel)) h3.2 (hall' j hj h) _ hb⟩

/-- an irreducible factor whose part is seen divides the polynomials that kill the track -/
theorem dvd_of_seen {q c p : (ZMod 2)[X]} (hq : Irreducible q) {t : Nat → ZMod 2} (h : act (q * c) t = 0) (hc : act c t ≠ 0)
    (hp : act p t = 0) : q ∣ p := by
  by_contra hn
  obtain ⟨a, b, hab⟩ := (hq.coprime_iff_not_dvd).mpr hn
  apply hc
  have e : act c t = act (a * (q * c) + (b * c) * p) t := by
    rw [show a * (q * c) + (b * c) * p = (a * q + b * p) * c by ring, hab, one_mul]
  rw [e, act_add, act_mul a, act_mul (b * c), h, hp, act_zero, act_zero, add_zero]

theorem full_dvd (q0 q3 q13 q15 p : (ZMod 2)[X]) (i0 : Irreducible q0) (i3 : Irreducible q3) (i13 : Irreducible q13) (i15 : Irreducible q15)
    (c3 : IsCoprime q0 q3) (c13 : IsCoprime q0 q13) (c15 : IsCoprime q0 q15) (c3_13 : IsCoprime q3 q13) (c3_15 : IsCoprime q3 q15)
    (c13_15 : IsCoprime q13 q15) (t : Nat → ZMod 2) (h : act (q0 * (q3 * (q13 * q15))) t = 0) (h0 : act (q3 * (q13 * q15)) t ≠ 0)
    (h3 : act (q0 * (q13 * q15)) t ≠ 0) (h13 : act (q0 * (q3 * q15)) t ≠ 0) (h15 : act (q0 * (q3 * q13)) t ≠ 0) (hp : act p t = 0) :
    ∃ s, p = s * (q0 * (q3 * (q13 * q15))) := by
  have d0 := dvd_of_seen i0 h h0 hp
  have d3 := dvd_of_seen i3 (by rw [← h]; congr 1; ring) h3 hp
  have d13 := dvd_of_seen i13 (by rw [← h]; congr 1; ring) h13 hp
  have d15 := dvd_of_seen i15 (by rw [← h]; congr 1; ring) h15 hp
  obtain ⟨s, hs⟩ := (c3.mul_right (c13.mul_right c15)).mul_dvd d0 ((c3_13.mul_right c3_15).mul_dvd d3 (c13_15.mul_dvd d13 d15))
  exact ⟨s, by rw [hs, mul_comm]⟩

theorem big_zero_of (f s p : (ZMod 2)[X]) (v : Nat → ZMod 2) (h : big f v = 0) (hs : p = s * f) : big p v = 0 := by
  rw [hs, big_mul, h, big, map_zero]

theorem track_zero_of (f : (ZMod 2)[X]) (v : Nat → ZMod 2) (h : big f v = 0) (j : Nat) : act f (track j v) = 0 := by
  rw [← track_big, h]
  rfl

/-- The bits in one place determine the run, if the place is one of `goodBits`. -/
theorem track_good {v : Nat → ZMod 2} (hv : Run v) (j : Nat) (hj : j < 128) (hg : goodBits.testBit j = true) (h : track j v = 0) : v = 0 := by
  rcases Nat.eq_zero_or_pos j with rfl | hpos
  · exact track_zero hv h
  obtain ⟨p, -, rfl⟩ := generates hv
  rw [track_big] at h
  obtain ⟨s3, s13, s15, s0⟩ := start_parts j hj
  have hf : act (q0 * (q3 * (q13 * q15))) (track j (runOf start)) = 0 := track_zero_of _ _ (full_part (runOf_run start)) j
  obtain ⟨N, hN⟩ : ∃ N, N = 2 ^ 19937 - 1 := ⟨_, rfl⟩
  obtain ⟨hN, hp⟩ := size N hN
  have c3 := coprime_0 N hN hp q3 7 (by decide) (by decide) dvd_3
  have c13 := coprime_0 N hN hp q13 8191 (by decide) (by decide) dvd_13
  have c15 := coprime_0 N hN hp q15 32767 (by decide) (by decide) dvd_15
  have i0 := irreducible_0 N hN hp
  clear hN hp
  obtain ⟨s, hs⟩ := full_dvd q0 q3 q13 q15 p i0 irreducible_3 irreducible_13 irreducible_15 c3 c13 c15 coprime_3_13 coprime_3_15 coprime_13_15
    _ hf (s0 (by omega)) (s3 hg) s13 s15 h
  exact big_zero_of _ s p _ (full_part (runOf_run start)) hs

/-- 19968 of the bits are enough -/
theorem track_first {v : Nat → ZMod 2} (hv : Run v) (j : Nat) (h : ∀ k < 19968, track j v k = 0) : track j v = 0 := by
  funext k
  refine act_zeros' (pv X (spread full)) degree_full.2.ne_zero _ ?_ (fun i hi => h i (by rw [degree_full.1] at hi; exact hi)) k
  rw [← track_big, full_run hv]
  rfl

/-- the bits in one place can be any -/
theorem track_any (j : Nat) (hj : j < 128) (hg : goodBits.testBit j = true) (b : Nat → ZMod 2) : ∃ v, Run v ∧ ∀ k < 19968, track j v k = b k := by
  let F : (Fin 19968 → ZMod 2) → (Fin 19968 → ZMod 2) := fun f k => track j (big ((degreeLTEquiv (ZMod 2) 19968).symm f) (runOf start)) k
  have hF : Function.Injective F := by
    intro f g h
    have h2 : track j (big (((degreeLTEquiv (ZMod 2) 19968).symm (f - g) : degreeLT (ZMod 2) 19968) : (ZMod 2)[X]) (runOf start)) = 0 := by
      refine track_first ((runOf_run start).big _) j fun k hk => ?_
      rw [map_sub, Submodule.coe_sub, big, map_sub, LinearMap.sub_apply]
      exact sub_eq_zero.mpr (congrFun h ⟨k, hk⟩)
    have h3 := start_free _ (by
      have := mem_degreeLT.mp ((degreeLTEquiv (ZMod 2) 19968).symm (f - g)).2
      exact_mod_cast this) (by rw [← track_big, track_good ((runOf_run start).big _) j hj hg h2]; rfl)
    have h4 : (degreeLTEquiv (ZMod 2) 19968).symm (f - g) = 0 := Subtype.ext h3
    rw [LinearEquiv.map_eq_zero_iff] at h4
    exact sub_eq_zero.mp h4
  obtain ⟨f, hf⟩ := Finite.surjective_of_injective hF fun i => b i
  exact ⟨_, (runOf_run start).big _, fun k hk => congrFun hf ⟨k, hk⟩⟩

end Verif.SfmtPeriod
