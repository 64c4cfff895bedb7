import Verif.Lemmas.Observe
import Verif.Props.MtPeriod
import Mathlib.Algebra.Polynomial.Monic
import Mathlib.Algebra.Polynomial.BigOperators
/-
C108: one bit of each output is enough to determine the state of the Mersenne Twister.
-/
namespace Verif.MtPeriod
open Verif.Spec Polynomial

/-! ### recurrences given by a polynomial -/

theorem act_sum_range (g : (ZMod 2)[X]) (s : Nat → ZMod 2) (k : Nat) :
    act g s k = ∑ i ∈ Finset.range (g.natDegree + 1), g.coeff i * s (k + i) := by
  rw [act, aeval_eq_sum_range, LinearMap.sum_apply, Finset.sum_apply]
  refine Finset.sum_congr rfl fun i _ => ?_
  rw [LinearMap.smul_apply, Pi.smul_apply, shift_pow, smul_eq_mul]

/-- a sequence that starts with as many zeros as the degree is zero -/
theorem act_zeros (g : (ZMod 2)[X]) (hg : g ≠ 0) (s : Nat → ZMod 2) (h : act g s = 0) (h0 : ∀ i < g.natDegree, s i = 0)
    (k : Nat) : s k = 0 := by
  induction k using Nat.strong_induction_on with
  | _ k ih =>
    rcases Nat.lt_or_ge k g.natDegree with hk | hk
    · exact h0 k hk
    · have h1 := congrFun h (k - g.natDegree)
      rw [act_sum_range, Finset.sum_range_succ, Finset.sum_eq_zero, zero_add, Nat.sub_add_cancel hk, Pi.zero_apply] at h1
      · rcases mul_eq_zero.mp h1 with h2 | h2
        · exact absurd (leadingCoeff_eq_zero.mp h2) hg
        · exact h2
      · intro i hi
        rw [Finset.mem_range] at hi
        rw [ih _ (by omega), mul_zero]

theorem natDegree_lag : lag.natDegree = 624 ∧ lag ≠ 0 := by
  have : lag.natDegree = 624 := by
    rw [lag, terms]
    compute_degree!
  exact ⟨this, fun h => by rw [h, natDegree_zero] at this; omega⟩

theorem natDegree_elim (c : Nat → ZMod 2) (j : Nat) : (elim lag c j).natDegree = 624 * j ∧ elim lag c j ≠ 0 := by
  induction j with
  | zero => exact ⟨natDegree_one, one_ne_zero⟩
  | succ j ih =>
    have h1 : (lag * elim lag c j).natDegree = 624 * (j + 1) := by
      rw [natDegree_mul natDegree_lag.2 ih.2, natDegree_lag.1, ih.1]; ring
    have h2 : (C (c j) * X ^ min (j + 1) 31).natDegree ≤ j + 1 := by
      refine (natDegree_C_mul_X_pow_le _ _).trans (Nat.min_le_left _ _)
    have h3 : (elim lag c (j + 1)).natDegree = 624 * (j + 1) := by
      rw [elim, natDegree_add_eq_left_of_natDegree_lt (by rw [h1]; omega), h1]
    exact ⟨h3, fun h => by rw [h, natDegree_zero] at h3; omega⟩

/-- the minimal polynomial has degree 19937 -/
theorem natDegree_minpol (g : (ZMod 2)[X]) (hg : elim lag coef 32 = X ^ 31 * g) : g.natDegree = 19937 ∧ g ≠ 0 := by
  obtain ⟨h1, h2⟩ := natDegree_elim coef 32
  have h3 : g ≠ 0 := fun h => h2 (by rw [hg, h, mul_zero])
  rw [hg, natDegree_mul (pow_ne_zero _ X_ne_zero) h3, natDegree_X_pow] at h1
  exact ⟨by omega, h3⟩

/-! ### a bit of the output -/

theorem twist_xor (u v u' v' : BitVec 32) : mtTwist (u ^^^ u') (v ^^^ v') = mtTwist u v ^^^ mtTwist u' v' := by
  apply BitVec.eq_of_getLsbD_eq
  intro j hj
  apply z_inj
  rw [BitVec.getLsbD_xor, z_xor, twist_bit _ _ j hj, twist_bit _ _ j hj, twist_bit _ _ j hj]
  simp only [BitVec.getLsbD_xor, z_xor]
  split_ifs <;> ring

theorem temper_xor (a b : BitVec 32) : Mt.temper (a ^^^ b) = Mt.temper a ^^^ Mt.temper b := by
  have hr : ∀ (c : Nat) (a b : BitVec 32), (a ^^^ b) ^^^ ((a ^^^ b) >>> c) = (a ^^^ (a >>> c)) ^^^ (b ^^^ (b >>> c)) := by
    intro c a b
    rw [BitVec.ushiftRight_xor_distrib]
    generalize a >>> c = a1, b >>> c = b1
    ac_rfl
  have hl : ∀ (c : Nat) (m a b : BitVec 32),
      (a ^^^ b) ^^^ (((a ^^^ b) <<< c) &&& m) = (a ^^^ ((a <<< c) &&& m)) ^^^ (b ^^^ ((b <<< c) &&& m)) := by
    intro c m a b
    have hm : ∀ u v : BitVec 32, (u ^^^ v) &&& m = (u &&& m) ^^^ (v &&& m) := by
      intro u v
      apply BitVec.eq_of_getLsbD_eq
      intro i _
      simp only [BitVec.getLsbD_and, BitVec.getLsbD_xor, Bool.and_xor_distrib_right]
    rw [BitVec.shiftLeft_xor_distrib, hm]
    generalize (a <<< c) &&& m = a1, (b <<< c) &&& m = b1
    ac_rfl
  simp only [Mt.temper, hr, hl]

/-- bit `j` of the output that a word gives -/
def seen (j : Nat) : Gf2.X 32 →+ ZMod 2 where
  toFun w := z ((Mt.temper w.bits).getLsbD j)
  map_zero' := by
    change z ((Mt.temper 0).getLsbD j) = 0
    rw [show Mt.temper 0 = 0#32 by decide, BitVec.getLsbD_zero]; rfl
  map_add' a b := by
    change z ((Mt.temper (a.bits ^^^ b.bits)).getLsbD j) = _
    rw [temper_xor, BitVec.getLsbD_xor, z_xor]

/-- a linear function of a word is a combination of its bits -/
theorem combination (f : Gf2.X 32 →+ ZMod 2) :
    ∃ c : Nat → ZMod 2, ∀ w, f w = ∑ i ∈ Finset.range 32, c i * z (w.bits.getLsbD i) := by
  refine ⟨fun i => f (Gf2.X.of (BitVec.twoPow 32 i)), fun w => ?_⟩
  have h := Gf2.X.hom_eq_zero
    (f - ∑ i ∈ Finset.range 32, (AddMonoidHom.mulLeft (f (Gf2.X.of (BitVec.twoPow 32 i)))).comp (Observe.bitHom 32 i)) (fun i hi => by
      rw [AddMonoidHom.sub_apply, AddMonoidHom.finsetSum_apply, sub_eq_zero, Finset.sum_eq_single i]
      · change _ = _ * Observe.z ((BitVec.twoPow 32 i).getLsbD i)
        rw [BitVec.getLsbD_twoPow]
        simp [hi, Observe.z]
      · intro k _ hk
        change _ * Observe.z ((BitVec.twoPow 32 i).getLsbD k) = 0
        rw [BitVec.getLsbD_twoPow]
        simp [Observe.z, Ne.symm hk]
      · intro h
        exact absurd (Finset.mem_range.mpr hi) h)
  have h1 := DFunLike.congr_fun h w
  rw [AddMonoidHom.sub_apply, AddMonoidHom.finsetSum_apply, AddMonoidHom.zero_apply, sub_eq_zero] at h1
  exact h1

section words
variable {x : Nat → BitVec 32} (hx : ∀ k, x (k + 624) = x (k + 397) ^^^ mtTwist (x k) (x (k + 1)))
include hx

theorem act_bits (g : (ZMod 2)[X]) (hg : elim lag coef 32 = X ^ 31 * g) (j : Nat) (hj : j < 32) :
    act g (fun k => z ((x (k + 61)).getLsbD j)) = 0 := by
  have h := bits_any hx g g hg dvd_rfl j hj
  have h1 := congrArg (act (X ^ (30 - min j 30))) h
  rw [act_zero, act_comm] at h1
  refine Eq.trans (congrArg (act g) (funext fun k => ?_)) h1
  rw [act_X_pow, act_X_pow, act_X_pow, bits]
  have := Nat.min_le_right j 30
  rw [show k + (30 - min j 30) + 31 + min j 30 = k + 61 by omega]

theorem act_seen (g : (ZMod 2)[X]) (hg : elim lag coef 32 = X ^ 31 * g) (j : Nat) :
    act g (fun k => seen j (Gf2.X.of (x (k + 61)))) = 0 := by
  obtain ⟨c, hc⟩ := combination (seen j)
  have e : (fun k => seen j (Gf2.X.of (x (k + 61)))) = ∑ i ∈ Finset.range 32, c i • (fun k => z ((x (k + 61)).getLsbD i)) := by
    funext k
    rw [hc, Finset.sum_apply]
    rfl
  rw [e, act, map_sum]
  refine Finset.sum_eq_zero fun i hi => ?_
  rw [map_smul]
  have := act_bits hx g hg i (Finset.mem_range.mp hi)
  rw [act] at this
  rw [this, smul_zero]

/-- 19937 zero bits in a row come from the zero sequence only -/
theorem seen_zero (j : Nat) (hj : j < 32) (h : ∀ i < 19937, seen j (Gf2.X.of (x (i + 61))) = 0) (k : Nat) (hk : 0 < k) : x k = 0 := by
  by_contra hne
  obtain ⟨g, hg, -⟩ := exists_minpol
  obtain ⟨hd, hg0⟩ := natDegree_minpol g hg
  have hz : ∀ i, seen j (Gf2.X.of (x (i + 61))) = 0 :=
    act_zeros g hg0 _ (act_seen hx g hg j) (fun i hi => h i (by rwa [hd] at hi))
  obtain ⟨N, hN⟩ : ∃ N, N = 2 ^ 19937 - 1 := ⟨_, rfl⟩
  obtain ⟨h1, h2⟩ := size N hN
  clear hN
  obtain ⟨v, hv⟩ := Mt.C17_temper_bijective.2.2 (BitVec.twoPow 32 j)
  have hv0 : v ≠ 0 := by
    rintro rfl
    have := congrArg (fun w => w.getLsbD j) hv
    simp only [show Mt.temper 0 = 0#32 by decide, BitVec.getLsbD_zero, BitVec.getLsbD_twoPow] at this
    simp [hj] at this
  obtain ⟨a, ha⟩ := (window_bij hx h1 h2 ⟨k, hk, hne⟩ 61).2 ⟨(0, fun _ => v), fun h => hv0 (congrFun (congrArg Prod.snd h) 0)⟩
  clear h1
  have h3 : x (61 + a + 1 + (0 : Fin 623).val) = v := congrFun (congrArg (fun w => w.1.2) ha) 0
  have h4 := hz (a + 1)
  rw [show a.val + 1 + 61 = 61 + a + 1 + (0 : Fin 623).val by simp; omega, h3] at h4
  change z ((Mt.temper v).getLsbD j) = 0 at h4
  rw [hv, BitVec.getLsbD_twoPow] at h4
  simp [hj, z] at h4

end words

/-- two sequences that agree in one bit of 19937 outputs are the same -/
theorem seen_inj {x y : Nat → BitVec 32} (hx : ∀ k, x (k + 624) = x (k + 397) ^^^ mtTwist (x k) (x (k + 1)))
    (hy : ∀ k, y (k + 624) = y (k + 397) ^^^ mtTwist (y k) (y (k + 1))) (j : Nat) (hj : j < 32)
    (h : ∀ i < 19937, (Mt.temper (x (i + 61))).getLsbD j = (Mt.temper (y (i + 61))).getLsbD j) (k : Nat) (hk : 0 < k) :
    x k = y k := by
  have hd : ∀ k, x (k + 624) ^^^ y (k + 624) = x (k + 397) ^^^ y (k + 397) ^^^ mtTwist (x k ^^^ y k) (x (k + 1) ^^^ y (k + 1)) := by
    intro k
    rw [hx, hy, twist_xor]
    ac_rfl
  have h1 := seen_zero (x := fun k => x k ^^^ y k) hd j hj (fun i hi => by
    change z ((Mt.temper (x (i + 61) ^^^ y (i + 61))).getLsbD j) = 0
    rw [temper_xor, BitVec.getLsbD_xor, z_xor, h i hi]
    exact CharTwo.add_self_eq_zero _) k hk
  exact BitVec.xor_eq_zero_iff.mp h1

/-- bit `j` of an output -/
def outBit (junk : Mem) (seed : BitVec 32) (j n : Nat) : Except PyErr Bool := (output junk seed n).map (·.getLsbD j)

theorem outBit_eq (junk : Mem) (seed : BitVec 32) (j n : Nat) :
    outBit junk seed j n = .ok ((Mt.temper (mtSeq seed (624 + n))).getLsbD j) := by
  rw [outBit, output_eq]; rfl

/-- C108 (MT19937): if one bit of 19937 consecutive outputs is the same at two moments, of two generators with any seeds,
then all outputs from there on are the same. -/
theorem C108_mt_determines (junk junk' : Mem) (seed seed' : BitVec 32) (m n : Nat) (j : Nat) (hj : j < 32)
    (h : ∀ i < 19937, outBit junk seed j (m + i) = outBit junk' seed' j (n + i)) (k : Nat) :
    output junk seed (m + k) = output junk' seed' (n + k) := by
  have h1 := seen_inj (x := fun k => mtSeq seed (k + (563 + m))) (y := fun k => mtSeq seed' (k + (563 + n)))
    (fun k => by simpa only [Nat.add_right_comm] using (isMT_mtSeq seed).rec_ (k + (563 + m)))
    (fun k => by simpa only [Nat.add_right_comm] using (isMT_mtSeq seed').rec_ (k + (563 + n))) j hj (fun i hi => by
      have := h i hi
      rw [outBit_eq, outBit_eq] at this
      injection this with this
      rw [show i + 61 + (563 + m) = 624 + (m + i) by omega, show i + 61 + (563 + n) = 624 + (n + i) by omega]
      exact this) (61 + k) (by omega)
  rw [output_eq, output_eq]
  rw [show 61 + k + (563 + m) = 624 + (m + k) by omega, show 61 + k + (563 + n) = 624 + (n + k) by omega] at h1
  rw [h1]

theorem card_patterns : Nat.card (Fin 19937 → Bool) = 2 ^ 19937 := by
  rw [Nat.card_fun, Nat.card_fin, Nat.card_eq_fintype_card, Fintype.card_bool]

/-- C108 (MT19937): in every seed's stream, for every bit `j` of the outputs, among any 2^19937 - 1 consecutive positions
every pattern that the bit can show in 19937 consecutive outputs occurs exactly once, except 19937 zeros, which never
occur. -/
theorem C108_mt_patterns (junk : Mem) (seed : BitVec 32) (N : Nat) (hN : N = 2 ^ 19937 - 1) (m j : Nat) (hj : j < 32)
    (b : Fin 19937 → Bool) :
    { n | n < N ∧ ∀ i : Fin 19937, outBit junk seed j (m + n + i) = .ok (b i) }.ncard
      = if ∀ i, b i = false then 0 else 1 := by
  obtain ⟨h1, h2⟩ := size N hN
  clear h2
  let f : Nat → Fin 19937 → Bool := fun n i => (Mt.temper (mtSeq seed (624 + (m + n + i)))).getLsbD j
  have hf : ∀ n, (∀ i : Fin 19937, outBit junk seed j (m + n + i) = .ok (b i)) ↔ f n = b := by
    intro n
    rw [funext_iff]
    refine forall_congr' fun i => ?_
    rw [outBit_eq]
    exact ⟨fun h => by injection h, fun h => congrArg _ h⟩
  have hinj : ∀ k l, k < l → l < N → f k ≠ f l := by
    intro k l hkl hl h
    have h3 := C108_mt_determines junk junk seed seed (m + k) (m + l) j hj (fun i hi => by
      rw [outBit_eq, outBit_eq]
      exact congrArg _ (congrFun h ⟨i, hi⟩))
    obtain ⟨n, hn⟩ := C100_distinct junk seed N hN (m + k) (m + l) (by clear hN h1; omega) (by clear hN h1; omega)
    exact hn (h3 n)
  clear hN
  have hne : ∀ n, f n ≠ fun _ => false := by
    intro n h
    obtain ⟨k, hk, h3⟩ := seq_ne seed
    have h4 := seen_zero (x := fun k => mtSeq seed (k + (563 + (m + n))))
      (fun k => by simpa only [Nat.add_right_comm] using (isMT_mtSeq seed).rec_ (k + (563 + (m + n)))) j hj (fun i hi => by
        have := congrFun h ⟨i, hi⟩
        change z ((Mt.temper (mtSeq seed (i + 61 + (563 + (m + n))))).getLsbD j) = 0
        rw [show i + 61 + (563 + (m + n)) = 624 + (m + n + i) by omega]
        exact congrArg z this)
    refine h3 (zero_back (isMT_mtSeq seed).rec_ (564 + (m + n)) (by omega) (fun i hi => ?_) k hk)
    have := h4 (i - (563 + (m + n))) (by omega)
    rwa [Nat.sub_add_cancel (by omega)] at this
  have hbij : Function.Bijective (fun a : Fin N => (⟨f a, hne a⟩ : { w : Fin 19937 → Bool // w ≠ fun _ => false })) := by
    refine Function.Injective.bijective_of_nat_card_le ?_ ?_
    · intro a c h
      have h := congrArg Subtype.val h
      rcases Nat.lt_trichotomy a.val c.val with h3 | h3 | h3
      · exact (hinj a c h3 c.isLt h).elim
      · exact Fin.ext h3
      · exact (hinj c a h3 a.isLt h.symm).elim
    · have h3 := Set.ncard_compl ({fun _ => false} : Set (Fin 19937 → Bool))
      rw [card_patterns, ← h1, Set.ncard_singleton] at h3
      rw [Nat.card_fin]
      exact le_of_eq h3
  clear h1
  split_ifs with hb
  · rw [Set.ncard_eq_zero (Set.Finite.subset (Set.finite_lt_nat N) fun n h => h.1), Set.eq_empty_iff_forall_notMem]
    rintro n ⟨-, h⟩
    exact hne n (((hf n).1 h).trans (funext hb))
  · obtain ⟨a, ha, hu⟩ := hbij.existsUnique ⟨b, fun h => hb (fun i => congrFun h i)⟩
    rw [Set.ncard_eq_one]
    refine ⟨a, Set.ext fun n => ⟨?_, ?_⟩⟩
    · rintro ⟨hn, h⟩
      have := hu ⟨n, hn⟩ (Subtype.ext ((hf n).1 h))
      exact congrArg Fin.val this
    · rintro rfl
      exact ⟨a.isLt, (hf a).2 (congrArg Subtype.val ha)⟩

/- the hypothesis of `C108_mt_determines` with two different moments: a period apart -/
example (junk : Mem) (seed : BitVec 32) (N : Nat) (hN : N = 2 ^ 19937 - 1) :
    ∀ i < 19937, outBit junk seed 31 (7 + N + i) = outBit junk seed 31 (7 + i) := fun i _ => by
  rw [outBit, outBit, Nat.add_right_comm, C99_period junk seed (7 + i) N hN]

end Verif.MtPeriod
