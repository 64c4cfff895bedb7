import Verif.Props.Xorshift128
/-
C29: float draws for any minimum.
-/
namespace Verif.Fp

/-- neighbouring numbers of 24 bits are at least `2^-24` of the larger one apart -/
theorem gap {a b : ℚ} (ha : IsFp 24 a) (hb : IsFp 24 b) (h0 : 0 ≤ a) (h : a < b) : b / 2 ^ 24 ≤ b - a := by
  obtain ⟨m, i, hm, rfl⟩ := ha
  obtain ⟨n, j, hn, rfl⟩ := hb
  have hm' := (abs_le.mp hm).2
  have hn' := (abs_le.mp hn).2
  rcases Int.le_total j i with hij | hij
  · obtain ⟨t, rfl⟩ : ∃ t : ℕ, i = j + t := ⟨(i - j).toNat, by omega⟩
    have hq := two_zpow_pos j
    rw [zpow_add₀ (by norm_num), zpow_natCast] at h ⊢
    have e : (n : ℚ) * 2 ^ j - m * (2 ^ j * 2 ^ t) = ((n - m * 2 ^ t : ℤ) : ℚ) * 2 ^ j := by push_cast; ring
    rw [e]
    have hpos : (0 : ℚ) < ((n - m * 2 ^ t : ℤ) : ℚ) * 2 ^ j := by rw [← e]; linarith
    have h1 : 0 < n - m * 2 ^ t := by exact_mod_cast pos_of_mul_pos_left hpos hq.le
    have h2 : (1 : ℚ) ≤ ((n - m * 2 ^ t : ℤ) : ℚ) := by exact_mod_cast h1
    have h3 : (n : ℚ) / 2 ^ 24 ≤ 1 := by rw [div_le_one (by norm_num)]; exact_mod_cast hn'
    calc (n : ℚ) * 2 ^ j / 2 ^ 24 = (n : ℚ) / 2 ^ 24 * 2 ^ j := by ring
      _ ≤ 1 * 2 ^ j := by gcongr
      _ ≤ _ := by gcongr
  · obtain ⟨t, rfl⟩ : ∃ t : ℕ, j = i + t := ⟨(j - i).toNat, by omega⟩
    have hq := two_zpow_pos i
    rw [zpow_add₀ (by norm_num), zpow_natCast] at h ⊢
    have hlt : (m : ℚ) < ((n * 2 ^ t : ℤ) : ℚ) := by
      push_cast
      refine lt_of_mul_lt_mul_right (a := (2 : ℚ) ^ i) ?_ hq.le
      linarith [h]
    have hlt : m < n * 2 ^ t := by exact_mod_cast hlt
    have hm0 : 0 ≤ m := by
      have := nonneg_of_mul_nonneg_left h0 hq
      exact_mod_cast this
    have key : n * 2 ^ t ≤ (n * 2 ^ t - m) * 2 ^ 24 := by
      have ht : (0 : ℤ) < 2 ^ t := by positivity
      have hn1 : 1 ≤ n := by
        by_contra hc
        have : n * 2 ^ t ≤ 0 := mul_nonpos_of_nonpos_of_nonneg (by omega) ht.le
        omega
      rcases Nat.lt_or_ge 24 t with h24 | h24
      · have h25 : (2 : ℤ) ^ 25 ≤ 2 ^ t := by exact_mod_cast Nat.pow_le_pow_right (by norm_num) h24
        have : (2 : ℤ) ^ t ≤ n * 2 ^ t := by nlinarith
        nlinarith
      · obtain ⟨r, hr⟩ : ∃ r, 24 = t + r := ⟨24 - t, by omega⟩
        have hs : (2 : ℤ) ^ 24 = 2 ^ r * 2 ^ t := by rw [hr, pow_add]; ring
        rcases Int.lt_or_le (2 ^ 24) (n * 2 ^ t) with hb | hb
        · have h1 : (2 ^ r : ℤ) < n := by
            rw [hs] at hb
            exact lt_of_mul_lt_mul_right hb ht.le
          have h2 : (2 : ℤ) ^ 24 + 2 ^ t ≤ n * 2 ^ t := by
            rw [hs]; nlinarith
          have h3 : (2 : ℤ) ^ t ≤ n * 2 ^ t - m := by linarith
          nlinarith
        · omega
    have key' : ((n * 2 ^ t : ℤ) : ℚ) ≤ ((n * 2 ^ t - m : ℤ) : ℚ) * 2 ^ 24 := by exact_mod_cast key
    rw [div_le_iff₀ (by norm_num)]
    push_cast at key'
    calc (n : ℚ) * (2 ^ i * 2 ^ t) = (n * 2 ^ t) * 2 ^ i := by ring
      _ ≤ ((n * 2 ^ t - m) * 2 ^ 24) * 2 ^ i := by gcongr
      _ = _ := by ring

/-- A product with the lower bound, rounded, does not pass the product with the upper bound. -/
theorem rnd_mul_le {f lo hi : ℚ} (hf : 0 ≤ f) (hlo : IsFp 24 lo) (hhi : IsFp 24 hi) (h : lo < hi) :
    rnd 24 (f * lo) ≤ f * hi := by
  have he := abs_le.mp (rnd_err 24 (f * lo))
  rcases lt_or_ge 0 lo with h0 | h0
  · have g := gap hlo hhi h0.le h
    have : |f * lo| = f * lo := abs_of_nonneg (by positivity)
    rw [this] at he
    have h1 : f * lo / 2 ^ 24 ≤ f * (hi - lo) := by
      calc f * lo / 2 ^ 24 ≤ f * hi / 2 ^ 24 := by gcongr
        _ = f * (hi / 2 ^ 24) := by ring
        _ ≤ _ := by gcongr
    linarith
  rcases le_or_gt 0 hi with h1 | h1
  · have := rnd_mono (p := 24) (by omega) (x := f * lo) (y := 0) (mul_nonpos_of_nonneg_of_nonpos hf h0)
    rw [rnd_zero] at this
    exact this.trans (by positivity)
  · have neg : ∀ {x : ℚ}, IsFp 24 x → IsFp 24 (-x) := by
      rintro x ⟨m, e, hm, rfl⟩
      exact ⟨-m, e, by rwa [abs_neg], by push_cast; ring⟩
    have g := gap (neg hhi) (neg hlo) (by linarith) (by linarith : -hi < -lo)
    have : |f * lo| = f * -lo := by rw [abs_of_nonpos (mul_nonpos_of_nonneg_of_nonpos hf h0)]; ring
    rw [this] at he
    have h2 : f * -lo / 2 ^ 24 ≤ f * (hi - lo) := by
      calc f * -lo / 2 ^ 24 = f * (-lo / 2 ^ 24) := by ring
        _ ≤ f * (-lo - -hi) := by gcongr
        _ = _ := by ring
    linarith

/-- an even integer is the nearest one up to half above it -/
theorem rne_tie {q : ℚ} {H : ℤ} (he : H % 2 = 0) (h1 : (H : ℚ) ≤ q) (h2 : q ≤ H + 1 / 2) : rne q = H := by
  have hf : ⌊q⌋ = H := Int.floor_eq_iff.mpr ⟨h1, by linarith⟩
  unfold rne
  rw [hf, if_neg (c := 1 / 2 < q - H) (by linarith), if_pos he]
  split <;> rfl

/-- A number at most half a unit above one with 24 bits is rounded down to it. -/
theorem rnd_near {hi z : ℚ} (hhi : IsFp 24 hi) (hz : z ≠ 0) (h1 : hi < z) (h2 : z - hi ≤ 2 ^ ulpExp 53 z / 2) :
    rnd 53 z = hi := by
  obtain ⟨n, d, hn, rfl⟩ := hhi
  have hL := (log_bounds hz).1
  rw [rnd, if_neg hz]
  generalize hu : ulpExp 53 z = u at h2 ⊢
  have hv := two_zpow_pos u
  have e52 : (2 : ℚ) ^ Int.log 2 |z| = 2 ^ 52 * 2 ^ u := by
    rw [← hu, ulpExp, ← zpow_natCast, ← zpow_add₀ (by norm_num)]
    congr 1
    push_cast; ring
  rw [e52] at hL
  have habs : |z| ≤ |(n : ℚ) * 2 ^ d| + 2 ^ u / 2 := by
    have := abs_add_le (z - n * 2 ^ d) (n * 2 ^ d)
    rw [sub_add_cancel, abs_of_pos (by linarith : (0 : ℚ) < z - n * 2 ^ d)] at this
    linarith
  have hd0 := two_zpow_pos d
  have hnd : |(n : ℚ) * 2 ^ d| ≤ 2 ^ 24 * 2 ^ d := by
    rw [abs_mul, abs_of_pos hd0]
    gcongr
    exact_mod_cast hn
  have hlt : (2 : ℚ) ^ u < 2 ^ d := by
    have := hL.trans (habs.trans (add_le_add_left hnd _))
    norm_num at this
    linarith
  have hud : u < d := (zpow_lt_zpow_iff_right₀ (by norm_num)).mp hlt
  obtain ⟨t, rfl⟩ : ∃ t : ℕ, d = u + (t + 1 : ℕ) := ⟨(d - u - 1).toNat, by omega⟩
  have eH : (n : ℚ) * 2 ^ (u + (t + 1 : ℕ)) = ((n * 2 ^ (t + 1) : ℤ) : ℚ) * 2 ^ u := by
    rw [zpow_add₀ (by norm_num), zpow_natCast]
    push_cast; ring
  rw [eH] at h1 h2 ⊢
  rw [rne_tie (H := n * 2 ^ (t + 1)) (by rw [pow_succ, ← mul_assoc]; exact Int.mul_emod_left _ _)]
  · rw [le_div_iff₀ hv]; exact h1.le
  · rw [div_le_iff₀ hv]; linarith

end Verif.Fp

namespace Verif.Xorshift128
open Fp

/-- the fraction has at most 46 places -/
theorem frac_grid (k : ℕ) (h0 : 1 ≤ k) : ∃ M : ℤ, rnd 24 ((k : ℚ) / 0x7FFFFF) = M * 2 ^ (-46 : ℤ) := by
  have hx : (0 : ℚ) < (k : ℚ) / 0x7FFFFF := by positivity
  have hk : (1 : ℚ) ≤ k := by exact_mod_cast h0
  have hl : -23 ≤ Int.log 2 ((k : ℚ) / 0x7FFFFF) := by
    rw [← Int.zpow_le_iff_le_log (by norm_num) hx, le_div_iff₀ (by norm_num)]
    norm_num
    linarith
  rw [rnd, if_neg hx.ne']
  have hu : -46 ≤ ulpExp 24 ((k : ℚ) / 0x7FFFFF) := by
    rw [ulpExp, abs_of_pos hx]; push_cast; omega
  generalize ulpExp 24 ((k : ℚ) / 0x7FFFFF) = u at hu ⊢
  obtain ⟨t, rfl⟩ : ∃ t : ℕ, u = -46 + t := ⟨(u + 46).toNat, by omega⟩
  refine ⟨rne ((k : ℚ) / 0x7FFFFF / 2 ^ (-46 + (t : ℤ))) * 2 ^ t, ?_⟩
  rw [zpow_add₀ (by norm_num) (-46), zpow_natCast]
  push_cast; ring

/-- so the other fraction is exact -/
theorem frac_compl (k : ℕ) (h0 : 1 ≤ k) (hk : k ≤ 0x7FFFFF) :
    rnd 53 (1 - rnd 24 ((k : ℚ) / 0x7FFFFF)) = 1 - rnd 24 ((k : ℚ) / 0x7FFFFF) := by
  obtain ⟨f0, f1, _⟩ := frac_bounds k hk
  obtain ⟨M, hM⟩ := frac_grid k h0
  rw [hM] at f0 f1 ⊢
  refine rnd_fix (by omega) ⟨2 ^ 46 - M, -46, ?_, ?_⟩
  · have hq := two_zpow_pos (-46)
    have m0 : (0 : ℚ) ≤ M := nonneg_of_mul_nonneg_left f0 hq
    have m0 : 0 ≤ M := by exact_mod_cast m0
    have m1 : (M : ℚ) ≤ 2 ^ 46 := by
      rw [show (2 : ℚ) ^ (-46 : ℤ) = 1 / 2 ^ 46 by norm_num] at f1
      rw [mul_one_div, div_le_one (by norm_num)] at f1
      exact f1
    have m1 : M ≤ 2 ^ 46 := by exact_mod_cast m1
    rw [abs_of_nonneg (by omega)]
    omega
  · push_cast
    norm_num
    ring

/-- **C29** (partial: only the upper bound, and closed): whatever the bounds, no draw is above `maximum`. -/
theorem C29_never_above_partial (mode : Mode) (s : State) (lo hi : ℚ) (hlo : IsFp 24 lo) (hhi : IsFp 24 hi) (h : lo < hi) :
    (nextFloatRandrange mode s lo hi).2 ≤ hi := by
  by_cases hz : (next mode s).2 &&& 0x7FFFFF = 0
  · exact (C29_maximum_reached mode s lo hi hhi hz).le
  simp only [nextFloatRandrange]
  generalize hk : (next mode s).2 &&& 0x7FFFFF = k at hz ⊢
  have hk1 : k.toNat ≤ 0x7FFFFF := by
    rw [← hk, BitVec.toNat_and]; exact Nat.and_le_right
  have hk0 : k.toNat ≠ 0 := fun h' => hz (BitVec.eq_of_toNat_eq (by simpa using h'))
  obtain ⟨f0, f1, f2⟩ := frac_bounds k.toNat hk1
  have f2 := f2 hk0
  rw [frac_compl k.toNat (by omega) hk1]
  generalize rnd 24 ((k.toNat : ℚ) / 0x7FFFFF) = f at f0 f1 f2 ⊢
  have hA := rnd_mul_le f0 hlo hhi h
  have h53 : rnd 53 hi = hi := rnd_fix (by omega) (isFp_mono (by omega) hhi)
  generalize hz : rnd 24 (f * lo) + rnd 53 ((1 - f) * hi) = z
  rcases le_or_gt z hi with hle | hgt
  · have := rnd_mono (p := 53) (by omega) hle
    rwa [h53] at this
  have e1 := rnd_err_ulp 53 ((1 - f) * hi)
  have e2 := rnd_err 53 ((1 - f) * hi)
  have e1' := (abs_le.mp e1).2
  have e2' := (abs_le.mp e2).2
  by_cases hy : (1 - f) * hi = 0
  · rw [hy, rnd_zero] at hz
    linarith
  have hyz : |(1 - f) * hi| ≤ |z| := by
    rw [abs_mul, abs_of_nonneg (by linarith : 0 ≤ 1 - f)] at e2' ⊢
    rcases le_or_gt 0 hi with h0 | h0
    · rw [abs_of_nonneg h0, abs_of_nonneg (by linarith)]
      nlinarith
    · rw [abs_of_neg h0] at e2' ⊢
      refine le_trans ?_ (neg_le_abs z)
      have : z ≤ hi + (1 - f) * -hi / 2 ^ 53 := by linarith
      have h3 : (1 - f) * -hi ≤ (1 - 1 / 2 ^ 23) * -hi := by
        apply mul_le_mul_of_nonneg_right <;> linarith
      norm_num at h3 this ⊢
      linarith
  have hz0 : z ≠ 0 := fun h => by
    rw [h, abs_zero] at hyz
    exact hy (abs_nonpos_iff.mp hyz)
  refine (rnd_near hhi hz0 hgt ?_).le
  have hu : (2 : ℚ) ^ ulpExp 53 ((1 - f) * hi) ≤ 2 ^ ulpExp 53 z := by
    apply zpow_le_zpow_right₀ (by norm_num)
    unfold ulpExp
    have := Int.log_mono_right (b := 2) (abs_pos.mpr hy) hyz
    omega
  linarith

/-- **C29** (partial: `maximum - minimum ≥ |minimum|`, that is `minimum ≤ 0 ≤ maximum` or `maximum ≥ 2 * minimum ≥ 0`;
and a draw whose low 23 bits are not all zero): the value lies in the interval. -/
theorem C29_interval_partial (mode : Mode) (s : State) (lo hi : ℚ) (hlo : IsFp 24 lo) (h : lo < hi)
    (hD : |lo| ≤ hi - lo) (hz : (next mode s).2 &&& 0x7FFFFF ≠ 0) :
    lo ≤ (nextFloatRandrange mode s lo hi).2 ∧ (nextFloatRandrange mode s lo hi).2 < hi := by
  by_cases hm : (next mode s).2 &&& 0x7FFFFF = 0x7FFFFF
  · rw [C29_minimum_reached mode s lo hi hlo hm]
    exact ⟨le_refl _, h⟩
  simp only [nextFloatRandrange]
  generalize hk : (next mode s).2 &&& 0x7FFFFF = k at hz hm ⊢
  have hk1 : k.toNat ≤ 0x7FFFFF := by
    rw [← hk, BitVec.toNat_and]; exact Nat.and_le_right
  have hk0 : k.toNat ≠ 0 := fun h' => hz (BitVec.eq_of_toNat_eq (by simpa using h'))
  have hk2 : k.toNat ≤ 0x7FFFFE := by
    have : k.toNat ≠ 0x7FFFFF := fun h' => hm (BitVec.eq_of_toNat_eq (by simpa using h'))
    omega
  obtain ⟨f0, -, f2⟩ := frac_bounds k.toNat hk1
  have f2 := f2 hk0
  have f1 : rnd 24 ((k.toNat : ℚ) / 0x7FFFFF) ≤ 1 - 1 / 2 ^ 23 := by
    have hq : (k.toNat : ℚ) ≤ 0x7FFFFE := by exact_mod_cast hk2
    have hfix : IsFp 24 ((1 : ℚ) - 1 / 2 ^ 23) := ⟨2 ^ 23 - 1, -23, by norm_num, by norm_num⟩
    have := rnd_mono (p := 24) (by omega) (x := (k.toNat : ℚ) / 0x7FFFFF) (y := 1 - 1 / 2 ^ 23)
      (by rw [div_le_iff₀ (by norm_num)]; norm_num; linarith)
    rwa [rnd_fix (by omega) hfix] at this
  rw [frac_compl k.toNat (by omega) hk1]
  generalize rnd 24 ((k.toNat : ℚ) / 0x7FFFFF) = f at f0 f1 f2 ⊢
  have a1 := rnd_err 24 (f * lo)
  have a2 := rnd_err 53 ((1 - f) * hi)
  rw [abs_mul, abs_of_nonneg f0] at a1
  rw [abs_mul (1 - f), abs_of_nonneg (by norm_num at f1; linarith : 0 ≤ 1 - f)] at a2
  obtain ⟨a11, a12⟩ := abs_le.mp a1
  obtain ⟨a21, a22⟩ := abs_le.mp a2
  have hD0 : 0 < hi - lo := by linarith
  have hh : |hi| ≤ 2 * (hi - lo) := by
    have := abs_add_le (hi - lo) lo
    rw [sub_add_cancel, abs_of_pos hD0] at this
    linarith
  generalize rnd 24 (f * lo) = A at *
  generalize rnd 53 ((1 - f) * hi) = B at *
  have b1 : f * |lo| / 2 ^ 24 ≤ f * (hi - lo) / 2 ^ 24 := by gcongr
  have hg : 1 / 2 ^ 23 ≤ 1 - f := by linarith
  have b2 : (1 - f) * |hi| / 2 ^ 53 ≤ (1 - f) * (hi - lo) / 2 ^ 52 := by
    have : 0 ≤ 1 - f := le_trans (by norm_num) hg
    calc (1 - f) * |hi| / 2 ^ 53 ≤ (1 - f) * (2 * (hi - lo)) / 2 ^ 53 := by gcongr
      _ = _ := by ring
  have c1 : 1 / 2 ^ 23 * (hi - lo) ≤ f * (hi - lo) := by gcongr
  have c2 : 1 / 2 ^ 23 * (hi - lo) ≤ (1 - f) * (hi - lo) := by gcongr
  have hd : hi - lo = f * (hi - lo) + (1 - f) * (hi - lo) := by ring
  have hl : f * lo + (1 - f) * hi = lo + (1 - f) * (hi - lo) := by ring
  have hu : f * lo + (1 - f) * hi = hi - f * (hi - lo) := by ring
  generalize f * (hi - lo) = P at *
  generalize (1 - f) * (hi - lo) = Q at *
  constructor
  · have hAB : lo ≤ A + B := by
      norm_num at *
      linarith
    have := rnd_mono (p := 53) (by omega) hAB
    rwa [rnd_fix (by omega) (isFp_mono (by omega) hlo)] at this
  · have hAB : A + B ≤ hi - (hi - lo) / 2 ^ 24 := by
      norm_num at *
      linarith
    refine lt_of_le_of_lt (rnd_mono (p := 53) (by omega) hAB) ?_
    have e := (abs_le.mp (rnd_err 53 (hi - (hi - lo) / 2 ^ 24))).2
    have hw : |hi - (hi - lo) / 2 ^ 24| ≤ 3 * (hi - lo) := by
      have := abs_sub hi ((hi - lo) / 2 ^ 24)
      rw [abs_of_pos (by positivity : 0 < (hi - lo) / 2 ^ 24)] at this
      norm_num at this ⊢
      linarith
    have hw' : |hi - (hi - lo) / 2 ^ 24| / 2 ^ 53 ≤ 3 * (hi - lo) / 2 ^ 53 := by gcongr
    generalize rnd 53 (hi - (hi - lo) / 2 ^ 24) = R at *
    generalize |hi - (hi - lo) / 2 ^ 24| / 2 ^ 53 = T at *
    norm_num at *
    linarith

/-- nearest integer -/
theorem rne_near {q : ℚ} {n : ℤ} (h1 : (n : ℚ) - 1 / 2 < q) (h2 : q < n + 1 / 2) : rne q = n := by
  unfold rne
  rcases lt_or_ge q n with h | h
  · have hf : ⌊q⌋ = n - 1 := Int.floor_eq_iff.mpr ⟨by push_cast; linarith, by push_cast; linarith⟩
    rw [hf, if_neg (by push_cast; linarith), if_pos (by push_cast; linarith)]
    omega
  · have hf : ⌊q⌋ = n := Int.floor_eq_iff.mpr ⟨h, by linarith⟩
    rw [hf, if_pos (by linarith)]

theorem log_eq {x : ℚ} (L : ℤ) (hx : 0 < x) (h1 : (2 : ℚ) ^ L ≤ x) (h2 : x < 2 ^ (L + 1)) : Int.log 2 x = L := by
  have a := (Int.zpow_le_iff_le_log (b := 2) (by norm_num) hx).mp h1
  have b := (Int.lt_zpow_iff_log_lt (b := 2) (by norm_num) hx).mp h2
  omega

/-- The condition of `C29_interval_partial` is needed: `next_float_randrange(3, 3.5)` is below 3, namely `3 - 2^-24`, when the
low 23 bits of the draw are `0x7FFFFE`. -/
theorem C29_below_minimum (mode : Mode) (s : State) (h : (next mode s).2 &&& 0x7FFFFF = 0x7FFFFE) :
    (nextFloatRandrange mode s 3 (7 / 2)).2 = 3 - 1 / 2 ^ 24 := by
  simp only [nextFloatRandrange, h]
  rw [show ((0x7FFFFE : BitVec 32).toNat : ℚ) = 0x7FFFFE by norm_cast]
  have e1 : rnd 24 ((0x7FFFFE : ℚ) / 0x7FFFFF) = 1 - 1 / 2 ^ 23 := by
    rw [rnd, if_neg (by norm_num), ulpExp, abs_of_pos (by norm_num), log_eq (-1) (by norm_num) (by norm_num) (by norm_num)]
    rw [rne_near (n := 2 ^ 24 - 2) (by norm_num) (by norm_num)]
    norm_num
  have e2 : rnd 24 ((1 - 1 / 2 ^ 23) * 3) = 3 - 1 / 2 ^ 21 := by
    rw [rnd, if_neg (by norm_num), ulpExp, abs_of_pos (by norm_num), log_eq 1 (by norm_num) (by norm_num) (by norm_num)]
    rw [rne_tie (H := 3 * 2 ^ 22 - 2) (by norm_num) (by norm_num) (by norm_num)]
    norm_num
  have e3 : rnd 53 (1 - (1 - 1 / 2 ^ 23)) = 1 / 2 ^ 23 := by
    rw [rnd_fix (by omega) ⟨1, -23, by norm_num, by norm_num⟩]; norm_num
  have e4 : rnd 53 (1 / 2 ^ 23 * (7 / 2)) = 7 / 2 ^ 24 := by
    rw [rnd_fix (by omega) ⟨7, -24, by norm_num, by norm_num⟩]; norm_num
  rw [e1, e2, e3, e4, rnd_fix (by omega) ⟨3 * 2 ^ 24 - 1, -24, by norm_num, by norm_num⟩]
  norm_num

example : (next .numba { s0 := 0, s1 := 0, s2 := 0, s3 := 0x7FFFF1 }).2 &&& 0x7FFFFF = 0x7FFFFE := by decide
example : IsFp 24 (-5) ∧ IsFp 24 2 ∧ (-5 : ℚ) < 2 ∧ |(-5 : ℚ)| ≤ 2 - -5 :=
  ⟨⟨-5, 0, by norm_num, by norm_num⟩, ⟨2, 0, by norm_num, by norm_num⟩, by norm_num, by norm_num⟩

end Verif.Xorshift128
