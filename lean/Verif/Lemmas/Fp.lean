import Verif.Model.Fp
import Mathlib.Tactic.Linarith
import Mathlib.Tactic.Ring
import Mathlib.Tactic.Positivity
import Mathlib.Tactic.FieldSimp
import Mathlib.Tactic.NormNum
import Mathlib.Tactic.Zify
import Mathlib.Tactic.Push
/-
Facts about rounding: monotone, odd, identity on representable numbers, relative error at most 2^-p.
-/
namespace Verif.Fp

theorem rne_int (n : ℤ) : rne (n : ℚ) = n := by
  simp [rne]

theorem rne_err (x : ℚ) : |(rne x : ℚ) - x| ≤ 1 / 2 := by
  have h1 := Int.floor_le x
  have h2 := Int.lt_floor_add_one x
  unfold rne
  split
  · rw [abs_le]; constructor <;> linarith
  · split
    · push_cast; rw [abs_le]; constructor <;> linarith
    · split
      · rw [abs_le]; constructor <;> linarith
      · push_cast; rw [abs_le]; constructor <;> linarith

theorem rne_mono {x y : ℚ} (h : x ≤ y) : rne x ≤ rne y := by
  have hf := Int.floor_mono h
  have key : ∀ z : ℚ, ⌊z⌋ ≤ rne z ∧ rne z ≤ ⌊z⌋ + 1 := by
    intro z
    unfold rne
    split
    · omega
    · split
      · omega
      · split <;> omega
  rcases hf.lt_or_eq with hl | he
  · have := (key x).2
    have := (key y).1
    omega
  · unfold rne
    rw [he]
    split <;> split <;> try split
    all_goals try split
    all_goals first
      | omega
      | (exfalso; linarith)

theorem rne_neg (x : ℚ) : rne (-x) = -rne x := by
  by_cases hx : (⌊x⌋ : ℚ) = x
  · have e : x = ((⌊x⌋ : ℤ) : ℚ) := hx.symm
    rw [e, ← Int.cast_neg, rne_int, rne_int]
  · have hfl : ⌊-x⌋ = -⌊x⌋ - 1 := by
      rw [Int.floor_eq_iff]
      have h1 := lt_of_le_of_ne (Int.floor_le x) hx
      have h2 := Int.lt_floor_add_one x
      push_cast
      constructor <;> linarith
    unfold rne
    rw [hfl]
    push_cast
    split <;> split <;> try split
    all_goals try split
    all_goals try split
    all_goals first
      | omega
      | (exfalso; linarith)

theorem two_zpow_pos (e : ℤ) : (0 : ℚ) < 2 ^ e := zpow_pos (by norm_num) e

theorem rnd_zero (p : ℕ) : rnd p 0 = 0 := by simp [rnd]

theorem rnd_neg (p : ℕ) (x : ℚ) : rnd p (-x) = -rnd p x := by
  unfold rnd ulpExp
  by_cases h : x = 0
  · simp [h]
  · simp [h, abs_neg, neg_div, rne_neg]

theorem log_bounds {x : ℚ} (h : x ≠ 0) : (2 : ℚ) ^ Int.log 2 |x| ≤ |x| ∧ |x| < 2 ^ (Int.log 2 |x| + 1) := by
  have := Int.zpow_log_le_self (b := 2) (by norm_num) (abs_pos.mpr h)
  have h2 := Int.lt_zpow_succ_log_self (b := 2) (by norm_num) |x|
  constructor
  · exact_mod_cast this
  · exact_mod_cast h2

/-- rounding error: at most half a unit in the last place -/
theorem rnd_err_ulp (p : ℕ) (x : ℚ) : |rnd p x - x| ≤ 2 ^ (ulpExp p x) / 2 := by
  unfold rnd
  split
  · rename_i h; rw [h]; simp only [sub_self, abs_zero]; have := two_zpow_pos (ulpExp p 0); linarith
  · have hp := two_zpow_pos (ulpExp p x)
    have := rne_err (x / 2 ^ ulpExp p x)
    have e : (rne (x / 2 ^ ulpExp p x) : ℚ) * 2 ^ ulpExp p x - x =
        ((rne (x / 2 ^ ulpExp p x) : ℚ) - x / 2 ^ ulpExp p x) * 2 ^ ulpExp p x := by
      field_simp
    rw [e, abs_mul, abs_of_pos hp]
    have h2 := mul_le_mul_of_nonneg_right this hp.le
    linarith

/-- rounding error relative to the value -/
theorem rnd_err (p : ℕ) (x : ℚ) : |rnd p x - x| ≤ |x| / 2 ^ p := by
  by_cases h : x = 0
  · rw [h, rnd_zero]; simp
  · refine (rnd_err_ulp p x).trans ?_
    have := (log_bounds h).1
    unfold ulpExp
    have e : (2 : ℚ) ^ (Int.log 2 |x| - (p - 1)) / 2 = 2 ^ Int.log 2 |x| / 2 ^ p := by
      rw [show Int.log 2 |x| - ((p : ℤ) - 1) = Int.log 2 |x| - p + 1 by ring, zpow_add₀ (by norm_num),
        zpow_sub₀ (by norm_num)]
      simp
    rw [e]
    gcongr

theorem rnd_fix {p : ℕ} (hp : 1 ≤ p) {x : ℚ} (h : IsFp p x) : rnd p x = x := by
  obtain ⟨m, j, hm, rfl⟩ := h
  by_cases h0 : (m : ℚ) * 2 ^ j = 0
  · rw [h0, rnd_zero]
  have hm0 : m ≠ 0 := by
    intro h; apply h0; rw [h]; simp
  unfold rnd
  rw [if_neg h0]
  set e := ulpExp p ((m : ℚ) * 2 ^ j) with he
  suffices h : ∃ n : ℤ, (m : ℚ) * 2 ^ j / 2 ^ e = n by
    obtain ⟨n, hn⟩ := h
    rw [hn, rne_int, ← hn]
    have := two_zpow_pos e
    field_simp
  have habs : |(m : ℚ) * 2 ^ j| = |(m : ℚ)| * 2 ^ j := by rw [abs_mul, abs_of_pos (two_zpow_pos j)]
  have hb := log_bounds h0
  rcases lt_or_eq_of_le hm with hlt | heq
  · -- exponent at most j
    have hlt' : |(m : ℚ)| < 2 ^ p := by exact_mod_cast hlt
    have h1 : (2 : ℚ) ^ Int.log 2 |(m : ℚ) * 2 ^ j| < 2 ^ ((p : ℤ) + j) := by
      refine lt_of_le_of_lt hb.1 ?_
      rw [habs, zpow_add₀ (by norm_num)]
      have := two_zpow_pos j
      gcongr
      exact_mod_cast hlt'
    have h2 := (zpow_lt_zpow_iff_right₀ (by norm_num : (1 : ℚ) < 2)).mp h1
    have h3 : e ≤ j := by rw [he, ulpExp]; omega
    refine ⟨m * 2 ^ (j - e).toNat, ?_⟩
    rw [mul_div_assoc, ← zpow_sub₀ (by norm_num)]
    push_cast
    rw [← zpow_natCast, Int.toNat_of_nonneg (by omega)]
  · have hl : Int.log 2 |(m : ℚ) * 2 ^ j| = p + j := by
      have heq' : |(m : ℚ)| = 2 ^ p := by exact_mod_cast heq
      rw [habs, heq', ← zpow_natCast, ← zpow_add₀ (by norm_num)]
      exact Int.log_zpow (R := ℚ) (b := 2) (by norm_num) _
    have h3 : e = j + 1 := by rw [he, ulpExp, hl]; ring
    have hm' : ∃ s : ℤ, m = s * 2 ^ p := by
      rcases abs_eq (by positivity : (0 : ℤ) ≤ 2 ^ p) |>.mp heq with h | h
      · exact ⟨1, by rw [h]; ring⟩
      · exact ⟨-1, by rw [h]; ring⟩
    obtain ⟨s, hs⟩ := hm'
    refine ⟨s * 2 ^ (p - 1), ?_⟩
    rw [h3, hs, zpow_add₀ (by norm_num)]
    push_cast
    have := two_zpow_pos j
    obtain ⟨q, rfl⟩ : ∃ q, p = q + 1 := ⟨p - 1, by omega⟩
    rw [Nat.add_sub_cancel, pow_succ]
    field_simp

theorem rnd_nonneg {p : ℕ} {x : ℚ} (h : 0 ≤ x) : 0 ≤ rnd p x := by
  unfold rnd
  split
  · exact le_refl _
  · have hp := two_zpow_pos (ulpExp p x)
    have h1 : 0 ≤ rne (x / 2 ^ ulpExp p x) := by
      have := rne_mono (x := ((0 : ℤ) : ℚ)) (y := x / 2 ^ ulpExp p x) (by push_cast; positivity)
      rwa [rne_int] at this
    have : (0 : ℚ) ≤ (rne (x / 2 ^ ulpExp p x) : ℚ) := by exact_mod_cast h1
    positivity

/-- a positive value rounds into the closed binade it lies in -/
theorem rnd_binade {p : ℕ} (hp : 1 ≤ p) {x : ℚ} (h : 0 < x) :
    (2 : ℚ) ^ Int.log 2 x ≤ rnd p x ∧ rnd p x ≤ 2 ^ (Int.log 2 x + 1) := by
  have hx : x ≠ 0 := h.ne'
  have hb := log_bounds hx
  rw [abs_of_pos h] at hb
  unfold rnd
  rw [if_neg hx]
  have he : ulpExp p x = Int.log 2 x - (p - 1) := by rw [ulpExp, abs_of_pos h]
  have hq := two_zpow_pos (ulpExp p x)
  have e1 : (2 : ℚ) ^ Int.log 2 x = ((2 ^ (p - 1) : ℤ) : ℚ) * 2 ^ ulpExp p x := by
    rw [he]
    push_cast
    rw [← zpow_natCast, ← zpow_add₀ (by norm_num)]
    congr 1
    omega
  have e2 : (2 : ℚ) ^ (Int.log 2 x + 1) = ((2 ^ p : ℤ) : ℚ) * 2 ^ ulpExp p x := by
    rw [he]
    push_cast
    rw [← zpow_natCast, ← zpow_add₀ (by norm_num)]
    congr 1
    ring
  constructor
  · rw [e1]
    have h1 : ((2 ^ (p - 1) : ℤ) : ℚ) ≤ x / 2 ^ ulpExp p x := by
      rw [le_div_iff₀ hq, ← e1]; exact hb.1
    have := rne_mono h1
    rw [rne_int] at this
    have : ((2 ^ (p - 1) : ℤ) : ℚ) ≤ (rne (x / 2 ^ ulpExp p x) : ℚ) := by exact_mod_cast this
    gcongr
  · rw [e2]
    have h1 : x / 2 ^ ulpExp p x ≤ ((2 ^ p : ℤ) : ℚ) := by
      rw [div_le_iff₀ hq, ← e2]; exact hb.2.le
    have := rne_mono h1
    rw [rne_int] at this
    have : (rne (x / 2 ^ ulpExp p x) : ℚ) ≤ ((2 ^ p : ℤ) : ℚ) := by exact_mod_cast this
    gcongr

theorem rnd_mono_pos {p : ℕ} (hp : 1 ≤ p) {x y : ℚ} (h0 : 0 < x) (h : x ≤ y) : rnd p x ≤ rnd p y := by
  have hl : Int.log 2 x ≤ Int.log 2 y := Int.log_mono_right h0 h
  rcases hl.lt_or_eq with hl | he
  · refine (rnd_binade hp h0).2.trans (le_trans ?_ (rnd_binade hp (h0.trans_le h)).1)
    exact zpow_le_zpow_right₀ (by norm_num) (by omega)
  · unfold rnd
    rw [if_neg h0.ne', if_neg (h0.trans_le h).ne']
    have : ulpExp p x = ulpExp p y := by
      unfold ulpExp; rw [abs_of_pos h0, abs_of_pos (h0.trans_le h), he]
    rw [this]
    have hq := two_zpow_pos (ulpExp p y)
    have h1 : x / 2 ^ ulpExp p y ≤ y / 2 ^ ulpExp p y := by gcongr
    have : ((rne (x / 2 ^ ulpExp p y) : ℤ) : ℚ) ≤ (rne (y / 2 ^ ulpExp p y) : ℚ) := by exact_mod_cast rne_mono h1
    gcongr

theorem rnd_mono {p : ℕ} (hp : 1 ≤ p) {x y : ℚ} (h : x ≤ y) : rnd p x ≤ rnd p y := by
  rcases lt_trichotomy x 0 with hx | hx | hx
  · rcases lt_or_ge y 0 with hy | hy
    · have := rnd_mono_pos hp (x := -y) (y := -x) (by linarith) (by linarith)
      rw [rnd_neg, rnd_neg] at this
      linarith
    · have h1 := rnd_nonneg (p := p) (x := -x) (by linarith)
      rw [rnd_neg] at h1
      have := rnd_nonneg (p := p) hy
      linarith
  · rw [hx, rnd_zero]; exact rnd_nonneg (by linarith)
  · exact rnd_mono_pos hp hx h

theorem isFp_mono {p q : ℕ} (h : p ≤ q) {x : ℚ} (hx : IsFp p x) : IsFp q x := by
  obtain ⟨m, e, hm, rfl⟩ := hx
  exact ⟨m, e, hm.trans (pow_le_pow_right₀ (by norm_num) h), rfl⟩

theorem isFp_int {p : ℕ} (m : ℤ) (h : |m| ≤ 2 ^ p) : IsFp p (m : ℚ) := ⟨m, 0, h, by simp⟩

/-- the result of rounding is representable -/
theorem rnd_isFp {p : ℕ} (hp : 1 ≤ p) (x : ℚ) : IsFp p (rnd p x) := by
  by_cases h : x = 0
  · rw [h, rnd_zero]; exact ⟨0, 0, by simp, by simp⟩
  · have pos : ∀ x : ℚ, 0 < x → IsFp p (rnd p x) := by
      intro x hx
      have hb := rnd_binade hp hx
      refine ⟨rne (x / 2 ^ ulpExp p x), ulpExp p x, ?_, ?_⟩
      · have h2 : rnd p x = rne (x / 2 ^ ulpExp p x) * 2 ^ ulpExp p x := by rw [rnd, if_neg hx.ne']
        have hn := rnd_nonneg (p := p) hx.le
        rw [h2] at hb hn
        have hq := two_zpow_pos (ulpExp p x)
        have hn' : (0 : ℚ) ≤ (rne (x / 2 ^ ulpExp p x) : ℚ) := nonneg_of_mul_nonneg_left hn hq
        have hn2 : 0 ≤ rne (x / 2 ^ ulpExp p x) := by exact_mod_cast hn'
        rw [abs_of_nonneg hn2]
        have e2 : (2 : ℚ) ^ (Int.log 2 x + 1) = ((2 ^ p : ℤ) : ℚ) * 2 ^ ulpExp p x := by
          rw [ulpExp, abs_of_pos hx]
          push_cast
          rw [← zpow_natCast, ← zpow_add₀ (by norm_num)]
          congr 1
          ring
        have := hb.2
        rw [e2] at this
        exact_mod_cast le_of_mul_le_mul_right this hq
      · rw [rnd, if_neg hx.ne']
    rcases lt_or_gt_of_ne h with hx | hx
    · obtain ⟨m, e, hm, he⟩ := pos (-x) (by linarith)
      rw [rnd_neg] at he
      exact ⟨-m, e, by rwa [abs_neg], by push_cast; linarith⟩
    · exact pos x hx

end Verif.Fp
