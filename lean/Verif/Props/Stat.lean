import Verif.Model.Stat
import Verif.Lemmas.Fp
import Mathlib.Tactic.NormNum
import Mathlib.Tactic.Linarith
import Mathlib.Tactic.IntervalCases
/-
C45: nature-modified stats are exact.
-/
namespace Verif.Stat
open Fp

/-- evaluating `rnd` at a given positive number -/
theorem rnd_eq_of (p : ℕ) (x : ℚ) (e m : ℤ) (h1 : (2 : ℚ) ^ e ≤ x) (h2 : x < 2 ^ (e + 1))
    (h3 : |x - m * 2 ^ (e - (p - 1))| < 2 ^ (e - (p - 1)) / 2) : rnd p x = m * 2 ^ (e - (p - 1)) := by
  have hpos : 0 < x := lt_of_lt_of_le (two_zpow_pos e) h1
  have hl : Int.log 2 x = e := by
    apply le_antisymm
    · have := (Int.lt_zpow_iff_log_lt (b := 2) (by norm_num) hpos (x := e + 1)).mp (by exact_mod_cast h2)
      omega
    · exact (Int.zpow_le_iff_le_log (b := 2) (by norm_num) hpos).mp (by exact_mod_cast h1)
  have hu : ulpExp p x = e - (p - 1) := by rw [ulpExp, abs_of_pos hpos, hl]
  rw [rnd, if_neg hpos.ne', hu]
  have hP := two_zpow_pos (e - (p - 1))
  generalize (2 : ℚ) ^ (e - ((p : ℤ) - 1)) = P at *
  have hq : |x / P - m| < 1 / 2 := by
    rw [show x / P - m = (x - m * P) / P by field_simp, abs_div, abs_of_pos hP, div_lt_iff₀ hP]
    linarith
  have hr : rne (x / P) = m := by
    have h4 := rne_err (x / P)
    rw [abs_lt] at hq
    rw [abs_le] at h4
    have h5 : ((rne (x / P) : ℤ) : ℚ) < m + 1 := by linarith
    have h6 : (m : ℚ) - 1 < (rne (x / P) : ℤ) := by linarith
    have h7 : rne (x / P) < m + 1 := by exact_mod_cast h5
    have h8 : m - 1 < rne (x / P) := by exact_mod_cast h6
    omega
  rw [hr]

theorem lit01_eq : lit01 = 7205759403792794 / 2 ^ 56 := by
  rw [lit01, rnd_eq_of 53 _ (-4) 7205759403792794 (by norm_num) (by norm_num) (by norm_num [abs_lt])]
  norm_num

/-- 0.9 in single precision -/
theorem down_eq : rnd 24 (rnd 53 (1 - lit01)) = 15099494 / 2 ^ 24 := by
  rw [lit01_eq, rnd_eq_of 53 _ (-1) 8106479329266893 (by norm_num) (by norm_num) (by norm_num [abs_lt]),
    rnd_eq_of 24 _ (-1) 15099494 (by norm_num) (by norm_num) (by norm_num [abs_lt])]
  norm_num

/-- 1.1 in single precision -/
theorem up_eq : rnd 24 (rnd 53 (1 + lit01)) = 9227469 / 2 ^ 23 := by
  rw [lit01_eq, rnd_eq_of 53 _ 0 4953959590107546 (by norm_num) (by norm_num) (by norm_num [abs_lt]),
    rnd_eq_of 24 _ 0 9227469 (by norm_num) (by norm_num) (by norm_num [abs_lt])]
  norm_num

/-- lowering and raising the same entry gives exactly 1 -/
theorem neutral_eq : rnd 24 (rnd 53 (15099494 / 2 ^ 24 + lit01)) = 1 := by
  rw [lit01_eq, rnd_eq_of 53 _ (-1) 9007199039992627 (by norm_num) (by norm_num) (by norm_num [abs_lt]),
    rnd_eq_of 24 _ (-1) 16777216 (by norm_num) (by norm_num) (by norm_num [abs_lt])]
  norm_num

theorem natureModifier_eq (i j : Nat) : natureModifier i j =
    if j = i % 5 then (if j = i / 5 then 1 else 15099494 / 2 ^ 24)
    else (if j = i / 5 then 9227469 / 2 ^ 23 else 1) := by
  unfold natureModifier
  simp only [down_eq]
  by_cases h1 : j = i % 5
  · rw [if_pos h1, if_pos h1, neutral_eq]
  · rw [if_neg h1, if_neg h1, up_eq]

/-- the percentage a nature applies to a column of the table: `nature / 5` is raised, `nature % 5` lowered -/
def percent (nature column : Nat) : Nat :=
  if nature / 5 = nature % 5 then 100 else if column = nature / 5 then 110 else if column = nature % 5 then 90 else 100

theorem floor_eq (p : ℚ) (k : ℕ) (h1 : (k : ℚ) ≤ p) (h2 : p < k + 1) : ⌊p⌋ = k := by
  rw [Int.floor_eq_iff]
  exact ⟨by exact_mod_cast h1, by exact_mod_cast h2⟩

theorem rnd_nat (n : ℕ) (h : n ≤ 2 ^ 24) : rnd 24 (n : ℚ) = n := by
  have := rnd_fix (p := 24) (by norm_num) (isFp_int (p := 24) (n : ℤ) (by
    rw [abs_of_nonneg (by positivity)]; exact_mod_cast h))
  exact_mod_cast this

/-- lowered stats -/
theorem down_floor (s : ℕ) (h : s < 65536) : ⌊rnd 24 ((s : ℚ) * (15099494 / 2 ^ 24))⌋ = ((s * 90 / 100 : ℕ) : ℤ) := by
  have hs : (s : ℚ) ≤ 65535 := by exact_mod_cast (by omega : s ≤ 65535)
  have hs0 : (0 : ℚ) ≤ s := by positivity
  obtain ⟨k, hk⟩ : ∃ k, s * 90 / 100 = k := ⟨_, rfl⟩
  obtain ⟨r, hr⟩ : ∃ r, s * 90 % 100 = r := ⟨_, rfl⟩
  have hdm := Nat.div_add_mod (s * 90) 100
  have hr100 : r < 100 := by rw [← hr]; exact Nat.mod_lt _ (by norm_num)
  rw [hk, hr] at hdm
  rw [hk]
  have hq : (100 : ℚ) * k + r = s * 90 := by exact_mod_cast hdm
  have hr90 : r ≤ 90 := by omega
  have hr90q : (r : ℚ) ≤ 90 := by exact_mod_cast hr90
  have hr0 : (0 : ℚ) ≤ r := by positivity
  set x : ℚ := (s : ℚ) * (15099494 / 2 ^ 24) with hx
  have hx0 : 0 ≤ x := by positivity
  have hxle : x ≤ 65536 := by rw [hx]; norm_num; linarith
  have herr := rnd_err 24 x
  rw [abs_of_nonneg hx0, abs_le] at herr
  apply floor_eq
  · by_cases h0 : r = 0
    · by_cases hs1 : s = 0
      · have : k = 0 := by omega
        rw [this]; simp only [Nat.cast_zero]; exact rnd_nonneg hx0
      · -- `x` is just below the integer `k`, by less than half a unit in the last place
        have hs1q : (1 : ℚ) ≤ s := by exact_mod_cast (by omega : 1 ≤ s)
        have hxpos : 0 < x := by rw [hx]; positivity
        have hkx : (k : ℚ) - x = s * (2 / 5) / 2 ^ 24 := by
          have : (k : ℚ) = s * 90 / 100 := by rw [h0] at hq; push_cast at hq; linarith
          rw [this, hx]; norm_num; ring
        have hlb := log_bounds hxpos.ne'
        rw [abs_of_pos hxpos] at hlb
        have hlog : Int.log 2 x ≤ 16 := by
          have := (Int.lt_zpow_iff_log_lt (b := 2) (by norm_num) hxpos (x := 17)).mp (by
            refine lt_of_le_of_lt hxle ?_; norm_num)
          omega
        rw [rnd, if_neg hxpos.ne', ulpExp, abs_of_pos hxpos]
        set u : ℤ := Int.log 2 x - ((24 : ℕ) - 1) with hu
        have hP := two_zpow_pos u
        -- `k` is a multiple of the unit
        obtain ⟨n, hn⟩ : ∃ n : ℕ, u = -(n : ℤ) := ⟨(-u).toNat, by push_cast at hu; omega⟩
        have hK : (k : ℚ) = ((k * 2 ^ n : ℕ) : ℚ) * 2 ^ u := by
          rw [hn, zpow_neg, zpow_natCast]; push_cast; field_simp
        have hulp : x < 2 ^ u * 2 ^ 24 := by
          refine lt_of_lt_of_le hlb.2 (le_of_eq ?_)
          rw [hu, ← zpow_natCast (2 : ℚ) 24, ← zpow_add₀ (by norm_num)]
          congr 1; push_cast; ring
        have hge : ((k * 2 ^ n : ℕ) : ℤ) ≤ rne (x / 2 ^ u) := by
          have h4 := rne_err (x / 2 ^ u)
          rw [abs_le] at h4
          have h5 : ((k * 2 ^ n : ℕ) : ℚ) - 1 / 2 < x / 2 ^ u := by
            rw [lt_div_iff₀ hP, sub_mul, ← hK]
            have : (s : ℚ) * (2 / 5) / 2 ^ 24 < 1 / 2 * 2 ^ u := by
              have : x * (2 / 5) * (10 / 8) < 2 ^ u * 2 ^ 24 * (1 / 2) := by
                have h6 := two_zpow_pos u
                nlinarith
              have h7 : (s : ℚ) * (8 / 10) ≤ x := by rw [hx]; norm_num; nlinarith
              rw [div_lt_iff₀ (by norm_num)]
              nlinarith
            linarith
          have h6 : ((k * 2 ^ n : ℕ) : ℚ) - 1 < (rne (x / 2 ^ u) : ℤ) := by linarith
          have h7 : ((k * 2 ^ n : ℕ) : ℤ) - 1 < rne (x / 2 ^ u) := by exact_mod_cast h6
          omega
        rw [hK]
        apply mul_le_mul_of_nonneg_right _ hP.le
        exact_mod_cast hge
    · have hr10 : 10 ≤ r := by omega
      have hr10q : (10 : ℚ) ≤ r := by exact_mod_cast hr10
      have hk : (k : ℚ) ≤ x := by
        have : (k : ℚ) = (s * 90 - r) / 100 := by linarith
        rw [this, hx]; norm_num; linarith
      have := rnd_mono (p := 24) (by norm_num) hk
      rwa [rnd_nat k (by omega)] at this
  · have : x ≤ (s : ℚ) * 90 / 100 := by rw [hx]; norm_num; linarith
    have h1 : x / 2 ^ 24 ≤ 1 / 100 := by norm_num; linarith
    linarith

/-- raised stats -/
theorem up_floor (s : ℕ) (h : s < 65536) : ⌊rnd 24 ((s : ℚ) * (9227469 / 2 ^ 23))⌋ = ((s * 110 / 100 : ℕ) : ℤ) := by
  have hs : (s : ℚ) ≤ 65535 := by exact_mod_cast (by omega : s ≤ 65535)
  have hs0 : (0 : ℚ) ≤ s := by positivity
  obtain ⟨k, hk⟩ : ∃ k, s * 110 / 100 = k := ⟨_, rfl⟩
  obtain ⟨r, hr⟩ : ∃ r, s * 110 % 100 = r := ⟨_, rfl⟩
  have hdm := Nat.div_add_mod (s * 110) 100
  have hr100 : r < 100 := by rw [← hr]; exact Nat.mod_lt _ (by norm_num)
  rw [hk, hr] at hdm
  rw [hk]
  have hq : (100 : ℚ) * k + r = s * 110 := by exact_mod_cast hdm
  have hr90 : r ≤ 90 := by omega
  have hr90q : (r : ℚ) ≤ 90 := by exact_mod_cast hr90
  have hr0 : (0 : ℚ) ≤ r := by positivity
  set x : ℚ := (s : ℚ) * (9227469 / 2 ^ 23) with hx
  have hx0 : 0 ≤ x := by positivity
  have hxle : x ≤ 73000 := by rw [hx]; norm_num; linarith
  have herr := rnd_err 24 x
  rw [abs_of_nonneg hx0, abs_le] at herr
  apply floor_eq
  · have hk : (k : ℚ) ≤ x := by
      have : (k : ℚ) = (s * 110 - r) / 100 := by linarith
      rw [this, hx]; norm_num; linarith
    have := rnd_mono (p := 24) (by norm_num) hk
    rwa [rnd_nat k (by omega)] at this
  · have h2 : x ≤ (s : ℚ) * 110 / 100 + 1 / 100 := by rw [hx]; norm_num; linarith
    have h1 : x / 2 ^ 24 ≤ 1 / 100 := by norm_num; linarith
    linarith

/-- C45: for every 16-bit stat, nature and non-HP stat index, the result is the exact integer
`stat * m / 100` rounded down (`m` = 90, 100 or 110), whenever it fits 16 bits; otherwise the conversion is out of
range. Single-precision rounding never matters. -/
theorem C45_exact (stat : BitVec 16) (nature index : Nat) (hn : nature < 25) (h1 : 1 ≤ index) (h5 : index ≤ 5) :
    computeStat stat nature index =
      if stat.toNat * percent nature (index - 1) / 100 < 65536 then
        .ok (BitVec.ofNat 16 (stat.toNat * percent nature (index - 1) / 100))
      else .error .overflowError := by
  have hs := stat.isLt
  have hcol : (index + 4) % 5 = index - 1 := by omega
  rw [computeStat, if_pos ⟨hn, by omega⟩, hcol, rnd_nat _ (by omega)]
  have key : ⌊rnd 24 ((stat.toNat : ℚ) * natureModifier nature (index - 1))⌋ =
      ((stat.toNat * percent nature (index - 1) / 100 : ℕ) : ℤ) := by
    rw [natureModifier_eq, percent]
    by_cases e : nature / 5 = nature % 5
    · rw [if_pos e]
      by_cases e1 : index - 1 = nature % 5
      · rw [if_pos e1, if_pos (e1.trans e.symm), mul_one, rnd_nat _ (by omega), Int.floor_natCast]; congr 1; omega
      · rw [if_neg e1, if_neg (by omega), mul_one, rnd_nat _ (by omega), Int.floor_natCast]; congr 1; omega
    · rw [if_neg e]
      by_cases e1 : index - 1 = nature % 5
      · rw [if_pos e1, if_neg (by omega), if_neg (by omega), if_pos e1]
        exact down_floor _ hs
      · rw [if_neg e1]
        by_cases e2 : index - 1 = nature / 5
        · rw [if_pos e2, if_pos e2]; exact up_floor _ hs
        · rw [if_neg e2, if_neg e2, if_neg e1, mul_one, rnd_nat _ (by omega), Int.floor_natCast]; congr 1; omega
  dsimp only
  generalize rnd 24 ((stat.toNat : ℚ) * natureModifier nature (index - 1)) = p at *
  generalize stat.toNat * percent nature (index - 1) / 100 = k at *
  have hlt : p < 65536 ↔ k < 65536 := by
    have := Int.floor_lt (a := p) (z := 65536)
    rw [key] at this
    rw [show ((65536 : ℤ) : ℚ) = 65536 by norm_num] at this
    rw [← this]
    omega
  by_cases h : k < 65536
  · rw [if_pos h, if_pos (hlt.mpr h), key]; congr 1
  · rw [if_neg h, if_neg (fun h' => h (hlt.mp h'))]

/-- Lonely nature (1) raises column 0 and lowers column 1. -/
example : computeStat 110 1 1 = .ok 121 ∧ computeStat 110 1 2 = .ok 99 ∧ computeStat 110 1 3 = .ok 110 := by
  rw [C45_exact _ _ _ (by omega) (by omega) (by omega), C45_exact _ _ _ (by omega) (by omega) (by omega),
    C45_exact _ _ _ (by omega) (by omega) (by omega)]
  decide

end Verif.Stat
