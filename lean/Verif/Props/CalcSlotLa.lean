import Verif.Model.CalcSlotLa
import Verif.Lemmas.Fp
import Verif.Props.EncLoadLa
import Mathlib.Algebra.Order.BigOperators.Group.List
import Mathlib.Algebra.BigOperators.Group.List.Basic
import Mathlib.Tactic.IntervalCases
/-
C69: which slot `calc_slot` chooses.
-/
namespace Verif.CalcSlotLa
open EncLoadLa Fp

/-- relative rounding error of a float64 operation -/
def eps : ℚ := 1 / 2 ^ 53

theorem rnd_eps (x : ℚ) : |rnd 53 x - x| ≤ eps * |x| := by
  have := rnd_err 53 x
  unfold eps
  calc |rnd 53 x - x| ≤ |x| / 2 ^ 53 := this
    _ = 1 / 2 ^ 53 * |x| := by ring

theorem eps_pos : 0 < eps := by unfold eps; positivity

/-! ### the sum -/

theorem sum_err (S : ℚ) (n : ℕ) (ps : List ℚ) (hp : ∀ p ∈ ps, 0 ≤ p) (c C : ℚ) (k : ℕ) (hkn : k + ps.length ≤ n)
    (hn : 2 * n * eps ≤ 1) (hc : |c - C| ≤ 2 * k * eps * S) (hC : 0 ≤ C) (hS : C + ps.sum ≤ S) :
    |ps.foldl (fun c p => rnd 53 (c + p)) c - (C + ps.sum)| ≤ 2 * (k + ps.length : ℕ) * eps * S := by
  induction ps generalizing c C k with
  | nil => simpa using hc
  | cons p ps ih =>
    have hp0 := hp p (by simp)
    have hps : 0 ≤ ps.sum := List.sum_nonneg fun q hq => hp q (by simp [hq])
    rw [List.sum_cons] at hS
    have hS0 : 0 ≤ S := by linarith
    have hε := eps_pos
    have hk : (k : ℚ) ≤ n := by exact_mod_cast (by omega : k ≤ n)
    have h1 := rnd_eps (c + p)
    have hcS : |c + p| ≤ 2 * S := by
      have h2 : |c + p| ≤ |c - C| + |C + p| := by
        calc |c + p| = |(c - C) + (C + p)| := by ring_nf
          _ ≤ _ := abs_add_le _ _
      rw [abs_of_nonneg (by linarith : 0 ≤ C + p)] at h2
      have h3 : 2 * k * eps * S ≤ 1 * S := by
        apply mul_le_mul_of_nonneg_right _ hS0
        calc 2 * (k : ℚ) * eps ≤ 2 * n * eps := by
              apply mul_le_mul_of_nonneg_right _ hε.le
              linarith
          _ ≤ 1 := hn
      linarith
    have h4 : |rnd 53 (c + p) - (C + p)| ≤ 2 * ((k + 1 : ℕ) : ℚ) * eps * S := by
      have h5 : |rnd 53 (c + p) - (C + p)| ≤ |rnd 53 (c + p) - (c + p)| + |c - C| := by
        calc |rnd 53 (c + p) - (C + p)| = |(rnd 53 (c + p) - (c + p)) + (c - C)| := by ring_nf
          _ ≤ _ := abs_add_le _ _
      have h6 : eps * |c + p| ≤ eps * (2 * S) := mul_le_mul_of_nonneg_left hcS hε.le
      push_cast
      linarith
    have := ih (fun q hq => hp q (by simp [hq])) (rnd 53 (c + p)) (C + p) (k + 1)
      (by rw [List.length_cons] at hkn; omega) h4 (by linarith) (by linarith)
    rw [List.foldl_cons, List.sum_cons, List.length_cons, show k + (ps.length + 1) = k + 1 + ps.length by omega,
      ← add_assoc]
    exact this

/-! ### the loop -/

/-- the position within the cumulative sums: `t` units are left of the exact `rand * total`, up to `B` -/
structure Lands (ps : List ℚ) (t B : ℚ) (k : ℕ) : Prop where
  lt : k < ps.length
  pos : 0 < ps[k]
  lower : (ps.take k).sum - B ≤ t
  upper : t ≤ (ps.take (k + 1)).sum + B

theorem pick_spec (S : ℚ) (ps : List ℚ) (hp : ∀ p ∈ ps, 0 ≤ p) (i : ℕ) (s t B : ℚ) (hs : 0 ≤ s) (hst : |s - t| ≤ B)
    (htS : t ≤ S) (hB : B + ps.length * (2 * eps * S) ≤ S) (hS : 0 ≤ S) :
    (∃ k, pick i s ps = i + k ∧ Lands ps t (B + ps.length * (2 * eps * S)) k) ∨
      (pick i s ps = i + ps.length - 1 ∧ ps.sum ≤ t + (B + ps.length * (2 * eps * S))) := by
  induction ps generalizing i s t B with
  | nil =>
    right
    refine ⟨by simp [pick], ?_⟩
    have := (abs_le.mp hst).2
    simp
    linarith
  | cons p ps ih =>
    have hp0 := hp p (by simp)
    have hε := eps_pos
    have h2e : 0 ≤ 2 * eps * S := by positivity
    have hlen : (0 : ℚ) ≤ ps.length * (2 * eps * S) := by positivity
    rw [List.length_cons] at hB ⊢
    push_cast at hB ⊢
    obtain ⟨a1, a2⟩ := abs_le.mp hst
    rw [pick]
    by_cases h : s < p
    · left
      rw [if_pos h]
      refine ⟨0, rfl, by simp, by simpa using lt_of_le_of_lt hs h, ?_, ?_⟩
      · simp; nlinarith
      · simp; nlinarith
    · rw [if_neg h]
      have h1 := rnd_eps (s - p)
      have hsp : 0 ≤ s - p := by linarith
      rw [abs_of_nonneg hsp] at h1
      have hB0 : B ≤ S := by nlinarith
      have h2 : eps * (s - p) ≤ eps * (2 * S) := mul_le_mul_of_nonneg_left (by linarith) hε.le
      have h3 : |rnd 53 (s - p) - (t - p)| ≤ B + 2 * eps * S := by
        calc |rnd 53 (s - p) - (t - p)| = |(rnd 53 (s - p) - (s - p)) + (s - t)| := by ring_nf
          _ ≤ _ := abs_add_le _ _
          _ ≤ _ := by linarith
      have := ih (fun q hq => hp q (by simp [hq])) (i + 1) (rnd 53 (s - p)) (t - p) (B + 2 * eps * S) (rnd_nonneg hsp)
        h3 (by linarith) (by linarith)
      have e : B + 2 * eps * S + ps.length * (2 * eps * S) = B + (ps.length + 1) * (2 * eps * S) := by ring
      rw [e] at this
      rcases this with ⟨k, hk, l⟩ | ⟨hk, l⟩
      · left
        refine ⟨k + 1, by omega, by simpa using l.lt, by simpa using l.pos, ?_, ?_⟩
        · have := l.lower
          rw [List.take_succ_cons, List.sum_cons]
          linarith
        · have := l.upper
          rw [List.take_succ_cons, List.sum_cons]
          linarith
      · right
        refine ⟨?_, by rw [List.sum_cons]; linarith⟩
        rw [hk]; omega

theorem f32_lt_one {r : ℚ} (hr : IsFp 24 r) (h1 : r < 1) : r ≤ 1 - 1 / 2 ^ 24 := by
  by_cases hh : r ≤ 1 / 2
  · refine hh.trans (by norm_num)
  · obtain ⟨m, e, hm, rfl⟩ := hr
    rw [not_le] at hh
    have he : -24 ≤ e := by
      by_contra hc
      have : (2 : ℚ) ^ e ≤ 2 ^ (-25 : ℤ) := zpow_le_zpow_right₀ (by norm_num) (by omega)
      have hmq : (m : ℚ) ≤ 2 ^ 24 := by exact_mod_cast (le_abs_self m).trans hm
      have hpos := two_zpow_pos e
      have : (m : ℚ) * 2 ^ e ≤ 2 ^ 24 * 2 ^ (-25 : ℤ) := by
        calc (m : ℚ) * 2 ^ e ≤ 2 ^ 24 * 2 ^ e := mul_le_mul_of_nonneg_right hmq hpos.le
          _ ≤ _ := mul_le_mul_of_nonneg_left this (by norm_num)
      norm_num at this
      linarith
    obtain ⟨d, hd⟩ := Int.eq_ofNat_of_zero_le (by omega : 0 ≤ e + 24)
    have hx : (m : ℚ) * 2 ^ e = ((m * 2 ^ d : ℤ) : ℚ) / 2 ^ 24 := by
      have : (2 : ℚ) ^ e = 2 ^ d / 2 ^ 24 := by
        rw [show e = (d : ℤ) - (24 : ℕ) by push_cast; omega, zpow_sub₀ (by norm_num), zpow_natCast, zpow_natCast]
      rw [this]; push_cast; ring
    rw [hx] at h1 ⊢
    rw [div_lt_one (by norm_num)] at h1
    have : m * 2 ^ d ≤ 2 ^ 24 - 1 := by
      have : m * 2 ^ d < 2 ^ 24 := by exact_mod_cast h1
      omega
    rw [div_le_iff₀ (by norm_num)]
    calc ((m * 2 ^ d : ℤ) : ℚ) ≤ ((2 ^ 24 - 1 : ℤ) : ℚ) := by exact_mod_cast this
      _ = _ := by norm_num

/-- The choice among computed weights: with a float32 `rand` below 1 and a positive sum, a slot of positive weight, the
one whose cumulative interval holds `rand * total` up to rounding. -/
theorem choose_spec (r : ℚ) (hr : IsFp 24 r) (h0 : 0 ≤ r) (h1 : r < 1) (ps : List ℚ) (hp : ∀ p ∈ ps, 0 ≤ p)
    (hpos : 0 < ps.sum) (hn : ps.length ≤ 2 ^ 26) :
    Lands ps (r * ps.sum) ((4 * ps.length + 2) * eps * ps.sum) (choose r ps) := by
  have hε := eps_pos
  have hnq : (ps.length : ℚ) ≤ 2 ^ 26 := by exact_mod_cast hn
  have hn0 : (0 : ℚ) ≤ ps.length := by positivity
  have hlen : 2 * (ps.length : ℚ) * eps ≤ 1 / 4 := by
    unfold eps
    rw [mul_one_div, div_le_div_iff₀ (by norm_num) (by norm_num)]
    linarith
  have htot := sum_err ps.sum ps.length ps hp 0 0 0 (by omega) (by linarith) (by simp) (le_refl _) (by simp)
  simp only [zero_add] at htot
  set S := ps.sum with hS
  have htot' : |total ps - S| ≤ 2 * ps.length * eps * S := by simpa [total] using htot
  obtain ⟨t1, t2⟩ := abs_le.mp htot'
  have hle : 2 * (ps.length : ℚ) * eps * S ≤ 1 / 4 * S := mul_le_mul_of_nonneg_right hlen hpos.le
  have htpos : 0 ≤ total ps := by linarith
  have hrt := rnd_eps (r * total ps)
  rw [abs_of_nonneg (mul_nonneg h0 htpos)] at hrt
  have hrt2 : r * total ps ≤ 2 * S := by
    calc r * total ps ≤ 1 * total ps := mul_le_mul_of_nonneg_right h1.le htpos
      _ ≤ 2 * S := by linarith
  have hE : |rnd 53 (r * total ps) - r * S| ≤ (2 * ps.length + 2) * eps * S := by
    have hb : |r * (total ps - S)| ≤ 2 * ps.length * eps * S := by
      rw [abs_mul, abs_of_nonneg h0]
      calc r * |total ps - S| ≤ 1 * |total ps - S| := mul_le_mul_of_nonneg_right h1.le (abs_nonneg _)
        _ ≤ _ := by linarith
    have hc : eps * (r * total ps) ≤ eps * (2 * S) := mul_le_mul_of_nonneg_left hrt2 hε.le
    calc |rnd 53 (r * total ps) - r * S| = |(rnd 53 (r * total ps) - r * total ps) + r * (total ps - S)| := by ring_nf
      _ ≤ _ := abs_add_le _ _
      _ ≤ eps * (2 * S) + 2 * ps.length * eps * S := by linarith
      _ = _ := by ring
  have e : (2 * (ps.length : ℚ) + 2) * eps * S + ps.length * (2 * eps * S) = (4 * ps.length + 2) * eps * S := by ring
  have hsmall : (4 * (ps.length : ℚ) + 2) * eps * S < 1 / 2 ^ 24 * S := by
    apply mul_lt_mul_of_pos_right _ hpos
    unfold eps
    rw [mul_one_div, div_lt_div_iff₀ (by norm_num) (by norm_num)]
    norm_num
    linarith
  have := pick_spec S ps hp 0 (rnd 53 (r * total ps)) (r * S) ((2 * ps.length + 2) * eps * S)
    (rnd_nonneg (mul_nonneg h0 htpos)) hE (by nlinarith) (by rw [e]; nlinarith) hpos.le
  rw [e] at this
  rcases this with ⟨k, hk, l⟩ | ⟨_, l⟩
  · unfold choose
    rw [hk, Nat.zero_add]
    exact l
  · exfalso
    have hr1 := f32_lt_one hr h1
    have : r * S ≤ (1 - 1 / 2 ^ 24) * S := mul_le_mul_of_nonneg_right hr1 hpos.le
    rw [← hS] at l
    linarith

/-! ### exact choice -/

/-- The exact choice when no rounding occurs: weights that are multiples of a common power of two with at most 29 bits
together. -/
theorem pick_exact (e : ℤ) (ps : List ℚ) (hp : ∀ p ∈ ps, ∃ m : ℕ, p = m * 2 ^ 24 * 2 ^ e) (i : ℕ) (a : ℕ)
    (ha : a < 2 ^ 53) (hlt : (a : ℚ) * 2 ^ e < ps.sum) :
    ∃ k, pick i ((a : ℚ) * 2 ^ e) ps = i + k ∧ k < ps.length ∧ (ps.take k).sum ≤ a * 2 ^ e ∧
      a * 2 ^ e < (ps.take (k + 1)).sum := by
  have he := two_zpow_pos e
  induction ps generalizing i a with
  | nil =>
    simp at hlt
    have : (0 : ℚ) ≤ a * 2 ^ e := by positivity
    linarith
  | cons p ps ih =>
    obtain ⟨m, hm⟩ := hp p (by simp)
    rw [pick]
    by_cases h : (a : ℚ) * 2 ^ e < p
    · rw [if_pos h]
      refine ⟨0, rfl, by simp, by simp; positivity, by simpa using h⟩
    · rw [if_neg h]
      rw [hm] at h
      have hle : m * 2 ^ 24 ≤ a := by
        rw [not_lt] at h
        have := le_of_mul_le_mul_right h he
        exact_mod_cast this
      have hsub : (a : ℚ) * 2 ^ e - p = ((a - m * 2 ^ 24 : ℕ) : ℚ) * 2 ^ e := by
        rw [hm, Nat.cast_sub hle]; push_cast; ring
      have hfix : rnd 53 ((a : ℚ) * 2 ^ e - p) = ((a - m * 2 ^ 24 : ℕ) : ℚ) * 2 ^ e := by
        rw [hsub]
        apply rnd_fix (by norm_num)
        refine ⟨((a - m * 2 ^ 24 : ℕ) : ℤ), e, ?_, by push_cast; rfl⟩
        rw [abs_of_nonneg (by positivity)]
        have : a - m * 2 ^ 24 ≤ 2 ^ 53 := by omega
        exact_mod_cast this
      rw [hfix]
      obtain ⟨k, h1, h2, h3, h4⟩ := ih (fun q hq => hp q (by simp [hq])) (i + 1) (a - m * 2 ^ 24) (by omega)
        (by rw [← hsub]; rw [List.sum_cons] at hlt; linarith)
      rw [← hsub] at h3 h4
      refine ⟨k + 1, by omega, by simpa using h2, ?_, ?_⟩
      · rw [List.take_succ_cons, List.sum_cons]; linarith
      · rw [List.take_succ_cons, List.sum_cons]; linarith

theorem total_exact (e : ℤ) (ps : List ℚ) (ms : List ℕ) (hp : ps = ms.map fun (m : ℕ) => (m : ℚ) * 2 ^ e)
    (c : ℕ) (hs : c + ms.sum < 2 ^ 53) :
    ps.foldl (fun c p => rnd 53 (c + p)) (c * 2 ^ e) = ((c + ms.sum : ℕ) : ℚ) * 2 ^ e := by
  subst hp
  induction ms generalizing c with
  | nil => simp
  | cons m ms ih =>
    rw [List.sum_cons] at hs
    rw [List.map_cons, List.foldl_cons]
    have : rnd 53 ((c : ℚ) * 2 ^ e + m * 2 ^ e) = ((c + m : ℕ) : ℚ) * 2 ^ e := by
      rw [← add_mul, ← Nat.cast_add]
      apply rnd_fix (by norm_num)
      refine ⟨((c + m : ℕ) : ℤ), e, ?_, by push_cast; rfl⟩
      rw [abs_of_nonneg (by positivity)]
      exact_mod_cast (by omega : c + m ≤ 2 ^ 53)
    rw [this, ih (c + m) (by omega), List.sum_cons, add_assoc]

/-- The choice is exact when `rand` is a multiple of 2^-24 (as a float32 from a generator is) and the weights are
multiples of a common power of two, with a total of at most 29 bits. -/
theorem choose_exact (e : ℤ) (ms : List ℕ) (hsum : ms.sum < 2 ^ 29) (hpos : 0 < ms.sum) (c : ℕ) (hc : c < 2 ^ 24) :
    let ps := ms.map fun (m : ℕ) => (m : ℚ) * 2 ^ e
    let r := (c : ℚ) / 2 ^ 24
    choose r ps < ps.length ∧ (ps.take (choose r ps)).sum ≤ r * ps.sum ∧
      r * ps.sum < (ps.take (choose r ps + 1)).sum := by
  intro ps r
  have he := two_zpow_pos e
  have he24 := two_zpow_pos (e - 24)
  have hes : (2 : ℚ) ^ e = 2 ^ 24 * 2 ^ (e - 24) := by
    rw [zpow_sub₀ (by norm_num)]; norm_num; field_simp
  have htot : total ps = (ms.sum : ℚ) * 2 ^ e := by
    have := total_exact e ps ms rfl 0 (by omega)
    simpa [total] using this
  have hps : ps.sum = (ms.sum : ℚ) * 2 ^ e := by
    show (ms.map fun (m : ℕ) => (m : ℚ) * 2 ^ e).sum = _
    clear * -
    induction ms with
    | nil => simp
    | cons m ms ih => rw [List.map_cons, List.sum_cons, ih, List.sum_cons]; push_cast; ring
  have hrs : r * ((ms.sum : ℚ) * 2 ^ e) = ((c * ms.sum : ℕ) : ℚ) * 2 ^ (e - 24) := by
    rw [hes]; push_cast; simp only [r]; ring
  have hbig : c * ms.sum < 2 ^ 53 := by
    calc c * ms.sum < 2 ^ 24 * 2 ^ 29 := Nat.mul_lt_mul'' hc hsum
      _ = 2 ^ 53 := by norm_num
  have hfix : rnd 53 (r * total ps) = ((c * ms.sum : ℕ) : ℚ) * 2 ^ (e - 24) := by
    rw [htot, hrs]
    apply rnd_fix (by norm_num)
    refine ⟨((c * ms.sum : ℕ) : ℤ), e - 24, ?_, by push_cast; rfl⟩
    rw [abs_of_nonneg (by positivity)]
    exact_mod_cast hbig.le
  have hmem : ∀ p ∈ ps, ∃ m : ℕ, p = m * 2 ^ 24 * 2 ^ (e - 24) := by
    intro p hp
    obtain ⟨m, _, rfl⟩ := List.mem_map.mp hp
    exact ⟨m, by rw [hes]; ring⟩
  have hlt : ((c * ms.sum : ℕ) : ℚ) * 2 ^ (e - 24) < ps.sum := by
    rw [← hrs, hps]
    have : r < 1 := by
      simp only [r]
      rw [div_lt_one (by norm_num)]
      exact_mod_cast hc
    have hposq : (0 : ℚ) < (ms.sum : ℚ) * 2 ^ e := by
      have : (0 : ℚ) < ms.sum := by exact_mod_cast hpos
      positivity
    nlinarith
  obtain ⟨k, h1, h2, h3, h4⟩ := pick_exact (e - 24) ps hmem 0 (c * ms.sum) hbig hlt
  have hch : choose r ps = k := by
    unfold choose
    rw [hfix, h1, Nat.zero_add]
  rw [hch, hps, hrs]
  exact ⟨h2, h3, h4⟩

/-! ### exact weights -/

/-- The exact weight of a slot: base probability times the two multipliers in force, none of them negative. -/
def Weight (time weather : ℕ) (slot : SlotLA) (w : ℚ) : Prop :=
  ∃ tb wb t v, slot.timeMultipliers[time]? = some tb ∧ slot.weatherMultipliers[weather]? = some wb ∧
    f32Value tb = some t ∧ f32Value wb = some v ∧ 0 ≤ t ∧ 0 ≤ v ∧ w = slot.baseProbability.toNat * t * v

theorem weight_nonneg {time weather : ℕ} {slot : SlotLA} {w : ℚ} (h : Weight time weather slot w) : 0 ≤ w := by
  obtain ⟨tb, wb, t, v, _, _, _, _, ht, hv, rfl⟩ := h
  positivity

/-- a computed weight -/
structure Near (w p : ℚ) : Prop where
  w0 : 0 ≤ w
  p0 : 0 ≤ p
  zero : w = 0 → p = 0
  err : |p - w| ≤ 3 * eps * w

theorem eps_small : eps ≤ 1 / 8 := by unfold eps; norm_num

theorem probability_near {time weather : ℕ} {slot : SlotLA} {w : ℚ} (h : Weight time weather slot w) :
    ∃ p, probability slot time weather = .ok p ∧ Near w p := by
  obtain ⟨tb, wb, t, v, h1, h2, h3, h4, ht, hv, rfl⟩ := h
  refine ⟨rnd 53 (rnd 53 (slot.baseProbability.toNat * t) * v), by simp only [probability, h1, h2, h3, h4], ?_⟩
  set b : ℚ := (slot.baseProbability.toNat : ℚ)
  have hb : 0 ≤ b := by positivity
  have hbt : 0 ≤ b * t := by positivity
  have hε := eps_pos
  have hε1 := eps_small
  have a1 := rnd_eps (b * t)
  rw [abs_of_nonneg hbt] at a1
  have c0 : 0 ≤ rnd 53 (b * t) := rnd_nonneg hbt
  have a2 := rnd_eps (rnd 53 (b * t) * v)
  rw [abs_of_nonneg (mul_nonneg c0 hv)] at a2
  have a3 : |rnd 53 (b * t) * v - b * t * v| ≤ eps * (b * t * v) := by
    rw [← sub_mul, abs_mul, abs_of_nonneg hv]
    calc |rnd 53 (b * t) - b * t| * v ≤ eps * (b * t) * v := mul_le_mul_of_nonneg_right a1 hv
      _ = _ := by ring
  have hw : 0 ≤ b * t * v := by positivity
  have a4 : rnd 53 (b * t) * v ≤ 2 * (b * t * v) := by
    have := (abs_le.mp a3).2
    nlinarith
  have a5 : eps * (rnd 53 (b * t) * v) ≤ eps * (2 * (b * t * v)) := mul_le_mul_of_nonneg_left a4 hε.le
  have herr : |rnd 53 (rnd 53 (b * t) * v) - b * t * v| ≤ 3 * eps * (b * t * v) := by
    calc |rnd 53 (rnd 53 (b * t) * v) - b * t * v|
        = |(rnd 53 (rnd 53 (b * t) * v) - rnd 53 (b * t) * v) + (rnd 53 (b * t) * v - b * t * v)| := by ring_nf
      _ ≤ _ := abs_add_le _ _
      _ ≤ eps * (2 * (b * t * v)) + eps * (b * t * v) := by linarith
      _ = _ := by ring
  refine ⟨hw, rnd_nonneg (mul_nonneg c0 hv), ?_, herr⟩
  intro h0
  rw [h0] at herr
  simpa using herr

theorem probabilities_near {time weather : ℕ} {slots : List SlotLA} {ws : List ℚ}
    (h : List.Forall₂ (Weight time weather) slots ws) :
    ∃ ps, probabilities time weather slots = .ok ps ∧ List.Forall₂ Near ws ps := by
  induction h with
  | nil => exact ⟨[], rfl, .nil⟩
  | cons hw _ ih =>
    obtain ⟨p, hp, hn⟩ := probability_near hw
    obtain ⟨ps, hps, hns⟩ := ih
    refine ⟨p :: ps, ?_, .cons hn hns⟩
    simp only [probabilities, hp, hps]
    rfl

theorem near_sum {ws ps : List ℚ} (h : List.Forall₂ Near ws ps) : |ps.sum - ws.sum| ≤ 3 * eps * ws.sum ∧ 0 ≤ ws.sum := by
  induction h with
  | nil => simp
  | cons h _ ih =>
    rename_i w p ws ps _
    obtain ⟨i1, i2⟩ := abs_le.mp ih.1
    obtain ⟨j1, j2⟩ := abs_le.mp h.err
    have := h.w0
    rw [List.sum_cons, List.sum_cons]
    refine ⟨abs_le.mpr ⟨by linarith, by linarith⟩, by linarith [ih.2]⟩

theorem sum_take_le {ws : List ℚ} (h : ∀ w ∈ ws, 0 ≤ w) (k : ℕ) : (ws.take k).sum ≤ ws.sum := by
  have h1 : (ws.take k).sum + (ws.drop k).sum = ws.sum := by rw [← List.sum_append, List.take_append_drop]
  have : 0 ≤ (ws.drop k).sum := List.sum_nonneg fun q hq => h q (List.mem_of_mem_drop hq)
  linarith

theorem near_mem {ws ps : List ℚ} (h : List.Forall₂ Near ws ps) :
    (∀ w ∈ ws, 0 ≤ w) ∧ ∀ p ∈ ps, 0 ≤ p := by
  induction h with
  | nil => simp
  | cons h _ ih => exact ⟨by simpa using ⟨h.w0, ih.1⟩, by simpa using ⟨h.p0, ih.2⟩⟩

/-- the full claim of C69 with numba: the slot whose interval contains `rand` times the total weight -/
def C69Statement : Prop :=
  ∀ (slots : List SlotLA) (time weather : ℕ) (ws : List ℚ) (r : ℚ), List.Forall₂ (Weight time weather) slots ws →
    IsFp 24 r → 0 ≤ r → r < 1 → 0 < ws.sum →
    ∃ i, ∃ h : i < slots.length, calcSlot .numba slots r time weather = .ok slots[i] ∧
      (ws.take i).sum ≤ r * ws.sum ∧ r * ws.sum < (ws.take (i + 1)).sum

/-- C69 up to rounding: the slot returned has positive weight, and its interval of cumulative weights contains
`rand` times the total weight up to (4n+10)·2^-53 of that total. Missing from the full claim: the exact interval, which
is false (`C69_full_false`). Tables have up to 2^26 slots. -/
theorem C69_choice_partial (slots : List SlotLA) (time weather : ℕ) (ws : List ℚ) (r : ℚ)
    (hw : List.Forall₂ (Weight time weather) slots ws) (hr : IsFp 24 r) (h0 : 0 ≤ r) (h1 : r < 1) (hpos : 0 < ws.sum)
    (hn : slots.length ≤ 2 ^ 26) :
    ∃ i, ∃ h : i < slots.length, calcSlot .numba slots r time weather = .ok slots[i] ∧ (∃ h' : i < ws.length, 0 < ws[i]) ∧
      (ws.take i).sum - (4 * slots.length + 10) / 2 ^ 53 * ws.sum ≤ r * ws.sum ∧
      r * ws.sum ≤ (ws.take (i + 1)).sum + (4 * slots.length + 10) / 2 ^ 53 * ws.sum := by
  obtain ⟨ps, hps, hnear⟩ := probabilities_near hw
  have hl1 := hw.length_eq
  have hl2 := hnear.length_eq
  have hε := eps_pos
  have hε1 := eps_small
  obtain ⟨wmem, pmem⟩ := near_mem hnear
  obtain ⟨s1, s2⟩ := abs_le.mp (near_sum hnear).1
  have hppos : 0 < ps.sum := by nlinarith
  have L := choose_spec r hr h0 h1 ps pmem hppos (by omega)
  set i := choose r ps
  have hi := L.lt
  have his : i < slots.length := by omega
  refine ⟨i, his, ?_, ⟨by omega, ?_⟩, ?_⟩
  · simp only [calcSlot, hps]
    have : slots[choose r ps]? = some slots[i] := List.getElem?_eq_getElem his
    rw [this]
  · have hN : Near ws[i] ps[i] := by
      have := List.forall₂_iff_get.mp hnear
      simpa using this.2 i (by omega) hi
    rcases lt_or_eq_of_le hN.w0 with h | h
    · exact h
    · exact absurd (hN.zero h.symm) (ne_of_gt L.pos)
  · have t1 := near_sum (List.forall₂_take i hnear)
    have t2 := near_sum (List.forall₂_take (i + 1) hnear)
    obtain ⟨a1, a2⟩ := abs_le.mp t1.1
    obtain ⟨b1, b2⟩ := abs_le.mp t2.1
    have c1 := sum_take_le wmem i
    have c2 := sum_take_le wmem (i + 1)
    have c3 : 3 * eps * (ws.take i).sum ≤ 3 * eps * ws.sum := mul_le_mul_of_nonneg_left c1 (by linarith)
    have c4 : 3 * eps * (ws.take (i + 1)).sum ≤ 3 * eps * ws.sum := mul_le_mul_of_nonneg_left c2 (by linarith)
    have lo := L.lower
    have up := L.upper
    have hlenq : (ps.length : ℚ) = slots.length := by rw [← hl2, ← hl1]
    rw [hlenq] at lo up
    have hnq : (slots.length : ℚ) ≤ 2 ^ 26 := by exact_mod_cast hn
    have hn0 : (0 : ℚ) ≤ slots.length := by positivity
    set n : ℚ := (slots.length : ℚ)
    set W := ws.sum
    set S := ps.sum
    have e1 : (4 * n + 2) * eps * S ≤ (4 * n + 3) * eps * W := by
      have f1 : (4 * n + 2) * (3 * eps) ≤ 1 := by
        unfold eps
        rw [mul_one_div, mul_div_assoc', div_le_one (by norm_num)]
        norm_num
        linarith
      have f2 : S ≤ W + 3 * eps * W := by linarith
      have f3 : (4 * n + 2) * eps * S ≤ (4 * n + 2) * eps * (W + 3 * eps * W) :=
        mul_le_mul_of_nonneg_left f2 (by positivity)
      have f4 : (4 * n + 2) * eps * (W + 3 * eps * W) = (4 * n + 2) * eps * W + (4 * n + 2) * (3 * eps) * (eps * W) := by
        ring
      have f5 : (4 * n + 2) * (3 * eps) * (eps * W) ≤ 1 * (eps * W) := mul_le_mul_of_nonneg_right f1 (by positivity)
      linarith
    have e2 : r * S ≤ r * W + 3 * eps * W := by
      have : r * (S - W) ≤ 3 * eps * W := by
        rcases le_total 0 (S - W) with h | h <;> nlinarith
      linarith
    have e3 : r * W ≤ r * S + 3 * eps * W := by
      have : r * (W - S) ≤ 3 * eps * W := by
        rcases le_total 0 (W - S) with h | h <;> nlinarith
      linarith
    have e4 : (4 * n + 10) / 2 ^ 53 * W = (4 * n + 10) * eps * W := by unfold eps; ring
    have e5 : 0 ≤ eps * W := by positivity
    rw [e4]
    constructor <;> linarith

/-- Slots of weight zero are never chosen while some slot has positive weight. -/
theorem C69_positive (slots : List SlotLA) (time weather : ℕ) (ws : List ℚ) (r : ℚ)
    (hw : List.Forall₂ (Weight time weather) slots ws) (hr : IsFp 24 r) (h0 : 0 ≤ r) (h1 : r < 1)
    (hex : ∃ w ∈ ws, 0 < w) (hn : slots.length ≤ 2 ^ 26) :
    ∃ slot ∈ slots, calcSlot .numba slots r time weather = .ok slot ∧ ∃ w, Weight time weather slot w ∧ 0 < w := by
  have hpos : 0 < ws.sum := by
    obtain ⟨ps, _, hnear⟩ := probabilities_near hw
    obtain ⟨w, hwm, hw0⟩ := hex
    exact lt_of_lt_of_le hw0 (List.single_le_sum (near_mem hnear).1 _ hwm)
  obtain ⟨i, hi, hc, ⟨h', hwi⟩, _⟩ := C69_choice_partial slots time weather ws r hw hr h0 h1 hpos hn
  refine ⟨slots[i], by simp, hc, ws[i], ?_, hwi⟩
  have := List.forall₂_iff_get.mp hw
  simpa using this.2 i hi h'

/-! ### exact case -/

theorem f32Value_isFp {x : BitVec 32} {v : ℚ} (h : f32Value x = some v) (hv : 0 ≤ v) :
    ∃ (m : ℕ) (e : ℤ), m < 2 ^ 24 ∧ v = m * 2 ^ e := by
  unfold f32Value at h
  simp only at h
  have hm : x.toNat % 2 ^ 23 < 2 ^ 23 := Nat.mod_lt _ (by norm_num)
  split at h
  · exact absurd h (by simp)
  · split at h
    · obtain rfl := Option.some.inj h
      split
      · refine ⟨x.toNat % 2 ^ 23, -149, by omega, ?_⟩
        rw [zpow_neg]; norm_num; ring
      · rename_i h3
        rw [if_neg h3] at hv
        have hq : (0 : ℚ) ≤ ((x.toNat % 2 ^ 23 : ℕ) : ℚ) / 2 ^ 149 := by positivity
        have : (-1 : ℚ) * ((x.toNat % 2 ^ 23 : ℕ) : ℚ) / 2 ^ 149 = -(((x.toNat % 2 ^ 23 : ℕ) : ℚ) / 2 ^ 149) := by ring
        rw [this] at hv ⊢
        refine ⟨0, 0, by norm_num, ?_⟩
        simp
        have : ((x.toNat % 2 ^ 23 : ℕ) : ℚ) / 2 ^ 149 = 0 := by linarith
        have := (div_eq_zero_iff.mp this).resolve_right (by positivity)
        exact_mod_cast this
    · obtain rfl := Option.some.inj h
      set e := x.toNat / 2 ^ 23 % 2 ^ 8
      have hpos : (0 : ℚ) < ((2 ^ 23 + x.toNat % 2 ^ 23 : ℕ) : ℚ) * 2 ^ e / 2 ^ 150 := by
        have : (0 : ℚ) < ((2 ^ 23 + x.toNat % 2 ^ 23 : ℕ) : ℚ) := by exact_mod_cast (by omega)
        positivity
      split
      · refine ⟨2 ^ 23 + x.toNat % 2 ^ 23, (e : ℤ) - (150 : ℕ), by omega, ?_⟩
        rw [zpow_sub₀ (by norm_num), zpow_natCast, zpow_natCast]
        ring
      · rename_i h3
        rw [if_neg h3] at hv
        exfalso
        have : (-1 : ℚ) * ((2 ^ 23 + x.toNat % 2 ^ 23 : ℕ) : ℚ) * 2 ^ e / 2 ^ 150 =
          -(((2 ^ 23 + x.toNat % 2 ^ 23 : ℕ) : ℚ) * 2 ^ e / 2 ^ 150) := by ring
        rw [this] at hv
        linarith

theorem probabilities_exact {time weather : ℕ} {slots : List SlotLA} {ws : List ℚ} (e : ℤ)
    (h : List.Forall₂ (Weight time weather) slots ws) (hb : ∀ s ∈ slots, s.baseProbability.toNat < 2 ^ 29)
    (he : ∀ w ∈ ws, ∃ m : ℕ, m ≤ 2 ^ 53 ∧ w = m * 2 ^ e) :
    probabilities time weather slots = .ok ws := by
  induction h with
  | nil => rfl
  | cons hw _ ih =>
    rename_i s w ss ws _
    have := ih (fun x hx => hb x (by simp [hx])) (fun x hx => he x (by simp [hx]))
    have hp : probability s time weather = .ok w := by
      obtain ⟨m, hm, hwe⟩ := he w (by simp)
      obtain ⟨tb, wb, t, v, h1, h2, h3, h4, ht, hv, hwv⟩ := hw
      obtain ⟨mt, et, hmt, hte⟩ := f32Value_isFp h3 ht
      have hbs := hb s (by simp)
      have e1 : rnd 53 (s.baseProbability.toNat * t) = s.baseProbability.toNat * t := by
        apply rnd_fix (by norm_num)
        refine ⟨((s.baseProbability.toNat * mt : ℕ) : ℤ), et, ?_, by rw [hte]; push_cast; ring⟩
        rw [abs_of_nonneg (by positivity)]
        have : s.baseProbability.toNat * mt ≤ 2 ^ 29 * 2 ^ 24 := Nat.mul_le_mul hbs.le hmt.le
        exact_mod_cast this
      have e2 : rnd 53 (s.baseProbability.toNat * t * v) = w := by
        rw [← hwv]
        apply rnd_fix (by norm_num)
        refine ⟨(m : ℤ), e, ?_, by rw [hwe]; push_cast; ring⟩
        rw [abs_of_nonneg (by positivity)]
        exact_mod_cast hm
      simp only [probability, h1, h2, h3, h4, e1, e2]
    simp only [probabilities, hp, this]
    rfl

/-- C69 exactly, for weights that are multiples of a common power of two with at most 29 bits together: the chosen slot
is the one whose half-open interval of cumulative weights contains `rand` times the total. `rand` is one of the 2^24
multiples of 2^-24 in [0,1). -/
theorem C69_exact_partial (slots : List SlotLA) (time weather : ℕ) (e : ℤ) (ms : List ℕ)
    (hw : List.Forall₂ (Weight time weather) slots (ms.map fun (m : ℕ) => (m : ℚ) * 2 ^ e))
    (hb : ∀ s ∈ slots, s.baseProbability.toNat < 2 ^ 29) (hsum : ms.sum < 2 ^ 29) (hpos : 0 < ms.sum)
    (c : ℕ) (hc : c < 2 ^ 24) :
    let ws := ms.map fun (m : ℕ) => (m : ℚ) * 2 ^ e
    let r := (c : ℚ) / 2 ^ 24
    ∃ i, ∃ h : i < slots.length, calcSlot .numba slots r time weather = .ok slots[i] ∧
      (ws.take i).sum ≤ r * ws.sum ∧ r * ws.sum < (ws.take (i + 1)).sum := by
  intro ws r
  have hps := probabilities_exact e hw hb (by
    intro w hwm
    obtain ⟨m, hm, rfl⟩ := List.mem_map.mp hwm
    exact ⟨m, (List.single_le_sum (fun _ _ => Nat.zero_le _) _ hm).trans (by omega), rfl⟩)
  obtain ⟨h1, h2, h3⟩ := choose_exact e ms hsum hpos c hc
  have hl := hw.length_eq
  have hi : choose r ws < slots.length := lt_of_lt_of_eq h1 hl.symm
  refine ⟨choose r ws, hi, ?_, h2, h3⟩
  simp only [calcSlot, hps]
  have : slots[choose r ws]? = some slots[choose r ws] := List.getElem?_eq_getElem hi
  rw [this]

/-! ### counterexamples -/

/-- a slot with multipliers 1.0, told apart by its species -/
def slotOf (species : BitVec 16) (base : BitVec 32) : SlotLA :=
  ⟨species, 0, 0, 0, 0, 0, base, 0, [0x3f800000#32], [0x3f800000#32]⟩

theorem slotOf_weight (species : BitVec 16) (base : BitVec 32) : Weight 0 0 (slotOf species base) base.toNat :=
  ⟨0x3f800000#32, 0x3f800000#32, 1, 1, rfl, rfl, one_value, one_value, by norm_num, by norm_num, by simp [slotOf]⟩

def badSlots : List SlotLA := [slotOf 1 3217031551#32, slotOf 2 3217030784#32]

def badRand : ℚ := 8388609 / 2 ^ 24

theorem badRand_fp : IsFp 24 badRand := ⟨8388609, -24, by norm_num, by rw [badRand, zpow_neg]; norm_num⟩

theorem bad_choice : calcSlot .numba badSlots badRand 0 0 = .ok (slotOf 2 3217030784#32) := by decide +kernel

/-- The full claim is false: `rand * total` is 2^-24 below the first weight, but rounds to it, and the second slot is
chosen. -/
theorem C69_full_false : ¬ C69Statement := by
  intro h
  obtain ⟨i, hi, hc, hlo, hup⟩ := h badSlots 0 0 [3217031551, 3217030784] badRand
    (.cons (by simpa using slotOf_weight 1 3217031551#32) (.cons (by simpa using slotOf_weight 2 3217030784#32) .nil))
    badRand_fp (by norm_num [badRand]) (by norm_num [badRand]) (by norm_num)
  rw [bad_choice] at hc
  have hi' : i < 2 := hi
  interval_cases i
  · have h2 : slotOf 2 3217030784#32 = slotOf 1 3217031551#32 := Except.ok.inj hc
    exact absurd h2 (by decide)
  · norm_num [badRand] at hlo

/-- Without numba `calc_slot` always raises: `self.slots` is a plain structured array. -/
theorem C69_plain (slots : List SlotLA) (r : ℚ) (time weather : ℕ) :
    calcSlot .numpy slots r time weather = .error .attributeError := rfl

/-! ### non-vacuity -/

/-- weights 30, 0 and 70 -/
def goodSlots : List SlotLA := [slotOf 1 30#32, slotOf 2 0#32, slotOf 3 70#32]

example : calcSlot .numba goodSlots (1 / 4) 0 0 = .ok (slotOf 1 30#32) := by decide +kernel
example : calcSlot .numba goodSlots (5 / 16) 0 0 = .ok (slotOf 3 70#32) := by decide +kernel

example : ∃ i, ∃ h : i < goodSlots.length, calcSlot .numba goodSlots ((5242880 : ℕ) / 2 ^ 24) 0 0 = .ok goodSlots[i] :=
  let ⟨i, h, hc, _⟩ := C69_exact_partial goodSlots 0 0 0 [30, 0, 70]
    (.cons (by simpa using slotOf_weight 1 30#32) (.cons (by simpa using slotOf_weight 2 0#32)
      (.cons (by simpa using slotOf_weight 3 70#32) .nil)))
    (by decide) (by norm_num) (by norm_num) 5242880 (by norm_num)
  ⟨i, h, hc⟩

example : ∃ slot ∈ goodSlots, calcSlot .numba goodSlots badRand 0 0 = .ok slot ∧ ∃ w, Weight 0 0 slot w ∧ 0 < w :=
  C69_positive goodSlots 0 0 [30, 0, 70] badRand
    (.cons (by simpa using slotOf_weight 1 30#32) (.cons (by simpa using slotOf_weight 2 0#32)
      (.cons (by simpa using slotOf_weight 3 70#32) .nil)))
    badRand_fp (by norm_num [badRand]) (by norm_num [badRand]) ⟨30, by simp, by norm_num⟩ (by decide)

end Verif.CalcSlotLa
