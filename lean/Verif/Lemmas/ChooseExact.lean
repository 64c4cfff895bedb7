import Verif.Props.CalcSlotLa
/-
When the rounding in `calc_slot` cannot change the choice: the weights are integers (times a power of two) with a total of
at most 53 bits, and no 24-bit float times the total comes too close below a cumulative weight.
-/
namespace Verif.CalcSlotLa
open EncLoadLa Fp

/-! ### scaling by a power of two -/

theorem log_scale (x : ℚ) (hx : 0 < x) (e : ℤ) : Int.log 2 (x * 2 ^ e) = Int.log 2 x + e := by
  have he := two_zpow_pos e
  have hxe : 0 < x * 2 ^ e := mul_pos hx he
  have key : ∀ n : ℤ, n ≤ Int.log 2 (x * 2 ^ e) ↔ n - e ≤ Int.log 2 x := by
    intro n
    rw [← Int.zpow_le_iff_le_log (by norm_num) hxe, ← Int.zpow_le_iff_le_log (by norm_num) hx]
    push_cast
    rw [zpow_sub₀ (by norm_num), div_le_iff₀ he]
  apply le_antisymm
  · have := (key _).mp (le_refl _); omega
  · exact (key _).mpr (by omega)

theorem rnd_scale (p : ℕ) (x : ℚ) (e : ℤ) : rnd p (x * 2 ^ e) = rnd p x * 2 ^ e := by
  have he := two_zpow_pos e
  by_cases hx : x = 0
  · rw [hx]; simp [rnd_zero]
  · have hxe : x * 2 ^ e ≠ 0 := mul_ne_zero hx he.ne'
    have hu : ulpExp p (x * 2 ^ e) = ulpExp p x + e := by
      unfold ulpExp
      rw [abs_mul, abs_of_pos he, log_scale _ (abs_pos.mpr hx)]
      ring
    unfold rnd
    rw [if_neg hx, if_neg hxe, hu, zpow_add₀ (by norm_num), mul_div_mul_right _ _ he.ne']
    ring

theorem total_scale (ps : List ℚ) (e : ℤ) : total (ps.map (· * 2 ^ e)) = total ps * 2 ^ e := by
  have : ∀ c, (ps.map (· * 2 ^ e)).foldl (fun c p => rnd 53 (c + p)) (c * 2 ^ e) =
      ps.foldl (fun c p => rnd 53 (c + p)) c * 2 ^ e := by
    induction ps with
    | nil => intro c; rfl
    | cons p ps ih =>
      intro c
      rw [List.map_cons, List.foldl_cons, List.foldl_cons, ← add_mul, rnd_scale, ih]
  have h := this 0
  rwa [zero_mul] at h

theorem pick_scale (ps : List ℚ) (e : ℤ) (i : ℕ) (s : ℚ) : pick i (s * 2 ^ e) (ps.map (· * 2 ^ e)) = pick i s ps := by
  have he := two_zpow_pos e
  induction ps generalizing i s with
  | nil => rfl
  | cons p ps ih =>
    rw [List.map_cons, pick, pick, ← sub_mul, rnd_scale, ih]
    simp only [mul_lt_mul_iff_left₀ he]

theorem choose_scale (r : ℚ) (ps : List ℚ) (e : ℤ) : choose r (ps.map (· * 2 ^ e)) = choose r ps := by
  unfold choose
  rw [total_scale, ← mul_assoc, rnd_scale, pick_scale]

/-! ### integer weights -/

theorem total_nat (ms : List ℕ) (h : ms.sum ≤ 2 ^ 53) : total (ms.map fun m : ℕ => (m : ℚ)) = ms.sum := by
  have : ∀ c : ℕ, c + ms.sum ≤ 2 ^ 53 →
      (ms.map fun m : ℕ => (m : ℚ)).foldl (fun c p => rnd 53 (c + p)) (c : ℚ) = ((c + ms.sum : ℕ) : ℚ) := by
    clear h
    induction ms with
    | nil => intro c _; simp
    | cons m ms ih =>
      intro c hc
      rw [List.sum_cons] at hc
      have e : rnd 53 ((c : ℚ) + (m : ℚ)) = ((c + m : ℕ) : ℚ) := by
        rw [← Nat.cast_add]
        apply rnd_fix (by norm_num)
        refine ⟨((c + m : ℕ) : ℤ), 0, ?_, by simp⟩
        rw [abs_of_nonneg (by positivity)]
        exact_mod_cast (by omega : c + m ≤ 2 ^ 53)
      rw [List.map_cons, List.foldl_cons, e, ih _ (by omega), List.sum_cons]
      congr 1; omega
  have h0 := this 0 (by omega)
  simpa [total] using h0

/-- no rounding between `r * τ` and `c`: the rounded product is below `c` whenever the exact one is -/
def Sep (r : ℚ) (τ c : ℕ) : Prop := r * τ < c → rnd 53 (r * τ) < c

/-- `s - C` is representable for an integer `C ≤ s` -/
theorem sub_exact {s : ℚ} (hs : IsFp 53 s) (hs53 : s ≤ 2 ^ 53) (C : ℕ) (h : (C : ℚ) ≤ s) : rnd 53 (s - C) = s - C := by
  apply rnd_fix (by norm_num)
  obtain ⟨m, j, hm, rfl⟩ := hs
  have hj := two_zpow_pos j
  have hC : (0 : ℚ) ≤ C := Nat.cast_nonneg C
  have hm0 : 0 ≤ (m : ℚ) := by
    by_contra hneg
    push Not at hneg
    have : (m : ℚ) * 2 ^ j < 0 := mul_neg_of_neg_of_pos hneg hj
    linarith
  rcases le_or_gt 0 j with hj0 | hj0
  · obtain ⟨n, rfl⟩ := Int.eq_ofNat_of_zero_le hj0
    refine ⟨m * 2 ^ n - C, 0, ?_, by push_cast; simp⟩
    have h1 : ((m * 2 ^ n - C : ℤ) : ℚ) = (m : ℚ) * 2 ^ ((n : ℕ) : ℤ) - C := by push_cast; simp
    have h2 : (0 : ℚ) ≤ ((m * 2 ^ n - C : ℤ) : ℚ) := by rw [h1]; linarith
    have h3 : ((m * 2 ^ n - C : ℤ) : ℚ) ≤ 2 ^ 53 := by rw [h1]; linarith
    rw [abs_of_nonneg (by exact_mod_cast h2)]
    exact_mod_cast h3
  · obtain ⟨n, hn⟩ := Int.eq_ofNat_of_zero_le (show 0 ≤ -j by omega)
    have e1 : (2 : ℚ) ^ n * 2 ^ j = 1 := by
      rw [← zpow_natCast, ← zpow_add₀ (by norm_num), show (n : ℤ) + j = 0 by omega, zpow_zero]
    have e2 : ((m - C * 2 ^ n : ℤ) : ℚ) * 2 ^ j = (m : ℚ) * 2 ^ j - C := by
      push_cast
      rw [sub_mul, mul_assoc, e1, mul_one]
    refine ⟨m - C * 2 ^ n, j, ?_, e2.symm⟩
    have h2 : 0 ≤ m - C * 2 ^ n := by
      have : (0 : ℚ) ≤ ((m - C * 2 ^ n : ℤ) : ℚ) := by
        by_contra hneg
        push Not at hneg
        have := mul_neg_of_neg_of_pos hneg hj
        rw [e2] at this
        linarith
      exact_mod_cast this
    rw [abs_of_nonneg h2]
    have h4 : m ≤ 2 ^ 53 := (le_abs_self m).trans hm
    have h5 : (0 : ℤ) ≤ C * 2 ^ n := by positivity
    omega

theorem pick_nat {s : ℚ} (hs : IsFp 53 s) (hs53 : s ≤ 2 ^ 53) (ms : List ℕ) (C i : ℕ) (hC : (C : ℚ) ≤ s)
    (hlt : s < ((C + ms.sum : ℕ) : ℚ)) :
    ∃ k, pick i (s - C) (ms.map fun m : ℕ => (m : ℚ)) = i + k ∧ k < ms.length ∧
      (((C + (ms.take k).sum : ℕ) : ℚ) ≤ s ∧ s < ((C + (ms.take (k + 1)).sum : ℕ) : ℚ)) := by
  induction ms generalizing C i with
  | nil => simp at hlt; linarith
  | cons m ms ih =>
    rw [List.map_cons, pick]
    by_cases h : s - C < m
    · rw [if_pos h]
      refine ⟨0, by simp, by simp, by simpa using hC, ?_⟩
      simp only [List.take_succ_cons, List.take_zero, List.sum_cons, List.sum_nil]
      push_cast; linarith
    · rw [if_neg h]
      have hC' : ((C + m : ℕ) : ℚ) ≤ s := by push_cast; linarith
      have e : s - C - m = s - ((C + m : ℕ) : ℚ) := by push_cast; ring
      rw [e, sub_exact hs hs53 _ hC']
      obtain ⟨k, h1, h2, h3, h4⟩ := ih (C + m) (i + 1) hC' (by rw [List.sum_cons] at hlt; rwa [Nat.add_assoc])
      refine ⟨k + 1, by rw [h1]; omega, by simp; omega, ?_, ?_⟩
      · rw [List.take_succ_cons, List.sum_cons, ← Nat.add_assoc]; exact h3
      · rw [List.take_succ_cons, List.sum_cons, ← Nat.add_assoc]; exact h4

theorem sum_cast (ms : List ℕ) : (ms.map fun m : ℕ => (m : ℚ)).sum = (ms.sum : ℕ) := by
  induction ms with
  | nil => simp
  | cons m ms ih => rw [List.map_cons, List.sum_cons, ih, List.sum_cons]; push_cast; rfl

/-- The choice is exact if no cumulative weight is too close. -/
theorem choose_sep (ms : List ℕ) (hsum : ms.sum ≤ 2 ^ 53) (hpos : 0 < ms.sum) (r : ℚ) (h0 : 0 ≤ r) (h1 : r < 1)
    (hsep : ∀ i ≤ ms.length, 0 < (ms.take i).sum → Sep r ms.sum (ms.take i).sum) :
    let i := choose r (ms.map fun m : ℕ => (m : ℚ))
    i < ms.length ∧ ((ms.take i).sum : ℚ) ≤ r * ms.sum ∧ r * ms.sum < (ms.take (i + 1)).sum := by
  intro i
  have hτ : (0 : ℚ) < ms.sum := by exact_mod_cast hpos
  set s := rnd 53 (r * ms.sum) with hs
  have hsfp : IsFp 53 s := rnd_isFp (by norm_num) _
  have hs0 : 0 ≤ s := rnd_nonneg (by positivity)
  have hslt : s < ms.sum := by
    have := hsep ms.length (le_refl _)
    rw [List.take_length] at this
    exact this hpos (by nlinarith)
  have hs53 : s ≤ 2 ^ 53 := by
    have : (ms.sum : ℚ) ≤ 2 ^ 53 := by exact_mod_cast hsum
    linarith
  obtain ⟨k, hk1, hk2, hk3, hk4⟩ := pick_nat hsfp hs53 ms 0 0 (by simpa using hs0) (by simpa using hslt)
  have hi : i = k := by
    show pick 0 (rnd 53 (r * total (ms.map fun m : ℕ => (m : ℚ)))) _ = k
    rw [total_nat ms hsum, ← hs]
    simpa using hk1
  rw [hi]
  rw [Nat.zero_add] at hk3 hk4
  refine ⟨hk2, ?_, ?_⟩
  · by_contra hlt
    push Not at hlt
    rcases Nat.eq_zero_or_pos (ms.take k).sum with hz | hp
    · rw [hz] at hlt
      have : 0 ≤ r * ms.sum := by positivity
      simp at hlt; linarith
    · have := hsep k (by omega) hp hlt
      rw [← hs] at this
      linarith
  · by_contra hge
    push Not at hge
    have hle : (ms.take (k + 1)).sum ≤ ms.sum := by
      conv_rhs => rw [← List.take_append_drop (k + 1) ms]
      rw [List.sum_append]; omega
    have hfix : rnd 53 (((ms.take (k + 1)).sum : ℕ) : ℚ) = (ms.take (k + 1)).sum := by
      apply rnd_fix (by norm_num)
      refine ⟨(((ms.take (k + 1)).sum : ℕ) : ℤ), 0, ?_, by simp⟩
      rw [abs_of_nonneg (by positivity)]
      exact_mod_cast hle.trans hsum
    have := rnd_mono (p := 53) (by norm_num) hge
    rw [hfix, ← hs] at this
    linarith

/-! ### when the cumulative weights are far enough -/

theorem sep_small {r : ℚ} (hr : IsFp 24 r) {τ : ℕ} (h : τ ≤ 2 ^ 29) (c : ℕ) : Sep r τ c := by
  intro hlt
  obtain ⟨m, e, hm, rfl⟩ := hr
  rw [rnd_fix (by norm_num)]
  · exact hlt
  · refine ⟨m * τ, e, ?_, by push_cast; ring⟩
    rw [abs_mul, abs_of_nonneg (by positivity : (0 : ℤ) ≤ (τ : ℤ))]
    have : |m| * (τ : ℤ) ≤ 2 ^ 24 * 2 ^ 29 :=
      mul_le_mul hm (by exact_mod_cast h) (by positivity) (by positivity)
    linarith

theorem sep_of_gap {r : ℚ} (h0 : 0 ≤ r) {τ c : ℕ} (hg : r * τ < c → (c : ℚ) < (c - r * τ) * 2 ^ 53) : Sep r τ c := by
  intro hlt
  have hx : 0 ≤ r * τ := by positivity
  have := rnd_err 53 (r * τ)
  rw [abs_of_nonneg hx] at this
  have h1 := (abs_le.mp this).2
  have h2 := hg hlt
  have h3 : r * τ / 2 ^ 53 ≤ c / 2 ^ 53 := by
    apply div_le_div_of_nonneg_right hlt.le (by positivity)
  have h4 : (c : ℚ) / 2 ^ 53 < c - r * τ := by
    rw [div_lt_iff₀ (by positivity)]; exact h2
  linarith

/-- the exponent at which a 24-bit float near `c / τ` is an integer of at least 23 bits -/
def sepExp (τ c : ℕ) : ℕ := 24 + Nat.log2 τ - Nat.log2 c

/-- the remainder of `c 2^E` modulo `τ` is 0 or not too small -/
def sepOk (τ c : ℕ) : Bool :=
  let num := c <<< sepExp τ c
  num % τ == 0 || num < (num % τ) <<< 53

theorem sep_gap {r : ℚ} (hr : IsFp 24 r) (h0 : 0 ≤ r) {τ c : ℕ} (hc : 0 < c) (hcτ : c ≤ τ) (h : sepOk τ c = true) :
    Sep r τ c := by
  apply sep_of_gap h0
  intro hlt
  have hτ : 0 < τ := by omega
  unfold sepOk at h
  set E := sepExp τ c with hE
  have hlog : Nat.log2 c ≤ Nat.log2 τ := by
    rw [Nat.le_log2 hτ.ne']
    exact (Nat.log2_self_le hc.ne').trans hcτ
  have hE' : Nat.log2 c + E = 24 + Nat.log2 τ := by rw [hE, sepExp]; omega
  set num := c * 2 ^ E with hnum
  simp only [Nat.shiftLeft_eq, ← hnum, Bool.or_eq_true, beq_iff_eq, decide_eq_true_eq] at h
  -- bounds of `num`
  have hlo : 2 ^ 23 * τ < num := by
    have h1 : 2 ^ Nat.log2 c * 2 ^ E ≤ num := Nat.mul_le_mul_right _ (Nat.log2_self_le hc.ne')
    rw [← pow_add, hE', pow_add] at h1
    have h2 : τ < 2 ^ (Nat.log2 τ + 1) := Nat.lt_log2_self
    rw [pow_succ] at h2
    omega
  have hhi : num < 2 ^ 25 * τ := by
    have h1 : c * 2 ^ E < 2 ^ (Nat.log2 c + 1) * 2 ^ E := Nat.mul_lt_mul_of_pos_right Nat.lt_log2_self (by positivity)
    rw [← pow_add, show Nat.log2 c + 1 + E = 25 + Nat.log2 τ by omega, pow_add] at h1
    have h2 := Nat.log2_self_le hτ.ne'
    have h3 : 2 ^ 25 * 2 ^ Nat.log2 τ ≤ 2 ^ 25 * τ := Nat.mul_le_mul_left _ h2
    omega
  have h2E : (0 : ℚ) < 2 ^ E := by positivity
  have hτq : (0 : ℚ) < τ := by exact_mod_cast hτ
  have hnq : (num : ℚ) = c * 2 ^ E := by rw [hnum]; push_cast; rfl
  -- enough: the gap scaled by `2^E`
  suffices hs : (num : ℚ) < (num - r * 2 ^ E * τ) * 2 ^ 53 by
    rw [hnq] at hs
    have : (c : ℚ) * 2 ^ E < ((c - r * τ) * 2 ^ 53) * 2 ^ E := by linarith
    exact lt_of_mul_lt_mul_right this h2E.le
  have hhiq : (num : ℚ) < 2 ^ 25 * τ := by exact_mod_cast hhi
  have hloq : (2 : ℚ) ^ 23 * τ < num := by exact_mod_cast hlo
  -- integer case
  have int_case : ∀ k : ℕ, r * 2 ^ E = k → (num : ℚ) < (num - r * 2 ^ E * τ) * 2 ^ 53 := by
    intro k hk
    rw [hk]
    have hkn : k * τ < num := by
      have : (k : ℚ) * τ < num := by
        rw [← hk, hnq]
        have := mul_lt_mul_of_pos_right hlt h2E
        linarith
      exact_mod_cast this
    have hdm := Nat.div_add_mod num τ
    have hkd : k ≤ num / τ := by rw [Nat.le_div_iff_mul_le hτ]; omega
    obtain ⟨d, hd⟩ := Nat.exists_eq_add_of_le hkd
    rw [hd, Nat.mul_add] at hdm
    have hgap : num - k * τ = τ * d + num % τ := by
      rw [Nat.mul_comm k τ]; omega
    have hgq : (num : ℚ) - k * τ = τ * d + (num % τ : ℕ) := by
      have : ((num - k * τ : ℕ) : ℚ) = ((τ * d + num % τ : ℕ) : ℚ) := by rw [hgap]
      rw [Nat.cast_sub hkn.le] at this
      push_cast at this ⊢
      exact this
    rw [hgq]
    have hdq : (0 : ℚ) ≤ τ * d := by positivity
    rcases h with h | h
    · have hd0 : 1 ≤ d := by
        by_contra hd0
        have : d = 0 := by omega
        subst this
        rw [h, Nat.mul_comm τ k] at hdm
        omega
      have hd1 : (1 : ℚ) ≤ d := by exact_mod_cast hd0
      have : (τ : ℚ) * 1 ≤ τ * d := mul_le_mul_of_nonneg_left hd1 hτq.le
      have h5 : (0 : ℚ) ≤ (num % τ : ℕ) := Nat.cast_nonneg _
      nlinarith
    · have h6 : (num : ℚ) < ((num % τ : ℕ) : ℚ) * 2 ^ 53 := by
        clear_value num
        exact_mod_cast h
      have h7 : ((num % τ : ℕ) : ℚ) * 2 ^ 53 ≤ (τ * d + (num % τ : ℕ)) * 2 ^ 53 :=
        mul_le_mul_of_nonneg_right (by linarith) (by positivity)
      linarith
  -- small case
  have small_case : r * 2 ^ E ≤ 2 ^ 23 - 1 / 2 → (num : ℚ) < (num - r * 2 ^ E * τ) * 2 ^ 53 := by
    intro hk
    have h1 : r * 2 ^ E * τ ≤ (2 ^ 23 - 1 / 2) * τ := mul_le_mul_of_nonneg_right hk hτq.le
    nlinarith
  obtain ⟨m, j, hm, rfl⟩ := hr
  have hj := two_zpow_pos j
  have hm0 : 0 ≤ m := by
    by_contra hneg
    have h2 : (m : ℚ) < 0 := by exact_mod_cast (by omega : m < 0)
    have := mul_neg_of_neg_of_pos h2 hj
    linarith
  have hm24 : m ≤ 2 ^ 24 := (le_abs_self m).trans hm
  obtain ⟨n, rfl⟩ := Int.eq_ofNat_of_zero_le hm0
  have hscale : ((n : ℤ) : ℚ) * 2 ^ j * 2 ^ E = n * 2 ^ (j + E) := by
    rw [zpow_add₀ (by norm_num), zpow_natCast]; push_cast; ring
  rcases le_or_gt 0 (j + E) with hjE | hjE
  · obtain ⟨a, ha⟩ := Int.eq_ofNat_of_zero_le hjE
    apply int_case (n * 2 ^ a)
    rw [hscale, ha]; push_cast; simp
  · rcases eq_or_ne (j + E) (-1) with hje | hje
    · have hhalf : (2 : ℚ) ^ (j + E) = 1 / 2 := by rw [hje]; norm_num
      rcases eq_or_ne n (2 ^ 24) with hn | hn
      · apply int_case (2 ^ 23)
        rw [hscale, hhalf, hn]; norm_num
      · apply small_case
        rw [hscale, hhalf]
        have : n ≤ 2 ^ 24 - 1 := by omega
        have : (n : ℚ) ≤ 2 ^ 24 - 1 := by
          have h5 : (n : ℚ) ≤ ((2 ^ 24 - 1 : ℕ) : ℚ) := by exact_mod_cast this
          norm_num at h5 ⊢
          exact h5
        linarith
    · apply small_case
      rw [hscale]
      have h3 : (2 : ℚ) ^ (j + E) ≤ 2 ^ (-2 : ℤ) := zpow_le_zpow_right₀ (by norm_num) (by omega)
      have h4 : (n : ℚ) ≤ 2 ^ 24 := by exact_mod_cast (by omega : n ≤ 2 ^ 24)
      have h5 : (n : ℚ) * 2 ^ (j + E) ≤ 2 ^ 24 * 2 ^ (-2 : ℤ) := mul_le_mul h4 h3 (two_zpow_pos _).le (by positivity)
      norm_num at h5 ⊢
      linarith

/-- `calc_slot` is exact if no cumulative weight is too close. -/
theorem calcSlot_sep (slots : List SlotLA) (time weather : ℕ) (e : ℤ) (ms : List ℕ)
    (hw : List.Forall₂ (Weight time weather) slots (ms.map fun (m : ℕ) => (m : ℚ) * 2 ^ e))
    (hb : ∀ s ∈ slots, s.baseProbability.toNat < 2 ^ 29) (hsum : ms.sum ≤ 2 ^ 53) (hpos : 0 < ms.sum)
    (r : ℚ) (h0 : 0 ≤ r) (h1 : r < 1)
    (hsep : ∀ i ≤ ms.length, 0 < (ms.take i).sum → Sep r ms.sum (ms.take i).sum) :
    let ws := ms.map fun (m : ℕ) => (m : ℚ) * 2 ^ e
    ∃ i, ∃ h : i < slots.length, calcSlot .numba slots r time weather = .ok slots[i] ∧
      (ws.take i).sum ≤ r * ws.sum ∧ r * ws.sum < (ws.take (i + 1)).sum := by
  intro ws
  have hps := probabilities_exact e hw hb (by
    intro w hwm
    obtain ⟨m, hm, rfl⟩ := List.mem_map.mp hwm
    exact ⟨m, (List.single_le_sum (fun _ _ => Nat.zero_le _) _ hm).trans hsum, rfl⟩)
  have hscale : ws = (ms.map fun m : ℕ => (m : ℚ)).map (· * 2 ^ e) := by simp [ws]
  have hsc : ∀ l : List ℚ, (l.map (· * 2 ^ e)).sum = l.sum * 2 ^ e := by
    intro l
    induction l with
    | nil => simp
    | cons x l ih => rw [List.map_cons, List.sum_cons, ih, List.sum_cons, add_mul]
  have he := two_zpow_pos e
  obtain ⟨c1, c2, c3⟩ := choose_sep ms hsum hpos r h0 h1 hsep
  have hch : choose r ws = choose r (ms.map fun m : ℕ => (m : ℚ)) := by rw [hscale, choose_scale]
  rw [← hch] at c1 c2 c3
  have hl := hw.length_eq
  rw [List.length_map] at hl
  refine ⟨choose r ws, by omega, ?_, ?_, ?_⟩
  · have hps' : probabilities time weather slots = .ok ws := hps
    simp only [calcSlot, hps']
    rw [List.getElem?_eq_getElem (show choose r ws < slots.length by omega)]
  · rw [hscale, ← List.map_take, hsc, hsc, ← List.map_take, sum_cast, sum_cast, ← mul_assoc, ← hscale]
    exact mul_le_mul_of_nonneg_right c2 he.le
  · rw [hscale, ← List.map_take, hsc, hsc, ← List.map_take, sum_cast, sum_cast, ← mul_assoc, ← hscale]
    exact mul_lt_mul_of_pos_right c3 he

end Verif.CalcSlotLa
