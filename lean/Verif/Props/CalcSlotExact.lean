import Verif.Lemmas.ChooseExact
/-
C69 exactly for every float32 `rand`.
-/
namespace Verif.CalcSlotLa
open EncLoadLa Fp

theorem sum_scaled (ms : List ℕ) (e : ℤ) : (ms.map fun (m : ℕ) => (m : ℚ) * 2 ^ e).sum = (ms.sum : ℕ) * 2 ^ e := by
  induction ms with
  | nil => simp
  | cons m ms ih => rw [List.map_cons, List.sum_cons, ih, List.sum_cons]; push_cast; ring

/-- **C69** exactly, for weights that are multiples of a common power of two with a sum of at most `2^29` of them: for every float32
`rand` in [0, 1) the slot returned is the one whose half-open interval of cumulative weights contains `rand` times the total. (The
bound on the weights is what is missing from the full claim, which is false: `C69_full_false`.) -/
theorem C69_float_partial (slots : List SlotLA) (time weather : ℕ) (e : ℤ) (ms : List ℕ)
    (hw : List.Forall₂ (Weight time weather) slots (ms.map fun (m : ℕ) => (m : ℚ) * 2 ^ e))
    (hb : ∀ s ∈ slots, s.baseProbability.toNat < 2 ^ 29) (hsum : ms.sum ≤ 2 ^ 29) (hpos : 0 < ms.sum)
    (r : ℚ) (hr : IsFp 24 r) (h0 : 0 ≤ r) (h1 : r < 1) :
    let ws := ms.map fun (m : ℕ) => (m : ℚ) * 2 ^ e
    ∃ i, ∃ h : i < slots.length, calcSlot .numba slots r time weather = .ok slots[i] ∧
      (ws.take i).sum ≤ r * ws.sum ∧ r * ws.sum < (ws.take (i + 1)).sum := by
  intro ws
  have he := two_zpow_pos e
  have hps := probabilities_exact e hw hb (by
    intro w hwm
    obtain ⟨m, hm, rfl⟩ := List.mem_map.mp hwm
    exact ⟨m, (List.single_le_sum (fun _ _ => Nat.zero_le _) _ hm).trans (by omega), rfl⟩)
  have hl := hw.length_eq
  rw [List.length_map] at hl
  have hws : ws = (ms.map fun m : ℕ => (m : ℚ)).map (· * 2 ^ e) := by
    rw [List.map_map]
    rfl
  have hc : choose r ws = choose r (ms.map fun m : ℕ => (m : ℚ)) := by rw [hws, choose_scale]
  obtain ⟨g1, g2, g3⟩ := choose_sep ms (by omega) hpos r h0 h1 fun i _ _ => sep_small hr hsum _
  rw [← hc] at g1 g2 g3
  have hi : choose r ws < slots.length := by omega
  refine ⟨choose r ws, hi, ?_, ?_, ?_⟩
  · simp only [calcSlot, hps]
    have : slots[choose r ws]? = some slots[choose r ws] := List.getElem?_eq_getElem hi
    rw [this]
  · rw [← List.map_take, sum_scaled, sum_scaled, ← mul_assoc]
    exact mul_le_mul_of_nonneg_right g2 he.le
  · rw [← List.map_take, sum_scaled, sum_scaled, ← mul_assoc]
    exact mul_lt_mul_of_pos_right g3 he

/-- A `rand` that is not a multiple of `2^-24`: the least positive float32. -/
example : IsFp 24 (1 / 2 ^ 149) ∧ ∃ i, ∃ h : i < goodSlots.length, calcSlot .numba goodSlots (1 / 2 ^ 149) 0 0 = .ok goodSlots[i] := by
  have hr : IsFp 24 (1 / 2 ^ 149) := ⟨1, -149, by norm_num, by norm_num [zpow_neg]⟩
  obtain ⟨i, h, hc, -⟩ := C69_float_partial goodSlots 0 0 0 [30, 0, 70]
    (.cons (by simpa using slotOf_weight 1 30#32) (.cons (by simpa using slotOf_weight 2 0#32)
      (.cons (by simpa using slotOf_weight 3 70#32) .nil))) (by decide) (by norm_num) (by norm_num) _ hr (by positivity)
      (by norm_num)
  exact ⟨hr, i, h, hc⟩

end Verif.CalcSlotLa
