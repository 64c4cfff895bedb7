import Verif.Lemmas.Gen3
import Mathlib.Tactic.IntervalCases
/-
C51–C54, C58, C62: slot tables, slot and level selection, type leads, encounter rates, species packing.
-/
namespace Verif.Gen3
open Spec.Gen3

/-! ### C51 -/

theorem boundaries_facts {l : List Nat} (h : Boundaries l) :
    l ≠ [] ∧ (∀ b ∈ l, b ≤ 100) ∧ l.getLastD 0 = 100 ∧ l.Pairwise (· < ·) ∧ l = l.dropLast ++ [100] := by
  obtain ⟨h1, h2⟩ := h
  have hne : l ≠ [] := by intro h; simp [h] at h2
  have hlast : l.getLast hne = 100 := by
    rw [List.getLast?_eq_some_getLast hne] at h2; simpa using h2
  have happ : l = l.dropLast ++ [100] := by
    conv_lhs => rw [← List.dropLast_append_getLast hne]
    rw [hlast]
  have hp : l.Pairwise (· < ·) := (List.pairwise_cons.1 h1).2
  refine ⟨hne, fun b hb => ?_, by rw [List.getLastD_eq_getLast?, h2]; rfl, hp, happ⟩
  rw [happ, List.mem_append] at hb
  rcases hb with hb | hb
  · rw [happ, List.pairwise_append] at hp
    exact le_of_lt (hp.2.2 b hb 100 (by simp))
  · simp at hb; omega

/-- What `compute_table` stores, exactly: entry `r` is the number of inner boundaries at or below `r + 1` (not `r`). -/
def tableIndex (boundaries : List Nat) (r : Nat) : Nat := (boundaries.dropLast.filter (· ≤ r + 1)).length

/-- Every entry of the table is written, whatever memory `np.empty` returned; its exact value. -/
theorem C51_exact (l : List Nat) (hl : Boundaries l) (junk : Vector (BitVec 8) 100) :
    ∃ t, computeTable junk (l.map Nat.cast) false = .ok t ∧ t.length = 100 ∧
      ∀ r < 100, t[r]? = some (BitVec.ofNat 8 (tableIndex l r)) := by
  obtain ⟨h1, h2, h3, h4, h5⟩ := boundaries_facts hl
  obtain ⟨t, g1, g2, g3⟩ := tableLoop_get l 0 0 junk.toList (by simp) h1 hl.1 h2
  refine ⟨t, g1, g2, fun r hr => ?_⟩
  rw [g3 r, h3, if_pos (by omega), Nat.zero_add]; rfl

theorem slotOf_eq (l : List Nat) (hl : Boundaries l) (r : Nat) (hr : r < 100) :
    slotOf l r = (l.dropLast.filter (· ≤ r)).length := by
  obtain ⟨_, _, _, _, h5⟩ := boundaries_facts hl
  rw [slotOf]
  conv_lhs => rw [h5]
  rw [List.filter_append]
  simp; omega

/-- C51, the part that holds: rolls that are not directly below an inner boundary select the declared slot. Missing:
the rolls `b - 1` for inner boundaries `b`, where the claim is false (`C51_off_by_one`). -/
theorem C51_partial (l : List Nat) (hl : Boundaries l) (junk : Vector (BitVec 8) 100) :
    ∃ t, computeTable junk (l.map Nat.cast) false = .ok t ∧
      ∀ r < 100, r + 1 ∉ l.dropLast → t[r]? = some (BitVec.ofNat 8 (slotOf l r)) := by
  obtain ⟨t, h1, h2, h3⟩ := C51_exact l hl junk
  refine ⟨t, h1, fun r hr hnot => ?_⟩
  rw [h3 r hr, slotOf_eq l hl r hr, tableIndex]
  congr 3
  apply List.filter_congr
  intro b hb
  have : b ≠ r + 1 := fun h => hnot (h ▸ hb)
  simp; omega

theorem length_filter_succ {l : List Nat} (hp : l.Pairwise (· < ·)) {r : Nat} (hmem : r + 1 ∈ l) :
    (l.filter (· ≤ r + 1)).length = (l.filter (· ≤ r)).length + 1 := by
  induction l with
  | nil => simp at hmem
  | cons b l ih =>
    rw [List.pairwise_cons] at hp
    rw [List.filter_cons, List.filter_cons]
    by_cases hb : b = r + 1
    · subst hb
      rw [filter_le_eq_nil (fun x hx => hp.1 x hx), filter_le_eq_nil (fun x hx => by have := hp.1 x hx; omega)]
      simp
    · have hmem' : r + 1 ∈ l := by
        rcases List.mem_cons.1 hmem with h | h
        · exact absurd h.symm hb
        · exact h
      have hlt := hp.1 _ hmem'
      have := ih hp.2 hmem'
      rw [if_pos (by simp; omega), if_pos (by simp; omega)]
      simp [this]

/-- Every roll directly below an inner boundary is given to the next slot: the claim fails there, for every boundary
list. -/
theorem C51_off_by_one (l : List Nat) (hl : Boundaries l) (junk : Vector (BitVec 8) 100) (r : Nat) (hr : r < 100)
    (hmem : r + 1 ∈ l.dropLast) :
    ∃ t, computeTable junk (l.map Nat.cast) false = .ok t ∧ t[r]? = some (BitVec.ofNat 8 (slotOf l r + 1)) := by
  obtain ⟨t, h1, h2, h3⟩ := C51_exact l hl junk
  refine ⟨t, h1, ?_⟩
  obtain ⟨_, _, _, hp, h5⟩ := boundaries_facts hl
  rw [h3 r hr, slotOf_eq l hl r hr, tableIndex, length_filter_succ _ hmem]
  rw [h5, List.pairwise_append] at hp
  exact hp.1

/-- The boundary lists of lines 26-30. -/
def shippedBoundaries : List (List Nat) :=
  [[20, 40, 50, 60, 70, 80, 85, 90, 94, 98, 99, 100], [70, 100], [60, 80, 100], [40, 80, 95, 99, 100], [60, 90, 95, 99, 100]]

theorem shipped_boundaries : ∀ l ∈ shippedBoundaries, Boundaries l := by
  intro l hl
  simp only [shippedBoundaries, List.mem_cons, List.not_mem_nil, or_false] at hl
  rcases hl with rfl | rfl | rfl | rfl | rfl <;> exact ⟨by decide, by decide⟩

theorem shipped_ranges :
    [grassRanges, oldRodRanges, goodRodRanges, superRodRanges, rockSmashAndSurfRanges]
      = shippedBoundaries.map (·.map Nat.cast) := by decide

/-- C51 as stated is false, already for the grass table of line 26: roll 19 (of the 20 rolls 0..19 of the first slot)
goes to the second slot. -/
theorem C51_full_false : ¬ ∀ (l : List Nat), Boundaries l → ∀ junk t, computeTable junk (l.map Nat.cast) false = .ok t →
    ∀ r < 100, t[r]? = some (BitVec.ofNat 8 (slotOf l r)) := by
  intro h
  have hb := shipped_boundaries [20, 40, 50, 60, 70, 80, 85, 90, 94, 98, 99, 100] (by decide)
  obtain ⟨t, h1, h2⟩ := C51_off_by_one _ hb poison 19 (by omega) (by decide)
  have := h _ hb _ _ h1 19 (by omega)
  rw [h2] at this
  revert this; decide

/-- The effect on the grass encounter shares, in percent: 19, 20, 10, … and 2 for the last slot, instead of
20, 20, 10, … and 1. -/
theorem C51_grass_shares :
    (List.range 12).map (fun i => ((tableOf grassRanges).filter (· = BitVec.ofNat 8 i)).length)
      = [19, 20, 10, 10, 10, 10, 5, 5, 4, 4, 1, 2] := by decide +kernel

example : Boundaries [70, 100] ∧ 69 + 1 ∈ [70, 100].dropLast ∧ 70 + 1 ∉ [70, 100].dropLast := by
  refine ⟨shipped_boundaries _ (by decide), by decide, by decide⟩

theorem tableOf_get (l : List Nat) (hl : Boundaries l) (r : Nat) (hr : r < 100) :
    (tableOf (l.map Nat.cast))[r]? = some (BitVec.ofNat 8 (tableIndex l r)) := by
  obtain ⟨t, h1, _, h3⟩ := C51_exact l hl poison
  rw [tableOf, h1]
  exact h3 r hr

/-! ### C53 -/

/-- The slots of an encounter type. -/
def slotList (area : EncounterArea3) (encounter : BitVec 8) : List Slot3 :=
  match encounter.toNat with
  | 3 => area.rock.toList
  | 4 => area.water.toList
  | 6 => area.fishOld.toList
  | 7 => area.fishGood.toList
  | 8 => area.fishSuper.toList
  | _ => area.land.toList

/-- The boundaries of an encounter type. -/
def boundariesOf (encounter : BitVec 8) : List Nat :=
  match encounter.toNat with
  | 3 => [60, 90, 95, 99, 100]
  | 4 => [60, 90, 95, 99, 100]
  | 6 => [70, 100]
  | 7 => [60, 80, 100]
  | 8 => [40, 80, 95, 99, 100]
  | _ => [20, 40, 50, 60, 70, 80, 85, 90, 94, 98, 99, 100]

theorem tableIndex_lt (l : List Nat) (hl : Boundaries l) (r : Nat) : tableIndex l r < l.length := by
  obtain ⟨h1, _⟩ := boundaries_facts hl
  have : tableIndex l r ≤ l.dropLast.length := List.length_filter_le _ _
  have h2 : 0 < l.length := List.length_pos_iff.2 h1
  rw [List.length_dropLast] at this
  omega

theorem pick_eq {n : Nat} (slots : Vector Slot3 n) (l : List Nat) (hl : Boundaries l) (hn : l.length = n) (hn2 : n ≤ 256)
    (r : Nat) (hr : r < 100) :
    ∃ s, pick slots (l.map Nat.cast) (BitVec.ofNat 16 r) = .ok s ∧ slots.toList[tableIndex l r]? = some s := by
  have hlt := tableIndex_lt l hl r
  have e : (BitVec.ofNat 16 r).toNat = r := by simp; omega
  have e2 : (BitVec.ofNat 8 (tableIndex l r)).toNat = tableIndex l r := by
    rw [BitVec.toNat_ofNat]; exact Nat.mod_eq_of_lt (by omega)
  refine ⟨slots[tableIndex l r], ?_, by simp⟩
  simp only [pick, e, tableOf_get l hl r hr, e2]
  rw [Vector.getElem?_eq_getElem (by omega)]

theorem ofNat16_eq_zero (x : Nat) (hx : x < 65536) : BitVec.ofNat 16 x = 0 ↔ x = 0 := by
  rw [← BitVec.toNat_inj, BitVec.toNat_ofNat, Nat.mod_eq_of_lt hx]; rfl

theorem split_encounter (P : BitVec 8 → Prop) (h3 : P 3) (h4 : P 4) (h6 : P 6) (h7 : P 7) (h8 : P 8)
    (h : ∀ e : BitVec 8, e ≠ 3 → e ≠ 4 → e ≠ 6 → e ≠ 7 → e ≠ 8 → P e) (e : BitVec 8) : P e := by
  by_cases e3 : e = 3
  · exact e3 ▸ h3
  by_cases e4 : e = 4
  · exact e4 ▸ h4
  by_cases e6 : e = 6
  · exact e6 ▸ h6
  by_cases e7 : e = 7
  · exact e7 ▸ h7
  by_cases e8 : e = 8
  · exact e8 ▸ h8
  exact h e e3 e4 e6 e7 e8

theorem slotList_other (area : EncounterArea3) (e : BitVec 8) (h3 : e ≠ 3) (h4 : e ≠ 4) (h6 : e ≠ 6) (h7 : e ≠ 7)
    (h8 : e ≠ 8) : slotList area e = area.land.toList ∧
      boundariesOf e = [20, 40, 50, 60, 70, 80, 85, 90, 94, 98, 99, 100] := by
  have f : ∀ k : Nat, k < 256 → e ≠ BitVec.ofNat 8 k → e.toNat ≠ k := by
    intro k hk hne h
    apply hne
    apply BitVec.eq_of_toNat_eq
    rw [h, BitVec.toNat_ofNat, Nat.mod_eq_of_lt hk]
  have g3 := f 3 (by omega) h3
  have g4 := f 4 (by omega) h4
  have g6 := f 6 (by omega) h6
  have g7 := f 7 (by omega) h7
  have g8 := f 8 (by omega) h8
  constructor
  · simp only [slotList]
  · simp only [boundariesOf]

/-- C53: without a type lead the code makes exactly one draw and returns the slot, of the list belonging to the encounter
type, with the index stored in the table for that roll; no index is ever out of range. -/
theorem C53_hslot (area : EncounterArea3) (encounter : BitVec 8) (seed : BitVec 32) :
    ∃ s, calculateHslot area encounter seed = .ok (after 1 seed, s) ∧
      (slotList area encounter)[tableIndex (boundariesOf encounter) (out 1 seed % 100)]? = some s := by
  have hd : draw 100 seed = .ok (after 1 seed, BitVec.ofNat 16 (out 1 seed % 100)) := draw_eq 100 (by decide) seed
  have hr : out 1 seed % 100 < 100 := Nat.mod_lt _ (by omega)
  have sb := shipped_boundaries
  have key : ∀ {n : Nat} (slots : Vector Slot3 n) (l : List Nat), l ∈ shippedBoundaries → l.length = n →
      ∃ s, pick slots (l.map Nat.cast) (BitVec.ofNat 16 (out 1 seed % 100)) = .ok s ∧
        slots.toList[tableIndex l (out 1 seed % 100)]? = some s := by
    intro n slots l hl hn
    refine pick_eq slots l (sb l hl) hn ?_ _ hr
    have : ∀ l ∈ shippedBoundaries, l.length ≤ 256 := by decide
    have := this l hl
    omega
  revert encounter
  refine split_encounter _ ?_ ?_ ?_ ?_ ?_ ?_
  · obtain ⟨s, h1, h2⟩ := key area.rock [60, 90, 95, 99, 100] (by decide) rfl
    refine ⟨s, ?_, h2⟩
    rw [calculateHslot, hd]
    show (pick area.rock rockSmashAndSurfRanges _ >>= _) = _
    rw [show rockSmashAndSurfRanges = [60, 90, 95, 99, 100].map Nat.cast from rfl, h1]; rfl
  · obtain ⟨s, h1, h2⟩ := key area.water [60, 90, 95, 99, 100] (by decide) rfl
    refine ⟨s, ?_, h2⟩
    rw [calculateHslot, hd]
    show (pick area.water rockSmashAndSurfRanges _ >>= _) = _
    rw [show rockSmashAndSurfRanges = [60, 90, 95, 99, 100].map Nat.cast from rfl, h1]; rfl
  · obtain ⟨s, h1, h2⟩ := key area.fishOld [70, 100] (by decide) rfl
    refine ⟨s, ?_, h2⟩
    rw [calculateHslot, hd]
    show (pick area.fishOld oldRodRanges _ >>= _) = _
    rw [show oldRodRanges = [70, 100].map Nat.cast from rfl, h1]; rfl
  · obtain ⟨s, h1, h2⟩ := key area.fishGood [60, 80, 100] (by decide) rfl
    refine ⟨s, ?_, h2⟩
    rw [calculateHslot, hd]
    show (pick area.fishGood goodRodRanges _ >>= _) = _
    rw [show goodRodRanges = [60, 80, 100].map Nat.cast from rfl, h1]; rfl
  · obtain ⟨s, h1, h2⟩ := key area.fishSuper [40, 80, 95, 99, 100] (by decide) rfl
    refine ⟨s, ?_, h2⟩
    rw [calculateHslot, hd]
    show (pick area.fishSuper superRodRanges _ >>= _) = _
    rw [show superRodRanges = [40, 80, 95, 99, 100].map Nat.cast from rfl, h1]; rfl
  · intro e h3 h4 h6 h7 h8
    obtain ⟨s, h1, h2⟩ := key area.land [20, 40, 50, 60, 70, 80, 85, 90, 94, 98, 99, 100] (by decide) rfl
    obtain ⟨g1, g2⟩ := slotList_other area e h3 h4 h6 h7 h8
    refine ⟨s, ?_, by rw [g1, g2]; exact h2⟩
    rw [calculateHslot, hd, Res.ok_bind]
    simp only [Encounter.oldRod, Encounter.goodRod, Encounter.superRod, Encounter.rockSmash, Encounter.surfing,
      h3, h4, h6, h7, h8, if_false]
    rw [show grassRanges = [20, 40, 50, 60, 70, 80, 85, 90, 94, 98, 99, 100].map Nat.cast from rfl, h1]; rfl

/-- C53: with Magnet Pull or Static the first draw decides (even: one of the modified slots, chosen by the second draw,
if there is any); otherwise the usual choice, made with the second draw. -/
theorem C53_type_lead (area : EncounterArea3) (encounter lead : BitVec 8) (hlead : lead = Lead.magnetPull ∨ lead = Lead.static)
    (modified : List Slot3) (hlen : modified.length < 65536) (seed : BitVec 32) :
    ∃ s, calculateHslotLead area encounter lead modified seed = .ok (after 2 seed, s) ∧
      if out 1 seed % 2 = 0 ∧ modified ≠ [] then modified[out 2 seed % modified.length]? = some s
      else (slotList area encounter)[tableIndex (boundariesOf encounter) (out 2 seed % 100)]? = some s := by
  have hd : draw 2 seed = .ok (after 1 seed, BitVec.ofNat 16 (out 1 seed % 2)) := draw_eq 2 (by decide) seed
  have hz : (BitVec.ofNat 16 (out 1 seed % 2) = 0 ∧ modified.length ≠ 0) ↔ (out 1 seed % 2 = 0 ∧ modified ≠ []) := by
    rw [ofNat16_eq_zero _ (by omega), List.length_eq_zero_iff.ne]
  rw [calculateHslotLead, if_pos hlead, hd]
  simp only [Res.ok_bind, hz]
  by_cases h : out 1 seed % 2 = 0 ∧ modified ≠ []
  · simp only [if_pos h]
    have hpos : 0 < modified.length := List.length_pos_iff.2 h.2
    have hne : BitVec.ofNat 16 modified.length ≠ 0 := by
      intro h0
      have := congrArg BitVec.toNat h0
      simp at this; omega
    have hk := Nat.mod_lt (out 2 seed) hpos
    refine ⟨modified[out 2 seed % modified.length], ?_, by simp⟩
    rw [draw_eq _ hne, after_after, out_after, Res.ok_bind]
    have e : (BitVec.ofNat 16 modified.length).toNat = modified.length := by simp; omega
    have e2 : (BitVec.ofNat 16 (out (1 + 1) seed % modified.length)).toNat = out 2 seed % modified.length := by
      simp; omega
    simp only [e, e2]
    rw [List.getElem?_eq_getElem (by omega)]; rfl
  · simp only [if_neg h]
    obtain ⟨s, h1, h2⟩ := C53_hslot area encounter (after 1 seed)
    rw [after_after] at h1
    rw [out_after] at h2
    exact ⟨s, h1, h2⟩

/-- C53: any other lead makes no difference. -/
theorem C53_no_type_lead (area : EncounterArea3) (encounter lead : BitVec 8)
    (hlead : ¬ (lead = Lead.magnetPull ∨ lead = Lead.static)) (modified : List Slot3) (seed : BitVec 32) :
    calculateHslotLead area encounter lead modified seed = calculateHslot area encounter seed := by
  rw [calculateHslotLead, if_neg hlead]

example : (Lead.static = Lead.magnetPull ∨ Lead.static = Lead.static) ∧
    ¬ (Lead.pressure = Lead.magnetPull ∨ Lead.pressure = Lead.static) := by decide

/-! ### C52 -/

theorem levelRange_mod (slot : Slot3) : (slot.maxLevel.setWidth 16 - slot.minLevel.setWidth 16 + 1).toNat
    = (65536 - slot.minLevel.toNat + slot.maxLevel.toNat + 1) % 65536 := by
  have h1 := slot.maxLevel.isLt
  have h2 := slot.minLevel.isLt
  rw [BitVec.toNat_add, BitVec.toNat_sub, BitVec.toNat_setWidth, BitVec.toNat_setWidth,
    show (1 : BitVec 16).toNat = 1 from rfl]
  omega

theorem levelRange_toNat (slot : Slot3) (h : slot.minLevel.toNat ≤ slot.maxLevel.toNat) :
    (slot.maxLevel.setWidth 16 - slot.minLevel.setWidth 16 + 1).toNat
      = slot.maxLevel.toNat - slot.minLevel.toNat + 1 := by
  have h1 := slot.maxLevel.isLt
  rw [levelRange_mod]; omega

/-- C52: without Pressure, one draw, uniform remainder over the slot's levels. -/
theorem C52_level (slot : Slot3) (h : slot.minLevel.toNat ≤ slot.maxLevel.toNat) (seed : BitVec 32) :
    calculateLevel slot false seed
      = .ok (after 1 seed, slot.minLevel.toNat + out 1 seed % (slot.maxLevel.toNat - slot.minLevel.toNat + 1)) := by
  have h1 := slot.maxLevel.isLt
  have e := levelRange_toNat slot h
  have hne : slot.maxLevel.setWidth 16 - slot.minLevel.setWidth 16 + 1 ≠ 0 := by
    intro h0
    rw [h0] at e
    simp at e
  have hk := Nat.mod_lt (out 1 seed) (show 0 < slot.maxLevel.toNat - slot.minLevel.toNat + 1 by omega)
  simp only [calculateLevel, draw_eq _ hne, e, Res.ok_bind, Bool.false_eq_true, if_false, Res.pure_eq]
  congr 2
  simp; omega

/-- C52: with Pressure, two draws; an even second draw gives the maximum, otherwise the first draw's level lowered by one
unless it was the minimum. -/
theorem C52_pressure (slot : Slot3) (h : slot.minLevel.toNat ≤ slot.maxLevel.toNat) (seed : BitVec 32) :
    calculateLevel slot true seed
      = .ok (after 2 seed, if out 2 seed % 2 = 0 then slot.maxLevel.toNat
          else slot.minLevel.toNat + (out 1 seed % (slot.maxLevel.toNat - slot.minLevel.toNat + 1) - 1)) := by
  have h1 := slot.maxLevel.isLt
  have e := levelRange_toNat slot h
  have hne : slot.maxLevel.setWidth 16 - slot.minLevel.setWidth 16 + 1 ≠ 0 := by
    intro h0
    rw [h0] at e
    simp at e
  have hk := Nat.mod_lt (out 1 seed) (show 0 < slot.maxLevel.toNat - slot.minLevel.toNat + 1 by omega)
  have hz : (BitVec.ofNat 16 (out 2 seed % 2) = 0) ↔ out 2 seed % 2 = 0 := by
    rw [ofNat16_eq_zero _ (by omega)]
  simp only [calculateLevel, draw_eq _ hne, e, Res.ok_bind, if_true, Res.pure_eq,
    draw_eq 2 (by decide), after_after, out_after, show (2 : BitVec 16).toNat = 2 from rfl, hz, Nat.reduceAdd]
  generalize out 1 seed % (slot.maxLevel.toNat - slot.minLevel.toNat + 1) = x at *
  have hx : (BitVec.ofNat 16 x).toNat = x := by simp; omega
  have hx0 : (BitVec.ofNat 16 x ≠ 0) ↔ x ≠ 0 := by
    rw [ne_eq, ne_eq, ← BitVec.toNat_inj, hx]; rfl
  simp only [hx0, hx]
  by_cases h2 : out 2 seed % 2 = 0
  · rw [if_pos h2, if_pos h2]
  · rw [if_neg h2, if_neg h2]
    congr 3
    by_cases hx : x = 0
    · simp [hx]
    · rw [if_pos hx]

/-- C52: the level is within the slot's bounds, with and without Pressure, and Pressure needs one more draw. -/
theorem C52_bounds (slot : Slot3) (h : slot.minLevel.toNat ≤ slot.maxLevel.toNat) (pressure : Bool) (seed : BitVec 32) :
    ∃ level, calculateLevel slot pressure seed = .ok (after (if pressure then 2 else 1) seed, level) ∧
      slot.minLevel.toNat ≤ level ∧ level ≤ slot.maxLevel.toNat := by
  have hk := Nat.mod_lt (out 1 seed) (show 0 < slot.maxLevel.toNat - slot.minLevel.toNat + 1 by omega)
  cases pressure with
  | false => exact ⟨_, C52_level slot h seed, by omega, by omega⟩
  | true =>
    refine ⟨_, C52_pressure slot h seed, ?_, ?_⟩ <;> split <;> omega

/-- C52, slots outside the hypothesis: min = max + 1 raises, under numba, instead of returning a level. -/
theorem C52_empty_slot (slot : Slot3) (h : slot.minLevel.toNat = slot.maxLevel.toNat + 1) (pressure : Bool)
    (seed : BitVec 32) : calculateLevel slot pressure seed = .err .zeroDivision := by
  have h1 := slot.minLevel.isLt
  have e : slot.maxLevel.setWidth 16 - slot.minLevel.setWidth 16 + 1 = 0 := by
    apply BitVec.eq_of_toNat_eq
    rw [levelRange_mod, show (0 : BitVec 16).toNat = 0 from rfl]
    omega
  simp only [calculateLevel, e, draw_zero, Res.err_bind]

example : (Slot3.mk 5 7 1).minLevel.toNat ≤ (Slot3.mk 5 7 1).maxLevel.toNat := by decide
example : (Slot3.mk 6 5 1).minLevel.toNat = (Slot3.mk 6 5 1).maxLevel.toNat + 1 := by decide

/-! ### C54 -/

/-- The type (in the numbering of the game's personal table) attracted by a lead: Steel, Electric, Grass, Fire, Water;
before Gen 5 there is an additional type 9, which shifts Electric to 13. -/
def attracted (lead : BitVec 8) (game : BitVec 32) : Option Nat :=
  match lead.toNat with
  | 27 => some 8
  | 28 => some (if game.toNat / 2 ^ 0 % 2 = 1 ∨ game.toNat / 2 ^ 1 % 2 = 1 ∨ game.toNat / 2 ^ 2 % 2 = 1
      ∨ game.toNat / 2 ^ 3 % 2 = 1 ∨ game.toNat / 2 ^ 4 % 2 = 1 ∨ game.toNat / 2 ^ 8 % 2 = 1
      ∨ game.toNat / 2 ^ 9 % 2 = 1 ∨ game.toNat / 2 ^ 10 % 2 = 1 ∨ game.toNat / 2 ^ 11 % 2 = 1 then 13 else 12)
  | 29 => some 11
  | 30 => some 9
  | 31 => some 10
  | _ => none

/-- `s` has the type `t` according to the personal table. -/
def hasType (table : List Personal) (t : Nat) (s : Slot3) : Bool :=
  match table[s.species.toNat % 1024]? with
  | none => false
  | some info => info.type1.toNat = t || info.type2.toNat = t

theorem and_3ff (x : BitVec 16) : (x &&& 0x3FF).toNat = x.toNat % 1024 := by
  rw [BitVec.toNat_and]
  exact Nat.and_two_pow_sub_one_eq_mod x.toNat 10

theorem filterLoop_eq (table : List Personal) (t : BitVec 8) (l acc : List Slot3)
    (h : ∀ s ∈ l, s.species.toNat % 1024 < table.length) :
    filterLoop table t l acc = .ok (acc ++ l.filter (hasType table t.toNat)) := by
  induction l generalizing acc with
  | nil => simp [filterLoop]
  | cons s l ih =>
    have hs := h s (by simp)
    have ih' := fun acc => ih acc (fun x hx => h x (List.mem_cons_of_mem _ hx))
    rw [filterLoop, and_3ff, List.getElem?_eq_getElem hs]
    simp only
    have hty : hasType table t.toNat s
        = (table[s.species.toNat % 1024].type1.toNat = t.toNat || table[s.species.toNat % 1024].type2.toNat = t.toNat) := by
      simp only [hasType, List.getElem?_eq_getElem hs]
    rw [List.filter_cons, hty]
    simp only [BitVec.toNat_inj]
    split
    · rename_i hc
      rw [ih', if_pos (by simpa using hc)]; simp
    · rename_i hc
      rw [ih', if_neg (by simpa using hc)]

theorem has_bit (game : BitVec 32) :
    Game.has game (Game.ruby ||| Game.sapphire ||| Game.emerald ||| Game.fireRed ||| Game.leafGreen
      ||| Game.diamond ||| Game.pearl ||| Game.platinum ||| Game.heartGold ||| Game.soulSilver) = true
    ↔ (game.toNat / 2 ^ 0 % 2 = 1 ∨ game.toNat / 2 ^ 1 % 2 = 1 ∨ game.toNat / 2 ^ 2 % 2 = 1
      ∨ game.toNat / 2 ^ 3 % 2 = 1 ∨ game.toNat / 2 ^ 4 % 2 = 1 ∨ game.toNat / 2 ^ 8 % 2 = 1
      ∨ game.toNat / 2 ^ 9 % 2 = 1 ∨ game.toNat / 2 ^ 10 % 2 = 1 ∨ game.toNat / 2 ^ 11 % 2 = 1) := by
  have hm : (Game.ruby ||| Game.sapphire ||| Game.emerald ||| Game.fireRed ||| Game.leafGreen
      ||| Game.diamond ||| Game.pearl ||| Game.platinum ||| Game.heartGold ||| Game.soulSilver) = 0xF1F#32 := by decide
  rw [hm, Game.has, bne_iff_ne, ne_eq, BitVec.eq_of_getLsbD_eq_iff, not_forall]
  have bit : ∀ i, game.getLsbD i = true ↔ game.toNat / 2 ^ i % 2 = 1 := by
    intro i
    rw [BitVec.getLsbD, Nat.testBit_eq_decide_div_mod_eq, decide_eq_true_iff]
  simp only [← bit]
  constructor
  · rintro ⟨i, hi⟩
    rw [not_forall] at hi
    obtain ⟨hi, h⟩ := hi
    simp only [BitVec.getLsbD_and] at h
    interval_cases i <;> simp_all
  · intro h
    rcases h with h | h | h | h | h | h | h | h | h
    · exact ⟨0, fun hh => by have := hh (by omega); rw [BitVec.getLsbD_and, h] at this; exact absurd this (by decide)⟩
    · exact ⟨1, fun hh => by have := hh (by omega); rw [BitVec.getLsbD_and, h] at this; exact absurd this (by decide)⟩
    · exact ⟨2, fun hh => by have := hh (by omega); rw [BitVec.getLsbD_and, h] at this; exact absurd this (by decide)⟩
    · exact ⟨3, fun hh => by have := hh (by omega); rw [BitVec.getLsbD_and, h] at this; exact absurd this (by decide)⟩
    · exact ⟨4, fun hh => by have := hh (by omega); rw [BitVec.getLsbD_and, h] at this; exact absurd this (by decide)⟩
    · exact ⟨8, fun hh => by have := hh (by omega); rw [BitVec.getLsbD_and, h] at this; exact absurd this (by decide)⟩
    · exact ⟨9, fun hh => by have := hh (by omega); rw [BitVec.getLsbD_and, h] at this; exact absurd this (by decide)⟩
    · exact ⟨10, fun hh => by have := hh (by omega); rw [BitVec.getLsbD_and, h] at this; exact absurd this (by decide)⟩
    · exact ⟨11, fun hh => by have := hh (by omega); rw [BitVec.getLsbD_and, h] at this; exact absurd this (by decide)⟩

theorem leadType_eq (lead : BitVec 8) (game : BitVec 32) :
    (leadType lead game).map BitVec.toNat = attracted lead game := by
  have k27 : lead = 27 ↔ lead.toNat = 27 := by rw [← BitVec.toNat_inj]; rfl
  have k28 : lead = 28 ↔ lead.toNat = 28 := by rw [← BitVec.toNat_inj]; rfl
  have k29 : lead = 29 ↔ lead.toNat = 29 := by rw [← BitVec.toNat_inj]; rfl
  have k30 : lead = 30 ↔ lead.toNat = 30 := by rw [← BitVec.toNat_inj]; rfl
  have k31 : lead = 31 ↔ lead.toNat = 31 := by rw [← BitVec.toNat_inj]; rfl
  simp only [leadType, attracted, Lead.magnetPull, Lead.static, Lead.harvest, Lead.flashFire, Lead.stormDrain]
  simp only [k27, k28, k29, k30, k31]
  split
  · simp_all
  split
  · simp only [*, Option.map_some, has_bit]
    congr 1
    split <;> rfl
  split
  · simp_all
  split
  · simp_all
  split
  · simp_all
  · split <;> simp_all

/-- C54: a type lead selects, in order, exactly the slots of the encounter type whose species has the lead's type; any
other lead selects none. The species must have an entry in the personal table. -/
theorem C54_modified (area : EncounterArea3) (encounter lead : BitVec 8) (game : BitVec 32) (table : List Personal)
    (h : ∀ s ∈ slotList area encounter, s.species.toNat % 1024 < table.length) :
    getModifiedSlots area encounter lead game table =
      .ok (match attracted lead game with
        | none => []
        | some t => (slotList area encounter).filter (hasType table t)) := by
  rw [← leadType_eq]
  cases hl : leadType lead game with
  | none => simp [getModifiedSlots, hl]
  | some t =>
    simp only [getModifiedSlots, hl, Option.map_some]
    revert encounter
    refine split_encounter _ ?_ ?_ ?_ ?_ ?_ ?_
    all_goals first
      | (intro h
         have := filterLoop_eq table t _ [] h
         rw [List.nil_append] at this
         exact this)
      | skip
    intro e h3 h4 h6 h7 h8 h
    rw [(slotList_other area e h3 h4 h6 h7 h8).1] at h ⊢
    simp only [Encounter.oldRod, Encounter.goodRod, Encounter.superRod, Encounter.rockSmash, Encounter.surfing,
      h3, h4, h6, h7, h8, if_false]
    rw [filterLoop_eq table t _ [] h, List.nil_append]

/-- A small area and personal table for examples: species 1 is Electric (13), species 2 is not. -/
def exampleInfo (t : BitVec 8) : Personal :=
  { hp := 50, attack := 60, defense := 70, speed := 80, specialAttack := 90, specialDefense := 100, type1 := t, type2 := t,
    genderRatio := 127, ability1 := 9, ability2 := 31 }

/-- see `exampleInfo` -/
def exampleTable : List Personal := [exampleInfo 0, exampleInfo 13, exampleInfo 11]

/-- see `exampleInfo` -/
def exampleArea : EncounterArea3 :=
  { location := 1, landRate := 20, land := Vector.ofFn fun i => ⟨5, 7, if i.val % 2 = 0 then 1 else 2⟩, waterRate := 10,
    water := Vector.replicate 5 ⟨10, 20, 2⟩, rockRate := 25, rock := Vector.replicate 5 ⟨10, 15, 2⟩, fishRate := 30,
    fishOld := Vector.replicate 2 ⟨5, 10, 2⟩, fishGood := Vector.replicate 3 ⟨10, 30, 2⟩,
    fishSuper := Vector.replicate 5 ⟨20, 45, 1⟩ }

example : (∀ s ∈ slotList exampleArea Encounter.grass, s.species.toNat % 1024 < exampleTable.length) ∧
    getModifiedSlots exampleArea Encounter.grass Lead.static Game.emerald exampleTable
      = .ok (List.replicate 6 ⟨5, 7, 1⟩) := by decide

/-! ### C58 -/

/-- C58, the part that holds: Rock Smash and surfing. Missing: grass and rods, where the claim is false. -/
theorem C58_partial (area : EncounterArea3) :
    getEncounterRate area Encounter.rockSmash = area.rockRate ∧ getEncounterRate area Encounter.surfing = area.waterRate :=
  ⟨rfl, rfl⟩

/-- The code returns the fishing rate for grass and the land rate for the three rods. -/
theorem C58_swapped (area : EncounterArea3) :
    getEncounterRate area Encounter.grass = area.fishRate ∧ getEncounterRate area Encounter.oldRod = area.landRate ∧
    getEncounterRate area Encounter.goodRod = area.landRate ∧ getEncounterRate area Encounter.superRod = area.landRate :=
  ⟨rfl, rfl, rfl, rfl⟩

/-- C58 as stated is false: grass does not give the land rate, fishing does not give the fishing rate. -/
theorem C58_full_false : ¬ (∀ area, getEncounterRate area Encounter.grass = area.landRate) ∧
    ¬ (∀ area, getEncounterRate area Encounter.oldRod = area.fishRate) := by
  constructor
  · intro h; exact absurd (h exampleArea) (by decide)
  · intro h; exact absurd (h exampleArea) (by decide)

/-! ### C62 -/

/-- C62: `species | form << 11` (`data/encounter/__init__.py`) is taken apart by `& 0x7FF`, `>> 11`
(`wild_generator_3.py:89-90`), and `& 0x3FF` (`encounter_area_3.py:159`) reads the same species. -/
theorem C62_roundtrip (species form : BitVec 16) (hs : species.toNat < 1024) (hf : form.toNat < 32) :
    let packed := species ||| form <<< 11
    packed &&& 0x7FF = species ∧ packed >>> 11 = form ∧ packed &&& 0x3FF = species := by
  have hsb : ∀ i, 10 ≤ i → species.getLsbD i = false := by
    intro i hi
    rw [BitVec.getLsbD, Nat.testBit_lt_two_pow]
    calc species.toNat < 2 ^ 10 := hs
      _ ≤ 2 ^ i := Nat.pow_le_pow_right (by omega) hi
  have hfb : ∀ i, 5 ≤ i → form.getLsbD i = false := by
    intro i hi
    rw [BitVec.getLsbD, Nat.testBit_lt_two_pow]
    calc form.toNat < 2 ^ 5 := hf
      _ ≤ 2 ^ i := Nat.pow_le_pow_right (by omega) hi
  have hsb' : ∀ i (hi : i < 16), 10 ≤ i → species[i] = false := fun i hi h => by
    rw [← BitVec.getLsbD_eq_getElem hi, hsb i h]
  have hfb' : ∀ i (hi : i < 16), 5 ≤ i → form[i] = false := fun i hi h => by
    rw [← BitVec.getLsbD_eq_getElem hi, hfb i h]
  refine ⟨?_, ?_, ?_⟩
  all_goals
    apply BitVec.eq_of_getLsbD_eq
    intro i hi
    simp only [BitVec.getLsbD_and, BitVec.getLsbD_or, BitVec.getLsbD_shiftLeft, BitVec.getLsbD_ushiftRight]
    interval_cases i <;> simp [hsb', hfb']

example : (201 : BitVec 16).toNat < 1024 ∧ (27 : BitVec 16).toNat < 32 := by decide

end Verif.Gen3
