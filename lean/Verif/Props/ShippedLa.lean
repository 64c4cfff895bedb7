import Verif.Lemmas.LaArea5
import Verif.Lemmas.LaSpawn5
/-
C104, C105, C106: the encounter tables of Legends Arceus that ship with the library. C107: the spawners and outbreaks.
-/
namespace Verif.ShippedLa
open FlatBuffer EncLoadLa CalcSlotLa ShippedLaSpec Fp LaFast

/-- the ids of the tables of an area -/
def idsOf : Nat → List Nat
  | 1 => Data.ids1
  | 2 => Data.ids2
  | 3 => Data.ids3
  | 4 => Data.ids4
  | _ => Data.ids5

private theorem loaded (area : Nat) (h : 1 ≤ area ∧ area ≤ 5) :
    ∃ L, encounterTables area = .ok L ∧ AreaFacts area (tableCount area) (idsOf area) L := by
  obtain ⟨h1, h2⟩ := h
  interval_cases area
  · exact areaOk_sound (by omega) area1
  · exact areaOk_sound (by omega) area2
  · exact areaOk_sound (by omega) area3
  · exact areaOk_sound (by omega) area4
  · exact areaOk_sound (by omega) area5

private theorem facts {area : Nat} (h : 1 ≤ area ∧ area ≤ 5) {L : List (BitVec 64 × List SlotLA)}
    (hL : encounterTables area = .ok L) : AreaFacts area (tableCount area) (idsOf area) L := by
  obtain ⟨L', h1, h2⟩ := loaded area h
  rw [hL] at h1
  cases h1
  exact h2

theorem loaded_ids {area : Nat} (h : 1 ≤ area ∧ area ≤ 5) {L : List (BitVec 64 × List SlotLA)}
    (hL : encounterTables area = .ok L) : L.map (fun t => t.1.toNat) = idsOf area := (facts h hL).ids

theorem loaded_known {area : Nat} (h : 1 ≤ area ∧ area ≤ 5) {L : List (BitVec 64 × List SlotLA)}
    (hL : encounterTables area = .ok L) (t : BitVec 64 × List SlotLA) (ht : t ∈ L) (s : SlotLA) (hs : s ∈ t.2) : Known s :=
  ((facts h hL).table t ht).known s hs

/-- **C104**: the encounter tables of all five areas load. Their numbers are as given, no two tables of an area have the same
id, no table is empty, none has more than 56 slots, and all slots have values in the ranges of `SlotFacts`. -/
theorem C104_loads (area : Nat) (h : 1 ≤ area ∧ area ≤ 5) :
    ∃ L, encounterTables area = .ok L ∧ L.length = tableCount area ∧ (L.map (·.1)).Nodup ∧
      ∀ t ∈ L, t.2 ≠ [] ∧ t.2.length ≤ 56 ∧ ∀ s ∈ t.2, SlotFacts s := by
  obtain ⟨L, h1, h2⟩ := loaded area h
  exact ⟨L, h1, h2.count, h2.distinct, fun t ht => ⟨(h2.table t ht).nonempty, (h2.table t ht).length, (h2.table t ht).slot⟩⟩

/-- The hypothesis is met by five areas, and their tables are 1779 together. -/
example : ([1, 2, 3, 4, 5].map tableCount).sum = 1779 := rfl

/-- C105 in full: no slot has an empty range of levels. -/
def C105Full : Prop :=
  ∀ area, 1 ≤ area ∧ area ≤ 5 → ∀ L, encounterTables area = .ok L → ∀ t ∈ L, ∀ s ∈ t.2, s.minLevel.toNat ≤ s.maxLevel.toNat

/-- **C105** (partial: one table of the Crimson Mirelands is left out): the range of levels of a slot is not empty, with the
boost of alphas included and nothing lost in the 8-bit fields. -/
theorem C105_levels_partial (area : Nat) (h : 1 ≤ area ∧ area ≤ 5) (L : List (BitVec 64 × List SlotLA))
    (hL : encounterTables area = .ok L) (t : BitVec 64 × List SlotLA) (ht : t ∈ L) (hne : (area, t.1.toNat) ≠ oddLevels)
    (s : SlotLA) (hs : s ∈ t.2) : s.minLevel.toNat ≤ s.maxLevel.toNat :=
  ((facts h hL).table t ht).levels hne s hs

/-- **C105**: the table left out is there, and the lowest level of every slot of it is two above the highest. -/
theorem C105_odd_table : ∃ L, encounterTables oddLevels.1 = .ok L ∧
    ∃ t ∈ L, t.1.toNat = oddLevels.2 ∧ t.2 ≠ [] ∧ ∀ s ∈ t.2, s.minLevel.toNat = s.maxLevel.toNat + 2 := by
  obtain ⟨L, h1, h2⟩ := loaded 2 (by omega)
  obtain ⟨t, ht, he⟩ := h2.oddPresent rfl
  have hf := h2.table t ht
  exact ⟨L, h1, t, ht, he, hf.nonempty, hf.odd (by rw [he]; rfl)⟩

/-- **C105**: in full the claim is false. -/
theorem C105_full_false : ¬ C105Full := by
  intro h
  obtain ⟨L, h1, t, ht, _, hne, hodd⟩ := C105_odd_table
  obtain ⟨s, hs⟩ := List.exists_mem_of_ne_nil _ hne
  have := h 2 (by omega) L h1 t ht s hs
  have := hodd s hs
  omega

/-- The hypotheses of `C105_levels_partial` are met: area 1 loads, and it is not the area of the table left out. -/
example : ∃ L, encounterTables 1 = .ok L ∧ ∃ t ∈ L, (1, t.1.toNat) ≠ oddLevels ∧ ∃ s, s ∈ t.2 := by
  obtain ⟨L, h1, h2, _, h4⟩ := C104_loads 1 (by omega)
  obtain ⟨t, ht⟩ := List.exists_mem_of_ne_nil L (by intro h; rw [h] at h2; cases h2)
  exact ⟨L, h1, t, ht, by simp [oddLevels], List.exists_mem_of_ne_nil _ (h4 t ht).1⟩

/-- C106 in full: at every time and weather the slot that `calc_slot` chooses is the one whose interval contains `r`. -/
def C106Full : Prop :=
  ∀ area, 1 ≤ area ∧ area ≤ 5 → ∀ L, encounterTables area = .ok L → ∀ t ∈ L, ∀ time < 4, ∀ weather < 9,
    ∃ ws, List.Forall₂ (Weight time weather) t.2 ws ∧ ∀ r, IsFp 24 r → 0 ≤ r → r < 1 →
      ∃ i, ∃ h : i < t.2.length, calcSlot .numba t.2 r time weather = .ok t.2[i] ∧
        (ws.take i).sum ≤ r * ws.sum ∧ r * ws.sum < (ws.take (i + 1)).sum

/-- **C106** (partial: the tables, times and weathers of `Dead` are left out): on the tables that ship, `calc_slot` chooses
without rounding error. For every float32 `r` in [0, 1) the chosen slot is the one whose interval, in exact arithmetic on the
weights of the file, contains `r` times the total; and the total is positive. -/
theorem C106_exact_partial (area : Nat) (h : 1 ≤ area ∧ area ≤ 5) (L : List (BitVec 64 × List SlotLA))
    (hL : encounterTables area = .ok L) (t : BitVec 64 × List SlotLA) (ht : t ∈ L) (time weather : Nat) (h4 : time < 4)
    (h9 : weather < 9) (hd : ¬ Dead area t.1.toNat time weather) :
    ∃ ws, List.Forall₂ (Weight time weather) t.2 ws ∧ 0 < ws.sum ∧ ∀ r, IsFp 24 r → 0 ≤ r → r < 1 →
      ∃ i, ∃ h : i < t.2.length, calcSlot .numba t.2 r time weather = .ok t.2[i] ∧
        (ws.take i).sum ≤ r * ws.sum ∧ r * ws.sum < (ws.take (i + 1)).sum := by
  obtain ⟨ws, h1, _, h3⟩ := ((facts h hL).table t ht).choice time h4 weather h9
  exact ⟨ws, h1, (h3 hd).1, (h3 hd).2⟩

private theorem pick_zero (i : Nat) (ps : List ℚ) (h : ∀ p ∈ ps, p = 0) : pick i 0 ps = i + ps.length - 1 := by
  induction ps generalizing i with
  | nil => rfl
  | cons p ps ih =>
    obtain rfl := h p (by simp)
    rw [pick, if_neg (lt_irrefl _), sub_self, rnd_zero, ih _ fun q hq => h q (by simp [hq]), List.length_cons]
    congr 1
    omega

private theorem total_zero (ps : List ℚ) (h : ∀ p ∈ ps, p = 0) : total ps = 0 := by
  unfold total
  induction ps with
  | nil => rfl
  | cons p ps ih =>
    obtain rfl := h p (by simp)
    rw [List.foldl_cons, add_zero, rnd_zero]
    exact ih fun q hq => h q (by simp [hq])

private theorem probabilities_zero {slots : List SlotLA} {time weather : Nat} {ws : List ℚ}
    (h : List.Forall₂ (Weight time weather) slots ws) (h0 : ∀ w ∈ ws, w = 0) :
    ∃ ps, probabilities time weather slots = .ok ps ∧ ps.length = slots.length ∧ ∀ p ∈ ps, p = 0 := by
  induction h with
  | nil => exact ⟨[], rfl, rfl, by simp⟩
  | cons h _ ih =>
    rename_i s w ss ws _
    obtain ⟨ps, h1, h2, h3⟩ := ih fun w hw => h0 w (by simp [hw])
    obtain ⟨tb, wb, tv, wv, a1, a2, a3, a4, a5, a6, a7⟩ := h
    have hz := h0 _ (List.mem_cons_self)
    refine ⟨0 :: ps, ?_, by simp [h2], by simpa using h3⟩
    rw [probabilities, h1, probability, a1, a2]
    simp only [a3, a4]
    rw [a7] at hz
    have : rnd 53 (rnd 53 (s.baseProbability.toNat * tv) * wv) = 0 := by
      rcases mul_eq_zero.mp hz with h | h
      · rw [h, rnd_zero, zero_mul, rnd_zero]
      · rw [h, mul_zero, rnd_zero]
    rw [this]
    rfl

private theorem weight_unique {slots : List SlotLA} {time weather : Nat} {ws ws' : List ℚ}
    (h : List.Forall₂ (Weight time weather) slots ws) (h' : List.Forall₂ (Weight time weather) slots ws') : ws = ws' := by
  induction h generalizing ws' with
  | nil => cases h'; rfl
  | cons h _ ih =>
    cases h' with
    | cons h' t' =>
      obtain ⟨tb, wb, tv, wv, a1, a2, a3, a4, _, _, rfl⟩ := h
      obtain ⟨tb', wb', tv', wv', b1, b2, b3, b4, _, _, rfl⟩ := h'
      cases a1.symm.trans b1
      cases a2.symm.trans b2
      cases a3.symm.trans b3
      cases a4.symm.trans b4
      rw [ih t']

/-- **C106**: at the times and weathers left out all weights of the table are zero, and `calc_slot` returns the last slot,
whatever `r` is. Elsewhere some weight is not zero. -/
theorem C106_dead (area : Nat) (h : 1 ≤ area ∧ area ≤ 5) (L : List (BitVec 64 × List SlotLA))
    (hL : encounterTables area = .ok L) (t : BitVec 64 × List SlotLA) (ht : t ∈ L) (time weather : Nat) (h4 : time < 4)
    (h9 : weather < 9) (hd : Dead area t.1.toNat time weather) :
    (∃ ws, List.Forall₂ (Weight time weather) t.2 ws ∧ ∀ w ∈ ws, w = 0) ∧
      ∃ h : t.2 ≠ [], ∀ r, calcSlot .numba t.2 r time weather = .ok (t.2.getLast h) := by
  have hf := (facts h hL).table t ht
  obtain ⟨ws, h1, h2, _⟩ := hf.choice time h4 weather h9
  have h0 := h2.mpr hd
  refine ⟨⟨ws, h1, h0⟩, hf.nonempty, fun r => ?_⟩
  obtain ⟨ps, p1, p2, p3⟩ := probabilities_zero h1 h0
  have hlen := List.length_pos_of_ne_nil hf.nonempty
  unfold calcSlot choose
  simp only [p1, total_zero ps p3, mul_zero, rnd_zero, pick_zero 0 ps p3, p2, Nat.zero_add]
  rw [List.getElem?_eq_getElem (by omega), List.getLast_eq_getElem]

/-- **C106**: in full the claim is false, there are such tables. -/
theorem C106_full_false : ¬ C106Full := by
  intro h
  obtain ⟨L, h1, h2⟩ := loaded 1 (by omega)
  have hm : (1, 0xbca39103c9ca6d97, [3], anyWeather) ∈ deadRows := by simp [deadRows]
  obtain ⟨t, ht, he⟩ := h2.deadPresent _ _ _ hm
  have hd : Dead 1 t.1.toNat 3 0 := by
    rw [he]
    exact ⟨_, _, hm, by simp, by simp [anyWeather]⟩
  obtain ⟨ws, hw, hx⟩ := h 1 (by omega) L h1 t ht 3 (by omega) 0 (by omega)
  obtain ⟨i, hi, _, h3, h4⟩ := hx 0 ⟨0, 0, by simp, by simp⟩ le_rfl (by norm_num)
  obtain ⟨⟨ws', hw', h0⟩, _⟩ := C106_dead 1 (by omega) L h1 t ht 3 0 (by omega) (by omega) hd
  obtain rfl : ws = ws' := weight_unique hw hw'
  have : (ws.take (i + 1)).sum = 0 := List.sum_eq_zero fun x hx => h0 x (List.mem_of_mem_take hx)
  rw [zero_mul, this] at h4
  exact lt_irrefl _ h4

/-- The hypotheses of `C106_exact_partial` are met: there is a table of area 1 that appears at dawn in sunny weather. -/
theorem exists_alive : ∃ L, encounterTables 1 = .ok L ∧ ∃ t ∈ L, ¬ Dead 1 t.1.toNat 0 1 := by
  obtain ⟨L, h1, h2⟩ := loaded 1 (by omega)
  have hm : (1, 0xbca39103c9ca6d97, [3], anyWeather) ∈ deadRows := by simp [deadRows]
  obtain ⟨t, ht, he⟩ := h2.deadPresent _ _ _ hm
  refine ⟨L, h1, t, ht, ?_⟩
  rw [he]
  rintro ⟨ts, ws, hm, h3, h4⟩
  simp [deadRows] at hm
  rcases hm with ⟨rfl, rfl⟩
  simp at h3

/-! ### spawners and outbreaks -/

/-- there is a table with this id -/
def HasTable (L : List (BitVec 64 × List SlotLA)) (id : Option Int) : Prop := ∃ t ∈ L, id = some (t.1.toNat : Int)

/-- a group found under this hash, with tables for the first wave and for at least one second wave -/
def HasGroup (L : List (BitVec 64 × List SlotLA)) (G : List NewHugeOutbreakGroup8a) (hash : Option Int) : Prop :=
  ∃ g, groupLookup G hash = some g ∧ HasTable L g.firstWaveTableId ∧ g.waveDetails ≠ [] ∧ ∀ w ∈ g.waveDetails, HasTable L w

private theorem hasTable {area : Nat} (h : 1 ≤ area ∧ area ≤ 5) {L : List (BitVec 64 × List SlotLA)}
    (hL : encounterTables area = .ok L) {id : Option Int} (hid : ∃ n ∈ idsOf area, id = some (n : Int)) : HasTable L id := by
  obtain ⟨n, hn, rfl⟩ := hid
  rw [← (facts h hL).ids] at hn
  obtain ⟨t, ht, rfl⟩ := List.mem_map.mp hn
  exact ⟨t, ht, rfl⟩

/-- **C107**: the spawners of all five areas load, in the numbers given. Within an area each spawner is the one found under its
id and under its group id. All have coordinates and spawn counts `1 ≤ min ≤ max ≤ 4`. The table of a spawner is a table of
its area, or one of the outbreak lotteries of the area, then the spawner is marked as a mass outbreak. -/
theorem C107_spawners (area : Nat) (h : 1 ≤ area ∧ area ≤ 5) (L : List (BitVec 64 × List SlotLA))
    (hL : encounterTables area = .ok L) :
    ∃ S, spawners area = .ok S ∧ S.length = spawnerCount area ∧ ∀ s ∈ S,
      s.spawnerId ≠ none ∧ spawnerLookup S s.spawnerId = some s ∧ s.groupId ≠ none ∧ spawnerByGroup S s.groupId = some s ∧
      (∃ x y z, s.coordinates = some ⟨some x, some y, some z⟩) ∧
      (∃ lo hi : Nat, s.minSpawnCount = some (lo : Int) ∧ s.maxSpawnCount = some (hi : Int) ∧ 1 ≤ lo ∧ lo ≤ hi ∧ hi ≤ 4) ∧
      (HasTable L s.encounterTableId ∨
        (s.isMassOutbreak = some true ∧ ∃ k ∈ lotteriesOf area, s.encounterTableId = some (k : Int))) := by
  have key : ∃ S, spawners area = .ok S ∧ S.length = spawnerCount area ∧ Keyed (·.spawnerId) S ∧
      Keyed (·.groupId) S ∧ ∀ s ∈ S, SpawnerFacts (idsOf area) (lotteriesOf area) s := by
    obtain ⟨h1, h2⟩ := h
    clear hL
    interval_cases area
    · exact spawnersOk_sound (by omega) spawners1
    · exact spawnersOk_sound (by omega) spawners2
    · exact spawnersOk_sound (by omega) spawners3
    · exact spawnersOk_sound (by omega) spawners4
    · exact spawnersOk_sound (by omega) spawners5
  obtain ⟨S, h1, h2, h3, h4, h5⟩ := key
  refine ⟨S, h1, h2, fun s hs => ⟨?_, lookup_mem h3.2 hs, ?_, lookup_mem h4.2 hs, (h5 s hs).placed, (h5 s hs).counts,
    (h5 s hs).table.imp (hasTable h hL) id⟩⟩
  · obtain ⟨n, hn⟩ := h3.1 s hs
    exact fun hh => by cases hn.symm.trans hh
  · obtain ⟨n, hn⟩ := h4.1 s hs
    exact fun hh => by cases hn.symm.trans hh

/-- **C107**: the 166 outbreak groups and 7 outbreak lotteries load and each is found under its hash. In a lottery of an area
each common entry is a group whose waves all have tables in that area, and each rare entry is such a group too or the hash of
the empty string. -/
theorem C107_outbreaks (area : Nat) (h : 1 ≤ area ∧ area ≤ 5) (L : List (BitVec 64 × List SlotLA))
    (hL : encounterTables area = .ok L) :
    ∃ G Ls, groups = .ok G ∧ lotteries = .ok Ls ∧ G.length = 166 ∧ Ls.length = 7 ∧
      (∀ g ∈ G, groupLookup G g.hash = some g) ∧ (∀ l ∈ Ls, lotteryLookup Ls l.hash = some l) ∧
      ∀ k ∈ lotteriesOf area, ∃ l, lotteryLookup Ls (some (k : Int)) = some l ∧ l.tableCommon ≠ [] ∧
        (∀ e ∈ l.tableCommon, HasGroup L G e) ∧ ∀ e ∈ l.tableRare1 ++ l.tableRare2, e = some noGroup ∨ HasGroup L G e := by
  have key : ∃ G Ls, groups = .ok G ∧ lotteries = .ok Ls ∧ G.length = 166 ∧ Ls.length = 7 ∧ Keyed (·.hash) G ∧
      Keyed (·.hash) Ls ∧ ∀ k ∈ lotteriesOf area, ∃ l, lotteryLookup Ls (some (k : Int)) = some l ∧
        LotteryFacts G (idsOf area) l := by
    obtain ⟨h1, h2⟩ := h
    clear hL
    interval_cases area
    · exact outbreakOk_sound outbreaks1
    · exact outbreakOk_sound outbreaks2
    · exact outbreakOk_sound outbreaks3
    · exact outbreakOk_sound outbreaks4
    · exact outbreakOk_sound outbreaks5
  obtain ⟨G, Ls, h1, h2, h3, h4, h5, h6, h7⟩ := key
  have hg : ∀ {e : Option Int}, (∃ g, groupLookup G e = some g ∧ GroupFacts (idsOf area) g) → HasGroup L G e := by
    rintro e ⟨g, g1, g2, g3, g4⟩
    exact ⟨g, g1, hasTable h hL g2, g3, fun w hw => hasTable h hL (g4 w hw)⟩
  refine ⟨G, Ls, h1, h2, h3, h4, fun g hg => lookup_mem h5.2 hg, fun l hl => lookup_mem h6.2 hl, fun k hk => ?_⟩
  obtain ⟨l, l1, l2, l3, l4⟩ := h7 k hk
  exact ⟨l, l1, l2, fun e he => hg (l3 e he), fun e he => (l4 e he).imp id hg⟩

/-- The seven lotteries belong to the five areas, and all areas have one, so no statement about them is empty. -/
example : ([1, 2, 3, 4, 5].flatMap lotteriesOf).length = 7 ∧ ∀ area ∈ [1, 2, 3, 4, 5], lotteriesOf area ≠ [] := by decide

/-- The hypotheses are met by the tables of each area (C104). -/
example (area : Nat) (h : 1 ≤ area ∧ area ≤ 5) : ∃ L, encounterTables area = .ok L :=
  let ⟨L, h1, _⟩ := C104_loads area h
  ⟨L, h1⟩

end Verif.ShippedLa
