import Verif.Props.Shipped3
/-
C92: on the shipped Gen 3 data every call returns, except for the stated ones.
-/
namespace Verif.Shipped3
open EncLoad3 Gen3 Spec.Gen3

/-! ### the generator of a game -/

/-- the file of the personal table of a game -/
def personalFile (game : BitVec 32) : Nat × Nat :=
  if game = Game.ruby ∨ game = Game.sapphire then Data.personal_rs
  else if game = Game.emerald then Data.personal_e
  else if game = Game.fireRed then Data.personal_fr
  else Data.personal_lg

theorem mem_games {game : BitVec 32} {n : Nat} (h : (game, n) ∈ games) :
    game = Game.ruby ∨ game = Game.sapphire ∨ game = Game.emerald ∨ game = Game.fireRed ∨ game = Game.leafGreen := by
  simp only [games, List.mem_cons, Prod.mk.injEq, List.not_mem_nil, or_false] at h
  rcases h with ⟨h, -⟩ | ⟨h, -⟩ | ⟨h, -⟩ | ⟨h, -⟩ | ⟨h, -⟩ <;> simp [h]

theorem generator_table_of (t : Tables) (game : BitVec 32) (n : Nat) (h : (game, n) ∈ games) (method encounter lead : BitVec 8)
    (tid sid : BitVec 16) :
    (WildGenerator3.new t method encounter lead game tid sid).table =
      if game = Game.ruby ∨ game = Game.sapphire then t.rs else if game = Game.emerald then t.e
      else if game = Game.fireRed then t.fr else t.lg := by
  rcases mem_games h with rfl | rfl | rfl | rfl | rfl <;> rfl

theorem generator_table (game : BitVec 32) (n : Nat) (h : (game, n) ∈ games) (method encounter lead : BitVec 8)
    (tid sid : BitVec 16) :
    (WildGenerator3.new tables method encounter lead game tid sid).table = table (personalFile game) := by
  rw [generator_table_of tables game n h]
  simp only [tables, personalFile]
  split_ifs <;> rfl

theorem generator_lead (game : BitVec 32) (n : Nat) (h : (game, n) ∈ games) (method encounter lead : BitVec 8)
    (tid sid : BitVec 16) :
    (WildGenerator3.new tables method encounter lead game tid sid).lead = if game = Game.emerald then lead else Lead.none := by
  rcases mem_games h with rfl | rfl | rfl | rfl | rfl <;> rfl

theorem personalFile_size (game : BitVec 32) : (personalFile game).1 = 10836 := by
  unfold personalFile; split_ifs <;> rfl

theorem unown_genderless (game : BitVec 32) : byte (personalFile game) (28 * 201 + 16) = 255 := by
  unfold personalFile; split_ifs <;> decide +kernel

/-! ### Emerald -/

/-- all mons of the entry -/
def wordsOf (l : Option Data.Packed) : List Nat :=
  match l with
  | none => []
  | some p => (List.range p.count).map (word p)

/-- the map of Route 117 -/
def route117Map : Str := c!"MAP_ROUTE117"

/-- In Emerald there are no Unown, and the only species that is always male is Volbeat (313), in the grass of Route 117,
where it is the slot number 10. -/
theorem emerald_males : Data.eRaw.all (fun r =>
    ((wordsOf r.land ++ wordsOf r.water ++ wordsOf r.rock ++ wordsOf r.fish).all fun w => dexOf w != 201) &&
    ((wordsOf r.water ++ wordsOf r.rock ++ wordsOf r.fish).all fun w => byte Data.personal_e (28 * dexOf w + 16) != 0) &&
    (if r.map = route117Map then (!isSkipped r.label) && (r.land.map fun p => (p.count, dexOf (word p 10))) == some (12, 313)
      else (wordsOf r.land).all fun w => byte Data.personal_e (28 * dexOf w + 16) != 0)) = true := by
  decide +kernel

theorem emerald_zero : byte Data.personal_e (28 * 0 + 16) = 0 ∧ byte Data.personal_e (28 * 313 + 16) = 0 := by
  decide +kernel

/-! ### C92 -/

/-- an encounter type that uses the land list: any but rock smash, surfing and the rods -/
def isLand (encounter : BitVec 8) : Prop := encounter.toNat ∉ [3, 4, 6, 7, 8]

/-- The exceptions: the area has no list for this type of encounter (other than rock smash), or it is the grass of
Route 117. -/
def Excluded (r : Data.Raw) (encounter : BitVec 8) : Prop :=
  (source r encounter = none ∧ encounter ≠ Encounter.rockSmash) ∨ (r.map = route117Map ∧ isLand encounter)

theorem slotFrom_word {l : Option Data.Packed} {s : Slot3} (h : SlotFrom l s) : s = zeroSlot ∧ l = none ∨
    ∃ w ∈ wordsOf l, s.species.toNat % 2048 = dexOf w := by
  cases l with
  | none => exact .inl ⟨h, rfl⟩
  | some p =>
    obtain ⟨h1, i, hi, form, hform, ⟨a, b, c⟩, h2⟩ := h
    have hd := dexOf_range ((okPacked_word h1).2.2.2 i hi)
    refine .inr ⟨word p i, ?_, by omega⟩
    simp only [wordsOf, List.mem_map, List.mem_range]
    exact ⟨i, hi, rfl⟩

theorem wordsOf_source (r : Data.Raw) (encounter : BitVec 8) (w : Nat) (h : w ∈ wordsOf (source r encounter)) :
    w ∈ wordsOf (listOf r encounter) := by
  unfold source at h
  split at h
  · simp [wordsOf] at h
  · exact h

theorem listOf_land (r : Data.Raw) (encounter : BitVec 8) (h : isLand encounter) : listOf r encounter = r.land := by
  unfold isLand at h
  unfold listOf
  generalize encounter.toNat = n at h
  split <;> first | rfl | simp at h

theorem listOf_other (r : Data.Raw) (encounter : BitVec 8) (h : ¬ isLand encounter) :
    listOf r encounter ∈ [r.water, r.rock, r.fish] := by
  unfold isLand at h
  unfold listOf
  generalize encounter.toNat = n at h
  rw [not_not] at h
  split <;> simp_all

theorem emerald_word (r : Data.Raw) (hr : r ∈ Data.eRaw) (encounter : BitVec 8) (w : Nat)
    (hw : w ∈ wordsOf (listOf r encounter)) : dexOf w ≠ 201 ∧
      (¬ (r.map = route117Map ∧ isLand encounter) → byte Data.personal_e (28 * dexOf w + 16) ≠ 0) := by
  have h := List.all_eq_true.mp emerald_males r hr
  simp only [Bool.and_eq_true, List.all_eq_true, List.mem_append, bne_iff_ne] at h
  obtain ⟨⟨h1, h2⟩, h3⟩ := h
  by_cases hl : isLand encounter
  · rw [listOf_land r encounter hl] at hw
    refine ⟨h1 w (.inl (.inl (.inl hw))), fun hn => ?_⟩
    rw [if_neg (fun hm => hn ⟨hm, hl⟩), List.all_eq_true] at h3
    simpa using h3 w hw
  · have := listOf_other r encounter hl
    simp only [List.mem_cons, List.not_mem_nil, or_false] at this
    rcases this with h | h | h <;> rw [h] at hw
    · exact ⟨h1 w (.inl (.inl (.inr hw))), fun _ => h2 w (.inl (.inl hw))⟩
    · exact ⟨h1 w (.inl (.inr hw)), fun _ => h2 w (.inl (.inr hw))⟩
    · exact ⟨h1 w (.inr hw), fun _ => h2 w (.inr hw)⟩

theorem wellFormed (game : BitVec 32) (n : Nat) (h : (game, n) ∈ games) (method encounter lead : BitVec 8)
    (tid sid : BitVec 16) (area : EncounterArea3) (r : Data.Raw)
    (hs : ∀ s ∈ slotList area encounter, SlotFrom (source r encounter) s) :
    WellFormed (WildGenerator3.new tables method encounter lead game tid sid) area := by
  constructor
  · intro s hm
    rcases slotFrom_good (hs s hm) with ⟨rfl, -⟩ | h
    · decide
    · exact h.2.1
  · intro s hm
    rw [generator_table game n h, (table_get _ (personalFile_size game)).1]
    rcases slotFrom_good (hs s hm) with ⟨rfl, -⟩ | h
    · decide
    · omega

/-- the place of an area in the results, and its entry in the file -/
structure Place (game : BitVec 32) (k : Nat) (r : Data.Raw) (area : EncounterArea3) : Prop where
  entry : (entries game)[k]? = some r
  loaded : ∃ names areas, load game = .ok (names, areas) ∧ areas[k]? = some area

theorem place_slots {game : BitVec 32} {k : Nat} {r : Data.Raw} {area : EncounterArea3} (h : Place game k r area) :
    (∀ encounter, ∀ s ∈ slotList area encounter, SlotFrom (source r encounter) s) ∧
      area.rockRate = BitVec.ofNat 8 (((source r Encounter.rockSmash).map Data.Packed.rate).getD 0) ∧
      (area.location = if isSkipped r.label then 0 else BitVec.ofNat 16 k) := by
  obtain ⟨h1, names, areas, h2, h3⟩ := h
  obtain ⟨j1, j2, j3⟩ := load_place game names areas h2
  obtain ⟨name, area', e1, e2, e3, e4, e5⟩ := j3 k r h1
  rw [h3, Option.some.injEq] at e2
  subst e2
  unfold source
  by_cases hsk : Skip r.label
  · simp only [if_pos ((isSkipped_iff _).mpr hsk)]
    rw [(e4 hsk).2]
    exact ⟨fun encounter s hs => zeroArea_slots encounter s hs, rfl, rfl⟩
  · simp only [if_neg (fun h => hsk ((isSkipped_iff _).mp h))]
    have ha := (e5 hsk).2
    refine ⟨fun encounter s hs => slot_holds r e3 k area ha encounter s hs, ?_, ha.location⟩
    rw [ha.rockRate]
    unfold rateOf
    congr 1
    show (((r.rock.map unpack).map MonList.encounterRate).getD 0) = ((r.rock.map Data.Packed.rate).getD 0)
    cases r.rock <;> rfl

theorem place_land {game : BitVec 32} {k : Nat} {r : Data.Raw} {area : EncounterArea3} (h : Place game k r area)
    (hsk : isSkipped r.label = false) (p : Data.Packed) (hl : r.land = some p) (i : Nat) (hi : i < 12) :
    area.land[i].species.toNat % 2048 = dexOf (word p i) := by
  obtain ⟨h1, names, areas, h2, h3⟩ := h
  obtain ⟨j1, j2, j3⟩ := load_place game names areas h2
  obtain ⟨name, area', e1, e2, e3, e4, e5⟩ := j3 k r h1
  rw [h3, Option.some.injEq] at e2
  subst e2
  have ha := (e5 (fun hx => by rw [(isSkipped_iff _).mpr hx] at hsk; cases hsk)).2
  simp only [okRaw, Bool.and_eq_true] at e3
  have hok := e3.1.1.1.1
  have := (entry_holds r.land 12 i _ hok hi (Nat.lt_trans (formOf_lt _ _).1 (by omega)) area.land[i] (ha.land i hi)).2 p hl
  rw [hl] at hok
  rw [Option.all_some] at hok
  have hd := dexOf_range ((okPacked_word hok).2.2.2 i hi)
  have := this.species
  omega

/-- **C92**: with the shipped data every call returns a list (the same for every bound of at least 2^31 tries per PID search)
for every game, area, method, encounter type, lead, trainer id, seed, delay and range of advances, unless the game is
Emerald, the lead CUTE_CHARM_M, and the area and encounter type are `Excluded`. -/
theorem C92_returns (game : BitVec 32) (n : Nat) (h : (game, n) ∈ games) (k : Nat) (r : Data.Raw) (area : EncounterArea3)
    (hp : Place game k r area) (method encounter lead : BitVec 8)
    (hne : ¬ (game = Game.emerald ∧ lead = Lead.cuteCharmM ∧ Excluded r encounter)) (tid sid : BitVec 16)
    (seed : BitVec 32) (delay init max : Nat) (hn : init + delay < 2 ^ 32) :
    ∃ states, ∀ fuel, 2 ^ 31 ≤ fuel →
      run .numba tables method encounter lead game tid sid fuel seed delay init max area = .ok states := by
  obtain ⟨hs, hrate, -⟩ := place_slots hp
  have hs := hs encounter
  set g := WildGenerator3.new tables method encounter lead game tid sid with hg
  have wf : WellFormed g area := wellFormed game n h method encounter lead tid sid area r hs
  have henc : g.encounter = encounter := rfl
  have htable : g.table = table (personalFile game) := generator_table game n h _ _ _ _ _
  have hlead : g.lead = if game = Game.emerald then lead else Lead.none := generator_lead game n h _ _ _ _ _
  obtain ⟨tlen, tget⟩ := table_get (personalFile game) (personalFile_size game)
  have hunown : ∀ info, g.table[201]? = some info → info.genderRatio.toNat = 255 := by
    intro info hi
    rw [htable] at hi
    rw [(tget 201 info hi).2.2.1]
    exact unown_genderless game
  have htab : ∀ s ∈ slotList area g.encounter, s.species.toNat % 1024 < g.table.length := by
    intro s hm
    rw [htable, tlen]
    rcases slotFrom_good (hs s hm) with ⟨rfl, -⟩ | h
    · decide
    · omega
  show ∃ states, ∀ fuel, 2 ^ 31 ≤ fuel → generate g fuel seed delay init max area = .ok states
  by_cases hrock : game = Game.emerald ∧ encounter = Encounter.rockSmash ∧ source r encounter = none
  · -- the check of Rock Smash always fails
    obtain ⟨rfl, rfl, hsrc⟩ := hrock
    rw [hsrc] at hrate
    have hskip : ∀ s, skipped g area s := by
      intro s
      have hgame : Game.has ((Game.emerald.setWidth 8).setWidth 32) (Game.ruby ||| Game.sapphire ||| Game.emerald) = true := by
        decide
      refine ⟨⟨hgame, rfl⟩, ?_⟩
      rw [hrate]; simp
    refine ⟨[], fun fuel _ => ?_⟩
    rw [generate_eq _ _ _ _ _ _ _ hn, C54_modified area g.encounter g.lead (g.game.setWidth 32) g.table htab]
    exact generateLoop_skipped g fuel area _ max init _ [] (hskip _)
  · refine C57_partial g area wf ⟨?_, ?_, ?_⟩ hunown htab seed delay init max hn
    · intro s hm h201
      rcases slotFrom_good (hs s hm) with ⟨rfl, -⟩ | h
      · decide
      · by_cases h0 : s.species.toNat / 2048 = 0
        · omega
        · exact (h.2.2.2.2.2 h0).2
    · intro hc s hm info hi
      have hem : game = Game.emerald := by
        by_contra hx
        rw [hlead, if_neg hx] at hc
        revert hc; decide
      subst hem
      rw [hlead, if_pos rfl] at hc
      have hex : ¬ Excluded r encounter := fun hx => hne ⟨rfl, hc, hx⟩
      rw [htable] at hi
      rw [(tget _ info hi).2.2.1]
      rcases slotFrom_word (hs s hm) with ⟨-, hnone⟩ | ⟨w, hw, hd⟩
      · exfalso
        by_cases he : encounter = Encounter.rockSmash
        · exact hrock ⟨rfl, he, hnone⟩
        · exact hex (.inl ⟨hnone, he⟩)
      · rw [hd]
        have hr : r ∈ Data.eRaw := (List.mem_filter.mp (List.mem_of_getElem? hp.entry)).1
        exact (emerald_word r hr encounter w (wordsOf_source _ _ _ hw)).2 fun hx => hex (.inr hx)
    · intro hc s hm
      have hem : game = Game.emerald := by
        by_contra hx
        rw [hlead, if_neg hx] at hc
        revert hc; decide
      subst hem
      have hr : r ∈ Data.eRaw := (List.mem_filter.mp (List.mem_of_getElem? hp.entry)).1
      rcases slotFrom_word (hs s hm) with ⟨rfl, -⟩ | ⟨w, hw, hd⟩
      · decide
      · rw [hd]
        exact (emerald_word r hr encounter w (wordsOf_source _ _ _ hw)).1

/-- **C92**, the limit of the range: a start of 2^32 advances or more raises `IndexError`, whatever the other arguments. -/
theorem C92_far (game : BitVec 32) (n : Nat) (h : (game, n) ∈ games) (k : Nat) (r : Data.Raw) (area : EncounterArea3)
    (hp : Place game k r area) (method encounter lead : BitVec 8) (tid sid : BitVec 16)
    (seed : BitVec 32) (delay init max fuel : Nat) (hn : 2 ^ 32 ≤ init + delay) :
    run .numba tables method encounter lead game tid sid fuel seed delay init max area = .err .indexError := by
  obtain ⟨hs, -, -⟩ := place_slots hp
  have hs := hs encounter
  set g := WildGenerator3.new tables method encounter lead game tid sid with hg
  have htable : g.table = table (personalFile game) := generator_table game n h _ _ _ _ _
  obtain ⟨tlen, tget⟩ := table_get (personalFile game) (personalFile_size game)
  have htab : ∀ s ∈ slotList area g.encounter, s.species.toNat % 1024 < g.table.length := by
    intro s hm
    rw [htable, tlen]
    rcases slotFrom_good (hs s hm) with ⟨rfl, -⟩ | h
    · decide
    · omega
  exact (C55_far g fuel seed delay init max area hn).1 _
    (C54_modified area g.encounter g.lead (g.game.setWidth 32) g.table htab)

/-- **C92**, the exceptions: there the call for seed 30 and one advance never returns. -/
theorem C92_never (k : Nat) (r : Data.Raw) (area : EncounterArea3) (hp : Place Game.emerald k r area)
    (method encounter : BitVec 8) (hex : Excluded r encounter) (tid sid : BitVec 16) (fuel : Nat) :
    run .numba tables method encounter Lead.cuteCharmM Game.emerald tid sid fuel 30 0 0 1 area = .outOfFuel := by
  have h : (Game.emerald, 124) ∈ games := by decide
  obtain ⟨hs, hrate, -⟩ := place_slots hp
  have hs := hs encounter
  set g := WildGenerator3.new tables method encounter Lead.cuteCharmM Game.emerald tid sid with hg
  have wf : WellFormed g area := wellFormed _ _ h method encounter _ tid sid area r hs
  have henc : g.encounter = encounter := rfl
  have hlead : g.lead = Lead.cuteCharmM := rfl
  have htable : g.table = table Data.personal_e := generator_table _ _ h _ _ _ _ _
  obtain ⟨tlen, tget⟩ := table_get Data.personal_e rfl
  have hnr : encounter ≠ Encounter.rockSmash := by
    rcases hex with ⟨-, h⟩ | ⟨-, h⟩
    · exact h
    · rintro rfl; exact h (by decide)
  have hns : ¬ skipped g area 30 := fun hx => hnr hx.1.2
  have hmod : getModifiedSlots area g.encounter g.lead (g.game.setWidth 32) g.table = .ok [] := rfl
  have hb : beforeSlot g = 0 := by
    unfold beforeSlot
    rw [if_neg]
    exact fun hx => hnr hx.2
  obtain ⟨slot, info, h1, h2, h3, h4⟩ := generateOne_eq g area wf [] (by simp) (by simp) 30 hns
  have hratio : info.genderRatio.toNat = 0 := by
    rw [htable] at h3
    rw [(tget _ info h3).2.2.1]
    rcases hex with ⟨hnone, -⟩ | ⟨hmap, hland⟩
    · have := hs slot h2
      rw [hnone] at this
      have : slot = zeroSlot := this
      rw [this]
      exact emerald_zero.1
    · have hr : r ∈ Data.eRaw := (List.mem_filter.mp (List.mem_of_getElem? hp.entry)).1
      have hm := List.all_eq_true.mp emerald_males r hr
      simp only [Bool.and_eq_true] at hm
      have hm := hm.2
      rw [if_pos hmap, Bool.and_eq_true, Bool.not_eq_true', beq_iff_eq, Option.map_eq_some_iff] at hm
      obtain ⟨hsk, p, hpk, hcount⟩ := hm
      simp only [Prod.mk.injEq] at hcount
      have hslot : slot = area.land[10] := by
        rw [hb, hlead, henc] at h1
        unfold SlotChosen at h1
        rw [if_neg (by decide)] at h1
        have hne : ∀ j : Nat, j ∈ [3, 4, 6, 7, 8] → encounter ≠ BitVec.ofNat 8 j := by
          rintro j hj rfl
          apply hland
          rw [BitVec.toNat_ofNat, Nat.mod_eq_of_lt (by simp at hj; omega)]
          exact hj
        obtain ⟨l1, l2⟩ := slotList_other area encounter (hne 3 (by simp)) (hne 4 (by simp)) (hne 6 (by simp))
          (hne 7 (by simp)) (hne 8 (by simp))
        have hidx : tableIndex [20, 40, 50, 60, 70, 80, 85, 90, 94, 98, 99, 100] (out 1 (after 0 30) % 100) = 10 := by
          decide +kernel
        rw [l1, l2, hidx] at h1
        simpa using h1.symm
      rw [hslot, place_land hp hsk p hpk 10 (by omega), hcount.2]
      exact emerald_zero.2
  have hcd : charmDraw g.lead info := ⟨.inl hlead, by omega⟩
  have hch : charmed g info 30 := by
    refine ⟨hcd, ?_⟩
    have : beforeCharm g = 2 := by rw [beforeCharm, hb, hlead]; rfl
    rw [this]; decide +kernel
  have hunown : (slot.species &&& 0x7FF).toNat = 201 → info.genderRatio.toNat = 255 := by
    intro h201
    rw [and_7ff] at h201
    rw [htable, h201] at h3
    rw [(tget 201 info h3).2.2.1]
    exact unown_genderless Game.emerald
  have hform : (slot.species >>> 11).toNat < 256 := by
    rw [BitVec.toNat_ushiftRight, Nat.shiftRight_eq_div_pow]
    have := slot.species.isLt
    omega
  have hsearch := (C57_search g.lead info (charmed g info 30) (fun h => h.1.2) (slot.species &&& 0x7FF)
    (slot.species >>> 11) hform hunown _ (natureOf_lt g.lead (after (beforeNature g area info) 30))
    (after (beforePid g area info 30) 30)).2 (by
      rintro ⟨-, hx, -⟩
      exact hx hch (by rw [hlead]; decide) hratio)
  show generate g fuel 30 0 0 1 area = _
  rw [generate_eq _ _ _ _ _ _ _ (by norm_num), hmod]
  simp only [Res.ok_bind]
  rw [generateLoop]
  have : after (0 + 0) 30 = (30 : BitVec 32) := rfl
  rw [this, h4, hsearch fuel]
  rfl

end Verif.Shipped3
