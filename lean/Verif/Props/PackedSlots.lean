import Verif.Props.EncLoad3
import Verif.Props.WildGen3
/-
C62: from the names in the Gen 3 encounter data through the packed slots to the generated states.
-/
namespace Verif.EncLoad3
open Gen3 Spec.Gen3

/-- the list of the data for an encounter type and the number of its entries that belong to the rods before -/
def listFor (e : Encounter) (encounter : BitVec 8) : Option MonList × Nat :=
  match encounter.toNat with
  | 3 => (e.rockSmashMons, 0)
  | 4 => (e.waterMons, 0)
  | 6 => (e.fishingMons, 0)
  | 7 => (e.fishingMons, 2)
  | 8 => (e.fishingMons, 5)
  | _ => (e.landMons, 0)

/-- the form of the `i`-th entry of the list: only land encounters have forms -/
def formFor (e : Encounter) (encounter : BitVec 8) (i : Nat) : Nat :=
  match encounter.toNat with
  | 3 | 4 | 6 | 7 | 8 => 0
  | _ => formOf e.map i

theorem formOf_lt32 (map : Str) (i : Nat) : formOf map i < 32 := by
  rw [formOf_eq]
  cases h : unownEncounters.lookup map with
  | none => simp
  | some forms =>
    have hall : ∀ x ∈ unownEncounters, ∀ f ∈ x.2, f < 32 := by decide +kernel
    rw [Option.bind_some]
    cases hf : forms[i]? with
    | none => simp
    | some f => exact hall _ (lookup_mem h) f (List.mem_of_getElem? hf)

/-- `slot` is empty or holds species number `s` and form `form`. -/
def Packs (names : List Str) (mon : Mon) (form : Nat) (slot : Slot3) : Prop :=
  names[slot.species.toNat % 2048]? = some mon.species ∧ slot.species.toNat / 2048 = form ∧
    slot.species.toNat % 1024 = slot.species.toNat % 2048

theorem slotFor_packs {names : List Str} (hlen : names.length ≤ 1024) {mon : Mon} {form : Nat} (hform : form < 32)
    {slot : Slot3} (h : SlotFor names mon form slot) : Packs names mon form slot := by
  obtain ⟨s, ⟨hs, -⟩, e⟩ := h.species
  have hlt : s < 1024 := by
    have := (List.getElem?_eq_some_iff.mp hs).1
    omega
  have hp : slot.species.toNat = s + form * 2048 := by
    rw [e, BitVec.toNat_or, BitVec.toNat_ofNat, BitVec.toNat_ofNat, Nat.mod_eq_of_lt (by omega),
      Nat.mod_eq_of_lt (by omega), Nat.or_comm, Nat.mul_comm form, show (2048 : Nat) = 2 ^ 11 from rfl,
      ← Nat.two_pow_add_eq_or_of_lt (by omega)]
    omega
  refine ⟨?_, by omega, by omega⟩
  rw [show slot.species.toNat % 2048 = s by omega, hs]

theorem entry_packs {names : List Str} (hlen : names.length ≤ 1024) {l : Option MonList} {i form : Nat} (hform : form < 32)
    {slot : Slot3} (h : Entry names l i form slot) :
    slot = ⟨0, 0, 0⟩ ∨ ∃ ml mon, l = some ml ∧ ml.mons[i]? = some mon ∧ Packs names mon form slot := by
  unfold Entry at h
  cases l with
  | none => exact .inl h
  | some ml =>
    rw [Option.bind_some] at h
    cases hm : ml.mons[i]? with
    | none => rw [hm] at h; exact .inl h
    | some mon => rw [hm] at h; exact .inr ⟨ml, mon, rfl, hm, slotFor_packs hlen hform h⟩

/-- Every slot of a loaded area is empty or holds an entry of the list of the encounter type. -/
theorem area_packs {names : List Str} (hlen : names.length ≤ 1024) {k : Nat} {e : Encounter} {area : EncounterArea3}
    (ha : AreaFor names k e area) (encounter : BitVec 8) {slot : Slot3} (hs : slot ∈ slotList area encounter) :
    slot = ⟨0, 0, 0⟩ ∨ ∃ ml i mon, (listFor e encounter).1 = some ml ∧
      ml.mons[i + (listFor e encounter).2]? = some mon ∧ Packs names mon (formFor e encounter i) slot := by
  have key : ∀ {n : Nat} (v : Vector Slot3 n) (l : Option MonList) (d : Nat) (form : Nat → Nat), (∀ i, form i < 32) →
      (∀ (i : Nat) (h : i < n), Entry names l (i + d) (form i) v[i]) → slot ∈ v.toList →
      slot = ⟨0, 0, 0⟩ ∨ ∃ ml i mon, l = some ml ∧ ml.mons[i + d]? = some mon ∧ Packs names mon (form i) slot := by
    intro n v l d form hform hv hm
    obtain ⟨i, hi, rfl⟩ := List.getElem_of_mem hm
    have hi' : i < n := by simpa using hi
    have := entry_packs hlen (hform i) (hv i hi')
    simp only [Vector.getElem_toList]
    rcases this with h | ⟨ml, mon, h1, h2, h3⟩
    · exact .inl h
    · exact .inr ⟨ml, i, mon, h1, h2, h3⟩
  unfold slotList at hs
  unfold listFor formFor
  split at hs
  · rename_i heq
    simp only [heq]
    exact key _ _ 0 (fun _ => 0) (by simp) ha.rock hs
  · rename_i heq
    simp only [heq]
    exact key _ _ 0 (fun _ => 0) (by simp) ha.water hs
  · rename_i heq
    simp only [heq]
    exact key _ _ 0 (fun _ => 0) (by simp) ha.fishOld hs
  · rename_i heq
    simp only [heq]
    exact key _ _ 2 (fun _ => 0) (by simp) ha.fishGood hs
  · rename_i heq
    simp only [heq]
    exact key _ _ 5 (fun _ => 0) (by simp) ha.fishSuper hs
  · have := key _ _ 0 (fun i => formOf e.map i) (fun i => formOf_lt32 _ i) ha.land hs
    split <;> simp_all

/-- the same, for the whole table -/
theorem loaded_packs (clean : Str → Str) (names : List Str) (hlen : names.length ≤ 1024) (game : BitVec 32)
    (data : List Encounter) (maps : List Str) (areas : List EncounterArea3)
    (h : loadEncounter3 clean names game data = .ok (maps, areas)) (area : EncounterArea3) (ha : area ∈ areas)
    (encounter : BitVec 8) (slot : Slot3) (hs : slot ∈ slotList area encounter) :
    slot = ⟨0, 0, 0⟩ ∨ ∃ e ∈ data, ∃ ml i mon, (listFor e encounter).1 = some ml ∧
      ml.mons[i + (listFor e encounter).2]? = some mon ∧ Packs names mon (formFor e encounter i) slot := by
  obtain ⟨part, hp, es, he, h1, h2, h3⟩ := C71_load clean names game data maps areas h
  obtain ⟨k, hk, rfl⟩ := List.getElem_of_mem ha
  have hke : k < es.length := by omega
  obtain ⟨name, area', -, ha', hplace⟩ := h3 k es[k] (List.getElem?_eq_getElem hke)
  rw [List.getElem?_eq_getElem hk] at ha'
  cases ha'
  by_cases hsk : Skip es[k].baseLabel
  · have hz := (hplace.1 hsk).2
    left
    rw [hz] at hs
    unfold slotList at hs
    split at hs <;> simpa [emptyArea] using hs
  · rcases area_packs hlen (hplace.2 hsk).2.2 encounter hs with h0 | ⟨ml, i, mon, m1, m2, m3⟩
    · exact .inl h0
    · have hmem : es[k] ∈ data := by
        have hm : ∀ x ∈ es, x ∈ data := fun x hx => (List.mem_filter.mp (he ▸ hx)).1
        exact hm _ (List.getElem_mem hke)
      exact .inr ⟨es[k], hmem, ml, i, mon, m1, m2, m3⟩

/-- **C62**: for every area loaded from any encounter data, with at most 1024 species names, each state found by a search has
the species and form of an entry of the data: its species number is the place of the entry's name among the names, its form
that of the entry.  (Or it comes from a slot that was not filled and has species and form 0.) -/
theorem C62_generated (clean : Str → Str) (names : List Str) (hlen : names.length ≤ 1024) (game : BitVec 32)
    (data : List Encounter) (maps : List Str) (areas : List EncounterArea3)
    (hl : loadEncounter3 clean names game data = .ok (maps, areas)) (area : EncounterArea3) (ha : area ∈ areas)
    (g : WildGenerator3) (wf : WellFormed g area) (fuel : Nat) (seed : BitVec 32) (delay init max : Nat)
    (hn : init + delay < 2 ^ 32) (states : List State) (h : generate g fuel seed delay init max area = .ok states)
    (st : State) (hst : st ∈ states) :
    (st.species = 0 ∧ st.form = 0) ∨ ∃ e ∈ data, ∃ ml i mon, (listFor e g.encounter).1 = some ml ∧
      ml.mons[i + (listFor e g.encounter).2]? = some mon ∧ names[st.species.toNat]? = some mon.species ∧
      st.form.toNat = formFor e g.encounter i := by
  obtain ⟨k, -, -, slot, hslot, info, n, -, hst⟩ := C56_generate g fuel area wf seed delay init max hn states h st hst
  obtain ⟨-, -, -, -, -, hsp, hfo, -⟩ := hst
  rcases loaded_packs clean names hlen game data maps areas hl area ha g.encounter slot hslot with h0 | h1
  · left
    subst h0
    exact ⟨BitVec.eq_of_toNat_eq (by simpa using hsp), BitVec.eq_of_toNat_eq (by simpa using hfo)⟩
  · right
    obtain ⟨e, he, ml, i, mon, m1, m2, m3, m4, -⟩ := h1
    exact ⟨e, he, ml, i, mon, m1, m2, by rw [hsp]; exact m3, by rw [hfo]; exact m4⟩

/-- **C62**, the type lookup: in an area loaded from any data with at most 1024 species names, Magnet Pull and Static (and the
other type leads) select the slots by the types of the species number that the generator reports for the slot,
`species % 2048`. -/
theorem C62_types (clean : Str → Str) (names : List Str) (hlen : names.length ≤ 1024) (game : BitVec 32)
    (data : List Encounter) (maps : List Str) (areas : List EncounterArea3)
    (hl : loadEncounter3 clean names game data = .ok (maps, areas)) (area : EncounterArea3) (ha : area ∈ areas)
    (encounter lead : BitVec 8) (game' : BitVec 32) (table : List Personal)
    (ht : ∀ s ∈ slotList area encounter, s.species.toNat % 2048 < table.length) :
    getModifiedSlots area encounter lead game' table =
      .ok (match attracted lead game' with
        | none => []
        | some t => (slotList area encounter).filter fun s => (table[s.species.toNat % 2048]?).any fun info =>
            info.type1.toNat == t || info.type2.toNat == t) := by
  have hmod : ∀ s ∈ slotList area encounter, s.species.toNat % 1024 = s.species.toNat % 2048 := by
    intro s hs
    rcases loaded_packs clean names hlen game data maps areas hl area ha encounter s hs with h0 | h1
    · rw [h0]; rfl
    · obtain ⟨e, -, ml, i, mon, -, -, -, -, m⟩ := h1
      exact m
  rw [C54_modified area encounter lead game' table (fun s hs => by rw [hmod s hs]; exact ht s hs)]
  cases attracted lead game' with
  | none => rfl
  | some t =>
    congr 1
    apply List.filter_congr
    intro s hs
    unfold hasType
    rw [hmod s hs]
    cases table[s.species.toNat % 2048]? <;> simp [beq_eq_decide]

/-! ### examples -/

/-- one chamber of FireRed with a single species -/
def chamberData : List Encounter :=
  [{ map := "MAP_SEVEN_ISLAND_TANOBY_RUINS_DILFORD_CHAMBER".toList, baseLabel := "sChamber_FireRed".toList,
     landMons := some { encounterRate := 7, mons := List.replicate 12 ⟨25, 25, "y".toList⟩ },
     waterMons := some { encounterRate := 7, mons := [⟨5, 9, "y".toList⟩] }, rockSmashMons := none, fishingMons := none }]

/-- a generator for grass with three species -/
def chamberGenerator : WildGenerator3 :=
  WildGenerator3.new ⟨[], [], exampleTable, []⟩ Method.method1 Encounter.grass Lead.none Game.fireRed 0 0

/-- The hypotheses hold together: the chamber is loaded, the generator finds a state in it, with species 1 and a form. -/
example : (match loadEncounter3 id ["x".toList, "y".toList] Game.fireRed chamberData with
    | .ok (_, [area]) => decide ((∀ s ∈ slotList area Encounter.grass, s.minLevel.toNat ≤ s.maxLevel.toNat) ∧
        (∀ s ∈ slotList area Encounter.grass, s.species.toNat % 2048 < chamberGenerator.table.length)) &&
      (match generate chamberGenerator 10000 14 0 0 1 area with
        | .ok [st] => decide (st.species = 1 ∧ st.form ≠ 0 ∧ st.form.toNat < 28)
        | _ => false)
    | _ => false) = true := by decide +kernel

end Verif.EncLoad3
