import Verif.Model.FlatBuffer
/-
Model of data/encounter/__init__.py:321-389 (`load_encounter_tables_la`) after the FlatBuffers are read: from the
`EncounterTable8a`, `EncounterMultiplier8a` and `PokeMisc8a` objects to the `EncounterAreaLA` records.

A 32-bit float is its bit pattern. The Python floats between reading and storing are exact (only the payload of a
signalling NaN could change). A Python integer stored in an unsigned record field is reduced modulo its size (numpy
1.26, with a DeprecationWarning when out of range). `None` stored in such a field raises `TypeError`.
-/
namespace Verif.EncLoadLa
open FlatBuffer

/-- `data/encounter/encounter_area_la.py:10-23` -/
structure SlotLA where
  species : BitVec 16
  gender : BitVec 8
  form : BitVec 8
  minLevel : BitVec 8
  maxLevel : BitVec 8
  guaranteedIvs : BitVec 8
  baseProbability : BitVec 32
  isAlpha : BitVec 8
  timeMultipliers : List (BitVec 32)
  weatherMultipliers : List (BitVec 32)
  deriving DecidableEq, Repr

/-- `x < 0.0` for the pattern of a 32-bit float: sign set, not -0.0, not a NaN -/
def f32Neg (x : BitVec 32) : Bool := 0x80000000#32 < x && x ≤ 0xff800000#32

/-- storing a Python value in an unsigned field of `w` bits -/
def store (w : Nat) : Option Int → Except PyErr (BitVec w)
  | none => .error .typeError
  | some x => .ok (BitVec.ofInt w x)

/-- `data/fbs/encounter_la.py:16-19, 53-56`: a dict built by a comprehension over `items`, read at `key`: the last one wins -/
def lookupLast {α κ : Type} [DecidableEq κ] (key : α → κ) (k : κ) : List α → Option α
  | [] => none
  | x :: xs => match lookupLast key k xs with
    | some y => some y
    | none => if key x = k then some x else none

/-- `d[key]` -/
def getItem {α : Type} : Option α → Except PyErr α
  | none => .error .keyError
  | some x => .ok x

/-- `data/encounter/__init__.py:408` `ALPHA_LEVEL_BOOSTS_LA` -/
def alphaLevelBoosts : List Nat := [15, 15, 15, 20, 20]

/-- `__init__.py:355` `ALPHA_LEVEL_BOOSTS_LA[index - 1]`, with Python's indices from the end -/
def alphaBoost (index : Int) : Except PyErr Nat :=
  let i := index - 1
  if 0 ≤ i ∧ i < 5 then .ok (alphaLevelBoosts[i.toNat]?.getD 0)
  else if -5 ≤ i ∧ i < 0 then .ok (alphaLevelBoosts[(i + 5).toNat]?.getD 0)
  else .error .indexError

/-- `__init__.py:341-350` `override if 0 < override <= 100 else level` -/
def overrideLevel (override : Int) (level : Option Int) : Option Int :=
  if 0 < override ∧ override ≤ 100 then some override else level

/-- `__init__.py:360-387` `np.where(np.array(own) < 0.0, species, own)`, then `np.where(x < 0.0, 1.0, x)`, elementwise -/
def bake (own species : Int) : BitVec 32 :=
  let own := BitVec.ofInt 32 own
  let species := BitVec.ofInt 32 species
  let x := if f32Neg own then species else own
  if f32Neg x then 0x3f800000#32 else x

/-- `__init__.py:353-357`: the level boost -/
def slotBoost (misc : List PokeMisc8a) (slot : EncounterSlot8a) : Except PyErr Nat :=
  if slot.isAlpha then do
    let m ← getItem (lookupLast (fun m => (m.species, m.form)) (slot.species, slot.form.getD 0) misc)
    alphaBoost m.alphaLevelIndex
  else pure 0

/-- `slot.encounter_eligibility`, whose attributes are read -/
def slotEligibility (slot : EncounterSlot8a) : Except PyErr EncounterEligibilityTraits8a :=
  match slot.eligibility with
  | none => .error .attributeError
  | some e => .ok e

/-- the body of the loop over the slots, `__init__.py:336-387` -/
def loadSlot (multipliers : List EncounterMultiplier8a) (misc : List PokeMisc8a) (table : EncounterTable8a)
    (slot : EncounterSlot8a) : Except PyErr SlotLA := do
  let species ← store 16 slot.species
  let gender ← store 8 (some slot.gender)
  let form ← store 8 (some (slot.form.getD 0))
  let guaranteedIvs ← store 8 (some (slot.guaranteedIvs.getD 0))
  let minLevel ← store 8 (overrideLevel slot.overrideMinLevel table.minLevel)
  let maxLevel ← store 8 (overrideLevel slot.overrideMaxLevel table.maxLevel)
  let baseProbability ← store 32 slot.baseProbability
  let isAlpha ← store 8 (some (if slot.isAlpha then 1 else 0))
  let boost ← slotBoost misc slot
  let minLevel := minLevel + BitVec.ofNat 8 boost
  let maxLevel := maxLevel + BitVec.ofNat 8 boost
  let eligibility ← slotEligibility slot
  let m ← getItem (lookupLast (fun m => (m.species, m.form)) (slot.species, slot.form.getD 0) multipliers)
  pure ⟨species, gender, form, minLevel, maxLevel, guaranteedIvs, baseProbability, isAlpha,
    List.zipWith bake eligibility.timeMultipliers m.timeMultipliers,
    List.zipWith bake eligibility.weatherMultipliers m.weatherMultipliers⟩

/-- all the slots of a table, `__init__.py:335` -/
def loadSlots (multipliers : List EncounterMultiplier8a) (misc : List PokeMisc8a) (table : EncounterTable8a) :
    List EncounterSlot8a → Except PyErr (List SlotLA)
  | [] => pure []
  | s :: ss => do
    let x ← loadSlot multipliers misc table s
    pure (x :: (← loadSlots multipliers misc table ss))

/-- the loop over the tables, `__init__.py:329-388`; the dict is the list of its insertions, a later one replacing an earlier -/
def loadTables (multipliers : List EncounterMultiplier8a) (misc : List PokeMisc8a) :
    List EncounterTable8a → Except PyErr (List (BitVec 64 × List SlotLA))
  | [] => pure []
  | t :: ts => do
    let id ← store 64 t.tableId
    let slots ← loadSlots multipliers misc t t.slots
    pure ((id, slots) :: (← loadTables multipliers misc ts))

/-- `data/encounter/__init__.py:321-398` `load_encounter_tables_la` and the module-level tables it uses, from the contents of
the three files -/
def loadEncounterTablesLa (multiplierFile miscFile encounterFile : Bytes) :
    Except PyErr (List (BitVec 64 × List SlotLA)) := do
  let multipliers ← rootArray encounterMultiplier8a multiplierFile
  let misc ← rootArray pokeMisc8a miscFile
  let tables ← rootArray encounterTable8a encounterFile
  loadTables multipliers misc tables

end Verif.EncLoadLa
