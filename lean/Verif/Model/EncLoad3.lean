import Verif.Model.Gen3Area
/-
Model of `load_encounter_3`, data/encounter/__init__.py:188-271 (without the cache, for which see Model/Cache).

The JSON data is a list of `Encounter` values; `clean` is `clean_map_string` (Model/MapName), `speciesNames` is
`CONSTANT_CASE_SPECIES_EN`. Numbers in the JSON data are natural numbers; assignment to a `uint8`/`uint16` field keeps
the low bits. Strings are character lists.
-/
namespace Verif.EncLoad3
open Gen3

abbrev Str := List Char

/-- an entry of `"mons"` -/
structure Mon where
  minLevel : Nat
  maxLevel : Nat
  species : Str
  deriving DecidableEq

/-- an object like `encounter["land_mons"]` -/
structure MonList where
  encounterRate : Nat
  mons : List Mon
  deriving DecidableEq

/-- an entry of `"encounters"`; the keys of the four kinds of encounters may be missing -/
structure Encounter where
  map : Str
  baseLabel : Str
  landMons : Option MonList
  waterMons : Option MonList
  rockSmashMons : Option MonList
  fishingMons : Option MonList
  deriving DecidableEq

/-- an all-zero slot / area of `np.zeros` -/
def zeroSlot : Slot3 := ⟨0, 0, 0⟩
/-- an all-zero area of `np.zeros`, `__init__.py:207-209` -/
def zeroArea : EncounterArea3 where
  location := 0
  landRate := 0
  land := Vector.replicate 12 zeroSlot
  waterRate := 0
  water := Vector.replicate 5 zeroSlot
  rockRate := 0
  rock := Vector.replicate 5 zeroSlot
  fishRate := 0
  fishOld := Vector.replicate 2 zeroSlot
  fishGood := Vector.replicate 3 zeroSlot
  fishSuper := Vector.replicate 5 zeroSlot

/-! ### strings -/

/-- `s.startswith(p)`, and what follows -/
def stripPrefix : (p s : Str) → Option Str
  | [], s => some s
  | _ :: _, [] => none
  | c :: p, d :: s => if c = d then stripPrefix p s else none

/-- `p in s` -/
def contains (p : Str) : Str → Bool
  | [] => (stripPrefix p []).isSome
  | c :: s => (stripPrefix p (c :: s)).isSome || contains p s

/-- the next character is in `[2-9]` -/
def digit29 : Option Str → Bool
  | some (c :: _) => '2' ≤ c && c ≤ '9'
  | _ => false

/-- `re.match(p + "[2-9]", s)` for a literal `p` -/
def reMatch (p s : Str) : Bool := digit29 (stripPrefix p s)

/-- `re.search(p + "[2-9]", s)` for a literal `p` -/
def reSearch (p : Str) : Str → Bool
  | [] => reMatch p []
  | c :: s => reMatch p (c :: s) || reSearch p s

/-- `__init__.py:212-222`: the areas left out -/
def isSkipped (label : Str) : Bool :=
  reMatch "gAlteringCave".toList label || reSearch "AlteringCave_".toList label || contains "Unused".toList label

/-- `__init__.py:198-205`: the entries of the game; games without a data file raise `KeyError` (`:53-59`, `:192`) -/
def selectGame (game : BitVec 32) (encounters : List Encounter) : Except PyErr (List Encounter) :=
  if game = Game.ruby then .ok (encounters.filter fun x => contains "Ruby".toList x.baseLabel)
  else if game = Game.sapphire then .ok (encounters.filter fun x => contains "Sapphire".toList x.baseLabel)
  else if game = Game.fireRed then .ok (encounters.filter fun x => contains "FireRed".toList x.baseLabel)
  else if game = Game.leafGreen then .ok (encounters.filter fun x => contains "LeafGreen".toList x.baseLabel)
  else if game = Game.emerald then .ok encounters
  else .error .keyError

/-! ### slots -/

/-- `CONSTANT_CASE_SPECIES_EN.index(name)`, starting to count at `i` -/
def speciesIndex (name : Str) : (names : List Str) → (i : Nat) → Except PyErr Nat
  | [], _ => .error .valueError
  | n :: names, i => if n = name then .ok i else speciesIndex name names (i + 1)

/-- `UNOWN_ENCOUNTERS`, `__init__.py:61-160` -/
def unownEncounters : List (Str × List Nat) := [
  ("MAP_SEVEN_ISLAND_TANOBY_RUINS_MONEAN_CHAMBER".toList, [0, 0, 0, 0, 0, 0, 0, 0, 0, 0, 0, 27]),
  ("MAP_SEVEN_ISLAND_TANOBY_RUINS_LIPTOO_CHAMBER".toList, [2, 2, 2, 3, 3, 3, 7, 7, 7, 20, 20, 14]),
  ("MAP_SEVEN_ISLAND_TANOBY_RUINS_WEEPTH_CHAMBER".toList, [13, 13, 13, 13, 18, 18, 18, 18, 8, 8, 4, 4]),
  ("MAP_SEVEN_ISLAND_TANOBY_RUINS_DILFORD_CHAMBER".toList, [15, 15, 11, 11, 9, 9, 17, 17, 17, 16, 16, 16]),
  ("MAP_SEVEN_ISLAND_TANOBY_RUINS_SCUFIB_CHAMBER".toList, [24, 24, 19, 19, 6, 6, 6, 5, 5, 5, 10, 10]),
  ("MAP_SEVEN_ISLAND_TANOBY_RUINS_RIXY_CHAMBER".toList, [21, 21, 21, 22, 22, 22, 23, 23, 12, 12, 1, 1]),
  ("MAP_SEVEN_ISLAND_TANOBY_RUINS_VIAPOIS_CHAMBER".toList, [25, 25, 25, 25, 25, 25, 25, 25, 25, 25, 25, 26])]

/-- `UNOWN_ENCOUNTERS[map]` if present -/
def unownForms (map : Str) : List (Str × List Nat) → Option (List Nat)
  | [] => none
  | (m, forms) :: rest => if m = map then some forms else unownForms map rest

/-- `__init__.py:238-240`: the three assignments to a slot -/
def fillSlot (speciesNames : List Str) (mon : Mon) : Except PyErr Slot3 :=
  match speciesIndex mon.species speciesNames 0 with
  | .error e => .error e
  | .ok s => .ok ⟨BitVec.ofNat 8 mon.minLevel, BitVec.ofNat 8 mon.maxLevel, BitVec.ofNat 16 s⟩

/-- `__init__.py:241-243`: the form of an Unown -/
def addForm (map : Str) (i : Nat) (slot : Slot3) : Except PyErr Slot3 :=
  match unownForms map unownEncounters with
  | none => .ok slot
  | some forms =>
    match forms[i]? with
    | none => .error .indexError
    | some form => .ok { slot with species := slot.species ||| BitVec.ofNat 16 (form <<< 11) }

/-- `__init__.py:236-243`: the land slots from the `i`-th on -/
def landLoop (speciesNames : List Str) (map : Str) : Nat → List Mon → Vector Slot3 12 → Except PyErr (Vector Slot3 12)
  | _, [], land => .ok land
  | i, mon :: mons, land =>
    if h : i < 12 then
      match fillSlot speciesNames mon with
      | .error e => .error e
      | .ok slot =>
        match addForm map i slot with
        | .error e => .error e
        | .ok slot => landLoop speciesNames map (i + 1) mons (land.set i slot)
    else .error .indexError

/-- `__init__.py:246-250` and `:253-257`: the water or rock smash slots from the `i`-th on -/
def slotLoop (speciesNames : List Str) : Nat → List Mon → Vector Slot3 5 → Except PyErr (Vector Slot3 5)
  | _, [], slots => .ok slots
  | i, mon :: mons, slots =>
    if h : i < 5 then
      match fillSlot speciesNames mon with
      | .error e => .error e
      | .ok slot => slotLoop speciesNames (i + 1) mons (slots.set i slot)
    else .error .indexError

/-- `__init__.py:260-269`: the fishing slots from the `i`-th on -/
def fishLoop (speciesNames : List Str) : Nat → List Mon → EncounterArea3 → Except PyErr EncounterArea3
  | _, [], area => .ok area
  | i, mon :: mons, area =>
    if h : i < 2 then
      match fillSlot speciesNames mon with
      | .error e => .error e
      | .ok slot => fishLoop speciesNames (i + 1) mons { area with fishOld := area.fishOld.set i slot }
    else if h : i < 5 then
      match fillSlot speciesNames mon with
      | .error e => .error e
      | .ok slot => fishLoop speciesNames (i + 1) mons { area with fishGood := area.fishGood.set (i - 2) slot }
    else if h : i - 5 < 5 then
      match fillSlot speciesNames mon with
      | .error e => .error e
      | .ok slot => fishLoop speciesNames (i + 1) mons { area with fishSuper := area.fishSuper.set (i - 5) slot }
    else .error .indexError

/-- `__init__.py:234-243` -/
def loadLand (speciesNames : List Str) (e : Encounter) (area : EncounterArea3) : Except PyErr EncounterArea3 :=
  match e.landMons with
  | none => .ok area
  | some l =>
    match landLoop speciesNames e.map 0 l.mons area.land with
    | .error e => .error e
    | .ok land => .ok { area with landRate := BitVec.ofNat 8 l.encounterRate, land := land }

/-- `__init__.py:244-250` -/
def loadWater (speciesNames : List Str) (e : Encounter) (area : EncounterArea3) : Except PyErr EncounterArea3 :=
  match e.waterMons with
  | none => .ok area
  | some l =>
    match slotLoop speciesNames 0 l.mons area.water with
    | .error e => .error e
    | .ok water => .ok { area with waterRate := BitVec.ofNat 8 l.encounterRate, water := water }

/-- `__init__.py:251-257` -/
def loadRock (speciesNames : List Str) (e : Encounter) (area : EncounterArea3) : Except PyErr EncounterArea3 :=
  match e.rockSmashMons with
  | none => .ok area
  | some l =>
    match slotLoop speciesNames 0 l.mons area.rock with
    | .error e => .error e
    | .ok rock => .ok { area with rockRate := BitVec.ofNat 8 l.encounterRate, rock := rock }

/-- `__init__.py:258-269` -/
def loadFish (speciesNames : List Str) (e : Encounter) (area : EncounterArea3) : Except PyErr EncounterArea3 :=
  match e.fishingMons with
  | none => .ok area
  | some l => fishLoop speciesNames 0 l.mons { area with fishRate := BitVec.ofNat 8 l.encounterRate }

/-- `__init__.py:226-269`: filling the area number `mapNumber` -/
def loadArea (speciesNames : List Str) (mapNumber : Nat) (e : Encounter) (area : EncounterArea3) :
    Except PyErr EncounterArea3 := do
  let area := { area with location := BitVec.ofNat 16 mapNumber }
  let area ← loadLand speciesNames e area
  let area ← loadWater speciesNames e area
  let area ← loadRock speciesNames e area
  loadFish speciesNames e area

/-- `__init__.py:211-269`: the loop over the encounters from number `n` on, with the names so far and the record
array -/
def loadLoop (clean : Str → Str) (speciesNames : List Str) :
    Nat → List Encounter → List Str → List EncounterArea3 → Except PyErr (List Str × List EncounterArea3)
  | _, [], names, areas => .ok (names, areas)
  | n, e :: es, names, areas =>
    if isSkipped e.baseLabel then loadLoop clean speciesNames (n + 1) es (names ++ [[]]) areas
    else
      match areas[n]? with
      | none => .error .indexError
      | some area =>
        match loadArea speciesNames n e area with
        | .error e => .error e
        | .ok area => loadLoop clean speciesNames (n + 1) es (names ++ [clean e.map]) (areas.set n area)

/-- `__init__.py:189-271` `load_encounter_3` -/
def loadEncounter3 (clean : Str → Str) (speciesNames : List Str) (game : BitVec 32) (data : List Encounter) :
    Except PyErr (List Str × List EncounterArea3) :=
  match selectGame game data with
  | .error e => .error e
  | .ok encounters =>
    loadLoop clean speciesNames 0 encounters [] (List.replicate encounters.length zeroArea)

end Verif.EncLoad3
