import Verif.Model.Res
import Verif.Model.Enums
import Verif.Model.Lcrng
/-
Model of numba_pokemon_prngs/gen3/encounter_area_3.py, data/encounter/encounter_area_3.py and the parts of
data/personal/personal_info.py it reads.

The functions of encounter_area_3.py are decorated with a bare `@optional_njit`, which works under numba only (see
Model/WildGen3 for plain Python mode), so this file models them as compiled by numba. numba does not check array
bounds; an out-of-range index is the error `indexError` here.

Draws are functions of the generator's seed returning the new seed and the value.
-/
namespace Verif.Gen3

/-- `data/encounter/encounter_area_3.py:9-14` -/
structure Slot3 where
  minLevel : BitVec 8
  maxLevel : BitVec 8
  species : BitVec 16
  deriving DecidableEq, Repr

/-- `data/encounter/encounter_area_3.py:21-34` -/
structure EncounterArea3 where
  location : BitVec 16
  landRate : BitVec 8
  land : Vector Slot3 12
  waterRate : BitVec 8
  water : Vector Slot3 5
  rockRate : BitVec 8
  rock : Vector Slot3 5
  fishRate : BitVec 8
  fishOld : Vector Slot3 2
  fishGood : Vector Slot3 3
  fishSuper : Vector Slot3 5
  deriving DecidableEq, Repr

/-- The fields of `PersonalInfo3` (`data/personal/personal_info.py:80-105`) read by the Gen 3 code. -/
structure Personal where
  hp : BitVec 8
  attack : BitVec 8
  defense : BitVec 8
  speed : BitVec 8
  specialAttack : BitVec 8
  specialDefense : BitVec 8
  type1 : BitVec 8
  type2 : BitVec 8
  genderRatio : BitVec 8
  ability1 : BitVec 8
  ability2 : BitVec 8
  deriving DecidableEq, Repr

/-! ### slot tables -/

/-- `table[r] = v` on a Python array: negative indices count from the end. -/
def pySet (table : List (BitVec 8)) (r : Int) (v : BitVec 8) : Except PyErr (List (BitVec 8)) :=
  if 0 ≤ r ∧ r < table.length then .ok (table.set r.toNat v)
  else if -table.length ≤ r ∧ r < 0 then .ok (table.set (r + table.length).toNat v)
  else .error .indexError

/-- `encounter_area_3.py:20-21`, the inner loop: `n` more iterations starting at `r`. The loop variable is the variable
`r_val` of the outer scope, `last` is its value so far; it keeps the value of the last iteration. -/
def fillLoop (v : BitVec 8) (step : Int) : (n : Nat) → (r last : Int) → List (BitVec 8) →
    Except PyErr (Int × List (BitVec 8))
  | 0, _, last, table => .ok (last, table)
  | n + 1, r, _, table =>
    match pySet table r v with
    | .error e => .error e
    | .ok table => fillLoop v step n (r + step) r table

/-- `encounter_area_3.py:19-21`: the outer loop, `i` counting the ranges. `range(r_val, range_val, ±1)` has
`max 0 (±(range_val - r_val))` elements. -/
def tableLoop (greater : Bool) : (i : Nat) → List Int → (rVal : Int) → List (BitVec 8) → Except PyErr (List (BitVec 8))
  | _, [], _, table => .ok table
  | i, rangeVal :: rest, rVal, table =>
    let n := if greater then (rVal - rangeVal).toNat else (rangeVal - rVal).toNat
    match fillLoop (BitVec.ofNat 8 i) (if greater then -1 else 1) n rVal rVal table with
    | .error e => .error e
    | .ok (rVal, table) => tableLoop greater (i + 1) rest rVal table

/-- `encounter_area_3.py:14-23` `compute_table`; `junk` is the content of the uninitialised `np.empty(100)`. -/
def computeTable (junk : Vector (BitVec 8) 100) (ranges : List Int) (greater : Bool) :
    Except PyErr (List (BitVec 8)) :=
  tableLoop greater 0 ranges (if greater then 99 else 0) junk.toList

/-- A visible value for uninitialised entries of the module-level tables (Props/Gen3Area shows there are none left). -/
def poison : Vector (BitVec 8) 100 := Vector.replicate 100 255

/-- `encounter_area_3.py:26` -/
def grassRanges : List Int := [20, 40, 50, 60, 70, 80, 85, 90, 94, 98, 99, 100]
/-- `encounter_area_3.py:27` -/
def oldRodRanges : List Int := [70, 100]
/-- `encounter_area_3.py:28` -/
def goodRodRanges : List Int := [60, 80, 100]
/-- `encounter_area_3.py:29` -/
def superRodRanges : List Int := [40, 80, 95, 99, 100]
/-- `encounter_area_3.py:30` -/
def rockSmashAndSurfRanges : List Int := [60, 90, 95, 99, 100]

/-- a table built from `ranges`, `encounter_area_3.py:26-30` -/
def tableOf (ranges : List Int) : List (BitVec 8) :=
  match computeTable poison ranges false with
  | .ok t => t
  | .error _ => []

/-! ### draws -/

/-- `PokeRNGMod.next_rand(maximum)` and `PokeRNGMod.const_rand(maximum)(rng)` under numba: new seed and value. -/
def draw (maximum : BitVec 16) (seed : BitVec 32) : Res (BitVec 32 × BitVec 16) :=
  match Lcrng.nextRand32 .numba Lcrng.pokeRNGParams .modulo maximum seed with
  | (seed, .ok v) => .ok (seed, v)
  | (_, .error e) => .err e

/-- `PokeRNGMod.next_u16` -/
def u16 (seed : BitVec 32) : BitVec 32 × BitVec 16 := Lcrng.nextU16 Lcrng.pokeRNGParams seed

/-- `PokeRNGMod.next` -/
def next (seed : BitVec 32) : BitVec 32 := Lcrng.next Lcrng.pokeRNGParams seed

/-! ### slots and levels -/

/-- `slots[table[roll]]` -/
def pick (slots : Vector Slot3 n) (ranges : List Int) (roll : BitVec 16) : Res Slot3 :=
  match (tableOf ranges)[roll.toNat]? with
  | none => .err .indexError
  | some i =>
    match slots[i.toNat]? with
    | none => .err .indexError
    | some s => .ok s

/-- `encounter_area_3.py:36-51` `calculate_hslot` -/
def calculateHslot (area : EncounterArea3) (encounter : BitVec 8) (seed : BitVec 32) : Res (BitVec 32 × Slot3) := do
  let (seed, roll) ← draw 100 seed
  let slot ←
    if encounter = Encounter.oldRod then pick area.fishOld oldRodRanges roll
    else if encounter = Encounter.goodRod then pick area.fishGood goodRodRanges roll
    else if encounter = Encounter.superRod then pick area.fishSuper superRodRanges roll
    else if encounter = Encounter.rockSmash then pick area.rock rockSmashAndSurfRanges roll
    else if encounter = Encounter.surfing then pick area.water rockSmashAndSurfRanges roll
    else pick area.land grassRanges roll
  return (seed, slot)

/-- `encounter_area_3.py:54-69` `calculate_hslot_lead`; the conjuncts are evaluated in order, so the draw happens for
these two leads even when there is no modified slot. -/
def calculateHslotLead (area : EncounterArea3) (encounter lead : BitVec 8) (modified : List Slot3)
    (seed : BitVec 32) : Res (BitVec 32 × Slot3) :=
  if lead = Lead.magnetPull ∨ lead = Lead.static then do
    let (seed, r) ← draw 2 seed
    if r = 0 ∧ modified.length ≠ 0 then
      let (seed, k) ← draw (BitVec.ofNat 16 modified.length) seed
      match modified[k.toNat]? with
      | none => .err .indexError
      | some s => return (seed, s)
    else calculateHslot area encounter seed
  else calculateHslot area encounter seed

/-- `encounter_area_3.py:72-84` `calculate_level`. `maximum - minimum + 1` is a 64-bit number, truncated to 16 bits by
`next_rand`. -/
def calculateLevel (slot : Slot3) (pressure : Bool) (seed : BitVec 32) : Res (BitVec 32 × Nat) := do
  let levelRange := slot.maxLevel.setWidth 16 - slot.minLevel.setWidth 16 + 1
  let (seed, rand) ← draw levelRange seed
  if pressure then
    let (seed, r) ← draw 2 seed
    if r = 0 then return (seed, slot.maxLevel.toNat)
    else return (seed, slot.minLevel.toNat + (if rand ≠ 0 then rand.toNat - 1 else 0))
  else return (seed, slot.minLevel.toNat + rand.toNat)

/-- `encounter_area_3.py:87-113` `is_rse_safari_zone` -/
def isRseSafariZone (area : EncounterArea3) (game : BitVec 32) : Bool :=
  if Game.has game (Game.ruby ||| Game.sapphire) then
    area.location ∈ [90#16, 187, 89, 186, 92, 189, 91, 188]
  else if Game.has game Game.emerald then
    area.location ∈ [73#16, 98, 74, 20, 97, 72]
  else false

/-! ### leads and rates -/

/-- `encounter_area_3.py:127-154`: the type a lead attracts; `none` is the early return of line 154 -/
def leadType (lead : BitVec 8) (game : BitVec 32) : Option (BitVec 8) :=
  if lead = Lead.magnetPull then some 8
  else if lead = Lead.static then
    some (if Game.has game (Game.ruby ||| Game.sapphire ||| Game.emerald ||| Game.fireRed ||| Game.leafGreen
      ||| Game.diamond ||| Game.pearl ||| Game.platinum ||| Game.heartGold ||| Game.soulSilver) then 13 else 12)
  else if lead = Lead.harvest then some 11
  else if lead = Lead.flashFire then some 9
  else if lead = Lead.stormDrain then some 10
  else none

/-- `encounter_area_3.py:158-161` and its copies: append the slots with the lead's type -/
def filterLoop (table : List Personal) (t : BitVec 8) : List Slot3 → (encounters : List Slot3) → Res (List Slot3)
  | [], encounters => .ok encounters
  | slot :: rest, encounters =>
    match table[(slot.species &&& 0x3FF).toNat]? with
    | none => .err .indexError
    | some info =>
      if info.type1 = t ∨ info.type2 = t then filterLoop table t rest (encounters ++ [slot])
      else filterLoop table t rest encounters

/-- `encounter_area_3.py:116-188` `get_modified_slots` -/
def getModifiedSlots (area : EncounterArea3) (encounter lead : BitVec 8) (game : BitVec 32) (table : List Personal) :
    Res (List Slot3) :=
  match leadType lead game with
  | none => .ok []
  | some t =>
    if encounter = Encounter.oldRod then filterLoop table t area.fishOld.toList []
    else if encounter = Encounter.goodRod then filterLoop table t area.fishGood.toList []
    else if encounter = Encounter.superRod then filterLoop table t area.fishSuper.toList []
    else if encounter = Encounter.rockSmash then filterLoop table t area.rock.toList []
    else if encounter = Encounter.surfing then filterLoop table t area.water.toList []
    else filterLoop table t area.land.toList []

/-- `encounter_area_3.py:191-202` `get_encounter_rate` -/
def getEncounterRate (area : EncounterArea3) (encounter : BitVec 8) : BitVec 8 :=
  if encounter = Encounter.grass then area.fishRate
  else if encounter = Encounter.rockSmash then area.rockRate
  else if encounter = Encounter.surfing then area.waterRate
  else area.landRate

end Verif.Gen3
