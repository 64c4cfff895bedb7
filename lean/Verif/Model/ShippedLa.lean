import Verif.Model.EncLoadLa
import Verif.Data.La1
import Verif.Data.La2
import Verif.Data.La3
import Verif.Data.La4
import Verif.Data.La5
import Verif.Data.LaPokemon
import Verif.Data.LaSpawner1
import Verif.Data.LaSpawner2
import Verif.Data.LaSpawner3
import Verif.Data.LaSpawner4
import Verif.Data.LaSpawner5
import Verif.Data.LaOutbreak
/-
The encounter files of Legends Arceus that ship with the library, and what is loaded from them at import.
-/
namespace Verif.ShippedLa
open FlatBuffer EncLoadLa

/-- the file of `len` bytes with these base-256 digits -/
def bytesOf (len N : Nat) : Bytes := (List.range len).map fun i => BitVec.ofNat 8 (N >>> (8 * i))

/-- resources/encount/la/poke_encount.bin, read at data/encounter/__init__.py:392-394 -/
def pokeEncountFile : Bytes := bytesOf 19684 Data.pokeEncount

/-- resources/encount/la/poke_misc.bin, read at data/encounter/__init__.py:396-398 -/
def pokeMiscFile : Bytes := bytesOf 40368 Data.pokeMisc

/-- resources/encount/la/ha_area0{1..5}_encounter.bin, read at data/encounter/__init__.py:326-328; none for other areas -/
def encounterFile : Nat → Bytes
  | 1 => bytesOf 303528 Data.encounter1
  | 2 => bytesOf 429072 Data.encounter2
  | 3 => bytesOf 294632 Data.encounter3
  | 4 => bytesOf 256192 Data.encounter4
  | 5 => bytesOf 311584 Data.encounter5
  | _ => []

/-- `ENCOUNTER_INFORMATION_LA` of one of the five areas, data/encounter/__init__.py:410-419 -/
def encounterTables (area : Nat) : Except PyErr (List (BitVec 64 × List SlotLA)) :=
  loadEncounterTablesLa pokeEncountFile pokeMiscFile (encounterFile area)

/-- resources/encount/la/ha_area0{1..5}_spawner.bin, read at data/encounter/__init__.py:421-432; none for other areas -/
def spawnerFile : Nat → Bytes
  | 1 => bytesOf 182592 Data.spawner1
  | 2 => bytesOf 225256 Data.spawner2
  | 3 => bytesOf 230096 Data.spawner3
  | 4 => bytesOf 162944 Data.spawner4
  | 5 => bytesOf 181024 Data.spawner5
  | _ => []

/-- `SPAWNER_INFORMATION_LA[area].spawners`, data/encounter/__init__.py:421-432 -/
def spawners (area : Nat) : Except PyErr (List PlacementSpawner8a) := rootArray placementSpawner8a (spawnerFile area)

/-- `spawner_table_lookup`, data/fbs/encounter_la.py:78-80 -/
def spawnerLookup (spawners : List PlacementSpawner8a) (id : Option Int) : Option PlacementSpawner8a :=
  lookupLast (·.spawnerId) id spawners

/-- `spawner_by_group`, data/fbs/encounter_la.py:81-83 -/
def spawnerByGroup (spawners : List PlacementSpawner8a) (group : Option Int) : Option PlacementSpawner8a :=
  lookupLast (·.groupId) group spawners

/-- `NHO_GROUP_TABLE_LA.groups`, data/encounter/__init__.py:404-406 -/
def groups : Except PyErr (List NewHugeOutbreakGroup8a) := rootArray newHugeOutbreakGroup8a (bytesOf 53424 Data.outbreakGroup)

/-- `group_lookup`, data/fbs/encounter_la.py:217-219 -/
def groupLookup (groups : List NewHugeOutbreakGroup8a) (hash : Option Int) : Option NewHugeOutbreakGroup8a :=
  lookupLast (·.hash) hash groups

/-- `NHO_LOTTERY_TABLE_LA.lottery_groups`, data/encounter/__init__.py:400-402 -/
def lotteries : Except PyErr (List NewHugeOutbreakGroupLottery8a) :=
  rootArray newHugeOutbreakGroupLottery8a (bytesOf 10408 Data.outbreakLottery)

/-- `lottery_group_lookup`, data/fbs/encounter_la.py:250-252 -/
def lotteryLookup (lotteries : List NewHugeOutbreakGroupLottery8a) (hash : Option Int) :
    Option NewHugeOutbreakGroupLottery8a :=
  lookupLast (·.hash) hash lotteries

end Verif.ShippedLa
