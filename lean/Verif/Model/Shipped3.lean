import Verif.Data.Enc3
import Verif.Data.Enc3Json
import Verif.Data.Personal3
import Verif.Model.Text
import Verif.Model.MapName
import Verif.Model.Personal
import Verif.Model.WildGen3
import Verif.Model.Enc3Json
import Mathlib.Data.Nat.Digits.Defs
/-
The Gen 3 part of the library with the data files it ships: data/encounter/__init__.py:188-280 applied to
resources/encount, data/personal/__init__.py:27-47 applied to resources/bin/personal. The content of the files is in
Verif/Data (another notation for the same content, see there).
-/
namespace Verif.Shipped3
open EncLoad3 Gen3

/-! ### encounters

The bytes of the files are in Data/Enc3Json. Their entries are also in Data/Enc3, in a notation that is better suited for proofs;
Lemmas/Enc3Check proves that reading the bytes gives these entries. -/

/-- the mon packed as the number `w`, see Verif/Data/Enc3 -/
def unpackMon (w : Nat) : Mon :=
  ⟨w / 2 ^ 24 % 2 ^ 8, w / 2 ^ 16 % 2 ^ 8, Data.speciesPool.getD (w % 2 ^ 16) []⟩

/-- the word number `i` of a packed list -/
def word (p : Data.Packed) (i : Nat) : Nat := p.mons / 2 ^ (32 * (p.count - 1 - i)) % 2 ^ 32

/-- a packed list of mons -/
def unpack (p : Data.Packed) : MonList := ⟨p.rate, (List.range p.count).map fun i => unpackMon (word p i)⟩

/-- an entry of a JSON file -/
def encounterOf (r : Data.Raw) : Encounter :=
  ⟨r.map, r.label, r.land.map unpack, r.water.map unpack, r.rock.map unpack, r.fish.map unpack⟩

/-- the entries of the file of a game, see Data/Enc3 -/
def dataFile (game : BitVec 32) : List Data.Raw :=
  if game = Game.ruby ∨ game = Game.sapphire then Data.rsRaw
  else if game = Game.emerald then Data.eRaw
  else if game = Game.fireRed ∨ game = Game.leafGreen then Data.frlgRaw
  else []

/-- `data/encounter/__init__.py:53-59` `ENCOUNTER_DATA_FILES`; the pieces the bytes of the file are cut in -/
def dataChunks (game : BitVec 32) : Except PyErr (List Nat) :=
  if game = Game.ruby ∨ game = Game.sapphire then .ok Data.rsChunks
  else if game = Game.emerald then .ok Data.eChunks
  else if game = Game.fireRed ∨ game = Game.leafGreen then .ok Data.frlgChunks
  else .error .keyError

/-- the text of the file, `data/encounter/__init__.py:191-194`; the text has one ASCII character per byte -/
def dataText (game : BitVec 32) : Except PyErr Json.Str := (dataChunks game).map fun cs => cs.flatMap (Nat.digits 256)

/-- `load_encounter_3(game)` on the shipped files -/
def load (game : BitVec 32) : Except PyErr (List Str × List EncounterArea3) := do
  let text ← dataText game
  let data ← Enc3Json.decode text
  loadEncounter3 MapName.clean Text.constantCaseSpeciesEn game data

/-! ### personal tables -/

/-- the bytes of a file, see Verif/Data/Personal3 -/
def bytes (f : Nat × Nat) : List (BitVec 8) :=
  (List.range f.1).map fun i => BitVec.ofNat 8 (f.2 / 2 ^ (8 * (f.1 - 1 - i)))

/-- the value of a field of type `U8` of a record -/
def field8 (l : Personal.Layout) (r : List Personal.Value) (name : String) : BitVec 8 :=
  match ((l.zip r).find? fun x => x.1.1 == name).map Prod.snd with
  | some (.u8 v) => v
  | _ => 0

/-- the fields of a record of `PersonalInfo3` read by the Gen 3 code -/
def personalOf (r : List Personal.Value) : Gen3.Personal where
  hp := field8 Personal.layout3 r "hp"
  attack := field8 Personal.layout3 r "attack"
  defense := field8 Personal.layout3 r "defense"
  speed := field8 Personal.layout3 r "speed"
  specialAttack := field8 Personal.layout3 r "special_attack"
  specialDefense := field8 Personal.layout3 r "special_defense"
  type1 := field8 Personal.layout3 r "type_1"
  type2 := field8 Personal.layout3 r "type_2"
  genderRatio := field8 Personal.layout3 r "gender_ratio"
  ability1 := field8 Personal.layout3 r "ability_1"
  ability2 := field8 Personal.layout3 r "ability_2"

/-- `load_personal`, `data/personal/__init__.py:27-35`, for a Gen 3 file -/
def table (f : Nat × Nat) : List Gen3.Personal :=
  match Personal.loadPersonal Personal.layout3 (bytes f) with
  | .ok rs => rs.map personalOf
  | .error _ => []

/-- `data/personal/__init__.py:44-47` -/
def tables : Tables := ⟨table Data.personal_rs, table Data.personal_e, table Data.personal_fr, table Data.personal_lg⟩

end Verif.Shipped3
