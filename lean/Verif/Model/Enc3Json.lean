import Verif.Model.Json
import Verif.Model.EncLoad3
/-
Model of how `load_encounter_3` gets its entries out of the JSON data, data/encounter/__init__.py:189-196 and the lookups in
:211-269.

The library does the lookups of an entry while it fills the record of the area; here all of them are done first. This makes a
difference only for a file that lacks a key or has a value of another type.
-/
namespace Verif.Enc3Json
open Json EncLoad3

/-- the code points of a string -/
def codes (s : List Char) : Json.Str := s.map Char.toNat

/-- `v[key]` for a value `v` of a JSON text and a string `key` -/
def item (key : String) : Json → Except PyErr Json
  | .obj d =>
    match lookup d (codes key.toList) with
    | some v => .ok v
    | none => .error .keyError
  | _ => .error .typeError

/-- a number -/
def natOf : Json → Except PyErr Nat
  | .num n => .ok n
  | _ => .error .typeError

/-- a string -/
def strOf : Json → Except PyErr EncLoad3.Str
  | .str s => .ok (s.map Char.ofNat)
  | _ => .error .typeError

/-- a list -/
def listOf : Json → Except PyErr (List Json)
  | .arr l => .ok l
  | _ => .error .typeError

/-- a slot, `__init__.py:238-240` -/
def monOf (v : Json) : Except PyErr Mon := do
  let minLevel ← item "min_level" v >>= natOf
  let maxLevel ← item "max_level" v >>= natOf
  let species ← item "species" v >>= strOf
  .ok ⟨minLevel, maxLevel, species⟩

/-- the slots of one kind and their rate, `__init__.py:235-236` -/
def monListOf (v : Json) : Except PyErr MonList := do
  let rate ← item "encounter_rate" v >>= natOf
  let mons ← item "mons" v >>= listOf
  let mons ← mons.mapM monOf
  .ok ⟨rate, mons⟩

/-- `key in encounter`, `encounter[key]`, `__init__.py:229-232` -/
def optional (key : String) (v : Json) : Except PyErr (Option MonList) :=
  match item key v with
  | .ok w => (monListOf w).map some
  | .error .keyError => .ok none
  | .error e => .error e

/-- an entry -/
def entryOf (v : Json) : Except PyErr Encounter := do
  let map ← item "map" v >>= strOf
  let label ← item "base_label" v >>= strOf
  let land ← optional "land_mons" v
  let water ← optional "water_mons" v
  let rock ← optional "rock_smash_mons" v
  let fish ← optional "fishing_mons" v
  .ok ⟨map, label, land, water, rock, fish⟩

/-- `json.load(...)["wild_encounter_groups"][0]["encounters"]`, `__init__.py:194-196` -/
def encounters (v : Json) : Except PyErr (List Encounter) := do
  let groups ← item "wild_encounter_groups" v >>= listOf
  match groups with
  | [] => .error .indexError
  | group :: _ =>
    let entries ← item "encounters" group >>= listOf
    entries.mapM entryOf

/-- the entries of a file. `json.JSONDecodeError` is a `ValueError`; the model gives it for texts Model/Json does not treat,
too. -/
def decode (text : Json.Str) : Except PyErr (List Encounter) :=
  match loads text with
  | none => .error .valueError
  | some v => encounters v

end Verif.Enc3Json
