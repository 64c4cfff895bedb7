import Verif.Model.Util
import Verif.Model.Json
import Verif.Data.LaNames
import Mathlib.Data.Nat.Digits.Defs
/-
Model of the loading of `ENCOUNTER_TABLE_NAMES_LA` (data/encounter/__init__.py:439-442): `json.loads` (Model/Json) of the
file with its `object_hook`.

The hook is modelled for a text that is one object with strings as values; on every other text the model returns `none`.
`int` is modelled on non-empty decimal digit strings.
-/
namespace Verif.TableNames
open Json (Json Str dictOf)

/-- `int` of a decimal string -/
def intOf (s : Str) : Option Nat :=
  if s ≠ [] ∧ s.all Json.isDigit then some (Json.ofDecimal s) else none

/-- the `object_hook` of data/encounter/__init__.py:441: `{int(k): v for k,v in x.items()}` -/
def hook (d : List (Str × Str)) : Option (List (Nat × Str)) :=
  (d.mapM fun m => (intOf m.1).map fun k => (k, m.2)).map dictOf

/-- the items of a dict whose values are strings -/
def strings (d : List (Str × Json)) : Option (List (Str × Str)) :=
  d.mapM fun m => match m.2 with
    | .str s => some (m.1, s)
    | _ => none

/-- `json.loads(text, object_hook=...)`, data/encounter/__init__.py:439-442 -/
def loads (text : Str) : Option (List (Nat × Str)) :=
  match Json.loads text with
  | some (.obj d) => (strings d).bind hook
  | _ => none

/-- resources/encount/la/encounter_table_names.json -/
def namesFile : Str := Data.nameChunks.flatMap (Nat.digits 256)

/-- `ENCOUNTER_TABLE_NAMES_LA`, data/encounter/__init__.py:439-442 -/
def encounterTableNames : Option (List (Nat × Str)) := loads namesFile

end Verif.TableNames
