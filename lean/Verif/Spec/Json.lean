import Verif.Model.Json
import Mathlib.Data.Nat.Digits.Defs
/-
The text `json.dumps` writes for a value, stated without a parser.
-/
namespace Verif.JsonSpec
open Json

/-- the decimal notation of a number -/
def decimal (n : Nat) : Str := if n = 0 then [48] else ((Nat.digits 10 n).reverse.map (48 + ·))

/-- a string in quotes -/
def quoted (s : Str) : Str := 34 :: (s ++ [34])

mutual
/-- the text of a value -/
def text : Json → Str
  | .null => [110, 117, 108, 108]
  | .bool true => [116, 114, 117, 101]
  | .bool false => [102, 97, 108, 115, 101]
  | .num n => decimal n
  | .str s => quoted s
  | .arr l => 91 :: (elements l ++ [93])
  | .obj d => 123 :: (members d ++ [125])
/-- the values of an array, separated by `, ` -/
def elements : List Json → Str
  | [] => []
  | v :: l => text v ++ moreElements l
/-- values behind a `, ` each -/
def moreElements : List Json → Str
  | [] => []
  | v :: l => 44 :: 32 :: (text v ++ moreElements l)
/-- the items of a dict, separated by `, ` -/
def members : List (Str × Json) → Str
  | [] => []
  | m :: d => member m ++ moreMembers d
/-- items behind a `, ` each -/
def moreMembers : List (Str × Json) → Str
  | [] => []
  | m :: d => 44 :: 32 :: (member m ++ moreMembers d)
/-- an item, `"key": value` -/
def member : Str × Json → Str
  | (k, v) => quoted k ++ 58 :: 32 :: text v
end

/-- characters a JSON string contains as they are -/
def plainChar (c : Nat) : Bool := 32 ≤ c && c < 127 && c != 34 && c != 92

mutual
/-- the strings need no escapes, and no key of a dict occurs twice -/
def Plain : Json → Prop
  | .str s => s.all plainChar = true
  | .arr l => PlainList l
  | .obj d => PlainItems d ∧ (d.map (·.1)).Nodup
  | _ => True
/-- the same of a list of values -/
def PlainList : List Json → Prop
  | [] => True
  | v :: l => Plain v ∧ PlainList l
/-- the same of a list of items -/
def PlainItems : List (Str × Json) → Prop
  | [] => True
  | m :: d => PlainItem m ∧ PlainItems d
/-- the same of an item -/
def PlainItem : Str × Json → Prop
  | (k, v) => k.all plainChar = true ∧ Plain v
end

end Verif.JsonSpec
