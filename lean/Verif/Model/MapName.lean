import Verif.Model.EncLoad3
/-
Model of `clean_map_string`, data/encounter/__init__.py:163-185.

Strings are character lists. Case conversion, digits and white space are those of ASCII (`str.capitalize`, `\d` and
`str.split` also know other characters; every map name is ASCII).
-/
namespace Verif.MapName
open EncLoad3 (Str)

/-- `s.replace("MAP_", "")` -/
def removeMap : Str → Str
  | 'M' :: 'A' :: 'P' :: '_' :: s => removeMap s
  | c :: s => c :: removeMap s
  | [] => []

/-- `s.replace("_", " ")` -/
def spaces (s : Str) : Str := s.map fun c => if c = '_' then ' ' else c

/-- `str.isspace` of an ASCII character -/
def isSpace (c : Char) : Bool := (9 ≤ c.toNat && c.toNat ≤ 13) || (28 ≤ c.toNat && c.toNat ≤ 32)

/-- `s.split()`, with the word read so far -/
def splitAux : (word : Str) → Str → List Str
  | w, [] => if w.isEmpty then [] else [w]
  | w, c :: s => if isSpace c then (if w.isEmpty then splitAux [] s else w :: splitAux [] s) else splitAux (w ++ [c]) s

/-- `s.split()` -/
def split (s : Str) : List Str := splitAux [] s

/-- `s.capitalize()` -/
def capitalize : Str → Str
  | [] => []
  | c :: s => c.toUpper :: s.map Char.toLower

/-- what follows if `s` begins with `p`, ignoring case -/
def dropPrefixCI : (p s : Str) → Option Str
  | [], s => some s
  | _ :: _, [] => none
  | c :: p, d :: s => if c.toLower = d.toLower then dropPrefixCI p s else none

/-- `match[1]` of `re.match(p + r"(\d+)", s, re.IGNORECASE)` -/
def numberAfter (p s : Str) : Option Str :=
  match dropPrefixCI p s with
  | none => none
  | some r => if (r.takeWhile Char.isDigit).isEmpty then none else some (r.takeWhile Char.isDigit)

/-- `re.match(r"(\d+)" + c, s)` for a letter `c` -/
def digitsThen (c : Char) (s : Str) : Bool :=
  !(s.takeWhile Char.isDigit).isEmpty && ((s.dropWhile Char.isDigit).head? == some c)

/-- `re.match(r"B(\d+)F", s)` -/
def basement : Str → Bool
  | 'B' :: s => digitsThen 'F' s
  | _ => false

/-- `__init__.py:169-183`: one word -/
def cleanWord (s : Str) : Str :=
  match numberAfter "Route".toList s with
  | some d => "Route ".toList ++ d
  | none =>
    match numberAfter "Room".toList s with
    | some d => "Room ".toList ++ d
    | none => if basement s then s else if digitsThen 'F' s then s else if digitsThen 'R' s then s else capitalize s

/-- `" ".join(words)` -/
def join : List Str → Str
  | [] => []
  | [w] => w
  | w :: ws => w ++ ' ' :: join ws

/-- `__init__.py:163-185` `clean_map_string` -/
def clean (s : Str) : Str := join ((split (spaces (removeMap s))).map cleanWord)

end Verif.MapName
