/-
Model of `json.loads`, used by data/encounter/__init__.py:189-196 and :439-442 (the decoder is that of the standard
library: json/decoder.py and json/scanner.py). A text is the list of its code points.

Strings with escapes and numbers that are negative or not integers are not modelled: on a text that contains one, and on
every text for which Python raises, the model returns `none`. Python's limits are not modelled: it raises for numbers of more than
4300 digits and for very deep nesting.
-/
namespace Verif.Json

abbrev Str := List Nat

/-- the Python value of a JSON text; a dict is the list of its items in the order of their insertion -/
inductive Json where
  | null
  | bool (b : Bool)
  | num (n : Nat)
  | str (s : Str)
  | arr (l : List Json)
  | obj (d : List (Str × Json))

/-- white space between JSON tokens: blank, tab, line feed, carriage return -/
def skipWs : Str → Str := List.dropWhile fun c => c = 32 ∨ c = 9 ∨ c = 10 ∨ c = 13

/-- the rest of a string literal after its opening quote: the contents and the text behind the closing quote -/
def scanString : Str → Option (Str × Str)
  | [] => none
  | c :: cs =>
    if c = 34 then some ([], cs)
    else if c = 92 ∨ c < 32 then none
    else (scanString cs).map fun r => (c :: r.1, r.2)

/-- assignment to a dict: a key that is present keeps its place and gets the new value -/
def setItem [DecidableEq α] : List (α × β) → α → β → List (α × β)
  | [], k, v => [(k, v)]
  | (k', v') :: d, k, v => if k' = k then (k', v) :: d else (k', v') :: setItem d k v

/-- the dict made by assigning the members one after another -/
def dictOf [DecidableEq α] (l : List (α × β)) : List (α × β) := l.foldl (fun d m => setItem d m.1 m.2) []

/-- a lookup in a dict; `none` is `KeyError` -/
def lookup [DecidableEq α] (d : List (α × β)) (k : α) : Option β := (d.find? fun m => m.1 = k).map (·.2)

/-- a decimal digit -/
def isDigit (c : Nat) : Bool := 48 ≤ c && c ≤ 57

/-- the number with the given decimal digits -/
def ofDecimal (s : Str) : Nat := s.foldl (fun a c => 10 * a + (c - 48)) 0

/-- the digits of a number at the start of a text: `0`, or digits that do not start with `0` -/
def numberOf : Str → Str
  | 48 :: _ => [48]
  | t => t.takeWhile isDigit

/-- a number that is not followed by a fraction or an exponent -/
def scanNumber (t : Str) : Option (Json × Str) :=
  if numberOf t = [] then none
  else match t.drop (numberOf t).length with
    | c :: t' => if c = 46 ∨ c = 69 ∨ c = 101 then none else some (.num (ofDecimal (numberOf t)), c :: t')
    | [] => some (.num (ofDecimal (numberOf t)), [])

mutual
/-- a value at the start of a text, and the text behind it; `fuel` bounds the number of nested calls -/
def scanValue : Nat → Str → Option (Json × Str)
  | 0, _ => none
  | fuel + 1, t =>
    match t with
    | 34 :: t => (scanString t).map fun r => (.str r.1, r.2)
    | 123 :: t =>
      match skipWs t with
      | 125 :: t => some (.obj [], t)
      | t => (scanMembers fuel t).map fun r => (.obj (dictOf r.1), r.2)
    | 91 :: t =>
      match skipWs t with
      | 93 :: t => some (.arr [], t)
      | t => (scanElements fuel t).map fun r => (.arr r.1, r.2)
    | 110 :: 117 :: 108 :: 108 :: t => some (.null, t)
    | 116 :: 114 :: 117 :: 101 :: t => some (.bool true, t)
    | 102 :: 97 :: 108 :: 115 :: 101 :: t => some (.bool false, t)
    | t => scanNumber t
/-- the members of an object from a key on, and the text behind the closing brace -/
def scanMembers : Nat → Str → Option (List (Str × Json) × Str)
  | 0, _ => none
  | fuel + 1, t =>
    match t with
    | 34 :: t =>
      match scanString t with
      | none => none
      | some (key, t) =>
        match skipWs t with
        | 58 :: t =>
          match scanValue fuel (skipWs t) with
          | none => none
          | some (v, t) =>
            match skipWs t with
            | 125 :: t => some ([(key, v)], t)
            | 44 :: t => (scanMembers fuel (skipWs t)).map fun r => ((key, v) :: r.1, r.2)
            | _ => none
        | _ => none
    | _ => none
/-- the elements of an array from a value on, and the text behind the closing bracket -/
def scanElements : Nat → Str → Option (List Json × Str)
  | 0, _ => none
  | fuel + 1, t =>
    match scanValue fuel t with
    | none => none
    | some (v, t) =>
      match skipWs t with
      | 93 :: t => some ([v], t)
      | 44 :: t => (scanElements fuel (skipWs t)).map fun r => (v :: r.1, r.2)
      | _ => none
end

/-- `json.loads(text)` -/
def loads (text : Str) : Option Json :=
  match scanValue (text.length + 1) (skipWs text) with
  | some (v, t) => if skipWs t = [] then some v else none
  | none => none

end Verif.Json
