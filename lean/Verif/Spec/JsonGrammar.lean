import Verif.Spec.Json
/-
Which texts are JSON, and with which value, stated as a grammar (RFC 8259, sections 2 to 7, for texts without escapes in strings
and without numbers that have a sign, a fraction or an exponent).
-/
namespace Verif.JsonSpec
open Json

/-- white space: blanks, tabs, line feeds and carriage returns -/
def Ws (w : Str) : Prop := ∀ c ∈ w, c = 32 ∨ c = 9 ∨ c = 10 ∨ c = 13

/-- the contents of a string: no control characters, no quotes, no backslashes -/
def Contents (s : Str) : Prop := ∀ c ∈ s, 32 ≤ c ∧ c ≠ 34 ∧ c ≠ 92

/-- values separated by commas -/
inductive Elements (P : Str → Json → Prop) : Str → List Json → Prop
  | one {w t w' v} : Ws w → P t v → Ws w' → Elements P (w ++ (t ++ w')) [v]
  | more {w t w' v r l} : Ws w → P t v → Ws w' → Elements P r l → Elements P (w ++ (t ++ (w' ++ 44 :: r))) (v :: l)

/-- `"key" : value` -/
inductive Member (P : Str → Json → Prop) : Str → Str × Json → Prop
  | mk {a k b c t d v} : Ws a → Contents k → Ws b → Ws c → P t v → Ws d →
      Member P (a ++ (quoted k ++ (b ++ 58 :: (c ++ (t ++ d))))) (k, v)

/-- members separated by commas -/
inductive Members (P : Str → Json → Prop) : Str → List (Str × Json) → Prop
  | one {t m} : Member P t m → Members P t [m]
  | more {t m r l} : Member P t m → Members P r l → Members P (t ++ 44 :: r) (m :: l)

/-- the dict of some members: the keys in the order in which they first occur, each with the last of its values -/
def dictFor (l : List (Str × Json)) : List (Str × Json) :=
  (l.map (·.1)).eraseDups.filterMap fun k => l.reverse.find? fun m => m.1 = k

/-- a value, where `P` says what is a value inside of it -/
inductive Value (P : Str → Json → Prop) : Str → Json → Prop
  | null : Value P [110, 117, 108, 108] .null
  | yes : Value P [116, 114, 117, 101] (.bool true)
  | no : Value P [102, 97, 108, 115, 101] (.bool false)
  | num (n) : Value P (decimal n) (.num n)
  | str {s} : Contents s → Value P (quoted s) (.str s)
  | noElements {w} : Ws w → Value P (91 :: (w ++ [93])) (.arr [])
  | arr {t l} : Elements P t l → Value P (91 :: (t ++ [93])) (.arr l)
  | noMembers {w} : Ws w → Value P (123 :: (w ++ [125])) (.obj [])
  | obj {t l} : Members P t l → Value P (123 :: (t ++ [125])) (.obj (dictFor l))

/-- a value with at most `n` levels -/
def Levels : Nat → Str → Json → Prop
  | 0 => fun _ _ => False
  | n + 1 => Value (Levels n)

/-- a JSON text and its value -/
def Document (t : Str) (v : Json) : Prop := ∃ n w s w', t = w ++ (s ++ w') ∧ Ws w ∧ Ws w' ∧ Levels n s v

end Verif.JsonSpec
