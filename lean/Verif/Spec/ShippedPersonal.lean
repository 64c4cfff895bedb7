import Verif.Model.Personal
/-
Facts about the personal tables of generations 4 to 8, stated on the loaded records: record `i` is the entry of species number
`i` as long as `i` is at most the highest species number; the other records are entries of eggs and of further forms.
-/
namespace Verif.ShippedPersonalSpec
open Personal

/-- the tables of generations 4 to 8 -/
def tables : List Table := [.dp, .pt, .bw, .b2w2, .xy, .oras, .sm, .usum, .swsh, .bdsp, .la]

/-- the value of the field of this name (of type `U8` or `U16`) in a record -/
def number (l : Layout) (r : List Value) (name : String) : Nat :=
  match ((l.zip r).find? fun x => x.1.1 == name).map Prod.snd with
  | some (.u8 v) => v.toNat
  | some (.u16 v) => v.toNat
  | _ => 0

/-- the value of the field of this name in record `i` -/
def entry (t : Table) (rs : List (List Value)) (i : Nat) (name : String) : Nat := number t.source.2 (rs.getD i []) name

/-- the base stats -/
def stats : List String := ["hp", "attack", "defense", "speed", "special_attack", "special_defense"]

/-- The species or form exists in the game. -/
def Present (t : Table) (rs : List (List Value)) (i : Nat) : Prop := entry t rs i "hp" ≠ 0

/-- the highest number of a type: Fairy, number 17, is new in generation 6 -/
def maxType : Table → Nat
  | .dp | .pt | .bw | .b2w2 => 16
  | _ => 17

/-- the gender thresholds: male only, one in eight, one in four, one in two, three in four, seven in eight female, female only,
genderless; seven in eight is new in generation 6 -/
def genderRatios : Table → List Nat
  | .dp | .pt | .bw | .b2w2 | .bdsp => [0, 31, 63, 127, 191, 254, 255]
  | _ => [0, 31, 63, 127, 191, 225, 254, 255]

/-- the number of the first record of a further form -/
def firstForm : Table → Nat
  | .dp | .pt => 496
  | .bw => 650
  | .b2w2 => 685
  | .xy | .oras => 722
  | .sm => 803
  | .usum => 808
  | .swsh => 901
  | .bdsp => 494
  | .la => 906
  | _ => 0

/-- Record `k` is the one of form `j` of species `i`, by the fields of the species: the forms after the first have consecutive
records. -/
def FormOf (t : Table) (rs : List (List Value)) (i j k : Nat) : Prop :=
  i < firstForm t ∧ 1 ≤ j ∧ j < entry t rs i "form_count" ∧ entry t rs i "form_stats_index" ≠ 0 ∧
    k = entry t rs i "form_stats_index" + j - 1

/-- what holds of every record -/
structure RecordFacts (t : Table) (rs : List (List Value)) (i : Nat) : Prop where
  stats : (∀ s ∈ stats, entry t rs i s ≠ 0) ∨ ∀ s ∈ stats, entry t rs i s = 0
  types : entry t rs i "type_1" ≤ maxType t ∧ entry t rs i "type_2" ≤ maxType t
  gender : entry t rs i "gender_ratio" ∈ genderRatios t
  growth : entry t rs i "exp_growth" ≤ 5
  eggs : Present t rs i → entry t rs i "egg_group_1" ∈ List.range' 1 15 ∧ entry t rs i "egg_group_2" ∈ List.range' 1 15
  forms : Present t rs i → 1 ≤ entry t rs i "form_count" ∧ entry t rs i "form_count" ≤ 28
  exp : Present t rs i → 1 ≤ entry t rs i "base_exp" ∧ entry t rs i "base_exp" ≤ 635

end Verif.ShippedPersonalSpec
