import Mathlib.Data.Rat.Floor
/-
Independent statement of the Gen 3 formulas for a Pokémon's derived values. Six-element families are indexed
0 HP, 1 Attack, 2 Defense, 3 Special Attack, 4 Special Defense, 5 Speed.
-/
namespace Verif.Spec.State3

/-- The games list the stats in the order HP, Attack, Defense, Speed, Special Attack, Special Defense. -/
def gameOrder : List Nat := [0, 1, 2, 5, 3, 4]

/-- (raised, lowered) for the 25 natures, Hardy … Quirky; neutral natures have `none`. -/
def natures : List (Option (Nat × Nat)) :=
  [none, some (1, 2), some (1, 5), some (1, 3), some (1, 4),      -- Hardy Lonely Brave Adamant Naughty
   some (2, 1), none, some (2, 5), some (2, 3), some (2, 4),      -- Bold Docile Relaxed Impish Lax
   some (5, 1), some (5, 2), none, some (5, 3), some (5, 4),      -- Timid Hasty Serious Jolly Naive
   some (3, 1), some (3, 2), some (3, 5), none, some (3, 4),      -- Modest Mild Quiet Bashful Rash
   some (4, 1), some (4, 2), some (4, 5), some (4, 3), none]      -- Calm Gentle Sassy Careful Quirky

/-- Percentage applied by a nature to a stat. -/
def naturePercent (nature stat : Nat) : Nat :=
  match natures.getD nature none with
  | none => 100
  | some (up, down) => if stat = up then 110 else if stat = down then 90 else 100

/-- Stat before the nature. -/
def baseStat (base iv level stat : Nat) : Nat :=
  if stat = 0 then (2 * base + iv) * level / 100 + level + 10 else (2 * base + iv) * level / 100 + 5

/-- Hidden Power type: the lowest bits of the IVs, in game order, as a six-bit number scaled to 0..15. -/
def hiddenPowerType (hp atk dfs spa spd spe : Nat) : Nat :=
  (hp % 2 + 2 * (atk % 2) + 4 * (dfs % 2) + 8 * (spe % 2) + 16 * (spa % 2) + 32 * (spd % 2)) * 15 / 63

/-- Hidden Power strength: the second lowest bits, scaled to 30..70. -/
def hiddenPowerStrength (hp atk dfs spa spd spe : Nat) : Nat :=
  (hp / 2 % 2 + 2 * (atk / 2 % 2) + 4 * (dfs / 2 % 2) + 8 * (spe / 2 % 2) + 16 * (spa / 2 % 2)
    + 32 * (spd / 2 % 2)) * 40 / 63 + 30

/-- `c` is the position (in game order) of the first highest value, in the cyclic order of positions starting at
`start`. -/
def FirstHighest (value : Nat → Nat) (start c : Nat) : Prop :=
  ∃ d < 6, c = (start + d) % 6 ∧ (∀ d' < 6, value ((start + d') % 6) ≤ value c) ∧
    ∀ d' < d, value ((start + d') % 6) < value c

end Verif.Spec.State3
