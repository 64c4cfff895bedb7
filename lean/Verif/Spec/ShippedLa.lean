import Verif.Model.EncLoadLa
/-
Facts about the encounter tables of Legends Arceus, stated on the loaded records. Areas: 1 Obsidian Fieldlands, 2 Crimson
Mirelands, 3 Cobalt Coastlands, 4 Coronet Highlands, 5 Alabaster Icelands (enums/la_area.py). Times: 0 dawn, 1 day, 2 dusk,
3 night (enums/la_time.py). Weathers: 0 none, 1 sunny, 2 cloudy, 3 rain, 4 snow, 5 drought, 6 fog, 7 rainstorm, 8 snowstorm
(enums/la_weather.py).
-/
namespace Verif.ShippedLaSpec
open EncLoadLa

/-- the number of tables of an area -/
def tableCount : Nat → Nat
  | 1 => 360
  | 2 => 385
  | 3 => 349
  | 4 => 317
  | 5 => 368
  | _ => 0

/-- all times, all weathers -/
def anyTime : List Nat := [0, 1, 2, 3]
def anyWeather : List Nat := [0, 1, 2, 3, 4, 5, 6, 7, 8]

/-- area, table, times and weathers at which no slot of the table can appear -/
def deadRows : List (Nat × Nat × List Nat × List Nat) := [
  (1, 0x6a6461bf28b62101, [3], anyWeather), (1, 0x6a6461bf28b62101, anyTime, [6]),
  (1, 0x83b2dcf761d48736, anyTime, [3, 4, 6, 7, 8]),
  (1, 0xbca39103c9ca6d97, [3], anyWeather), (1, 0xc63aee83126c5920, [0, 1, 2], anyWeather),
  (2, 0xc6376b83126944b0, [0, 1, 2], anyWeather), (2, 0xc6376d8312694816, [3], anyWeather),
  (2, 0x617b9b844bff6a62, [0, 1, 2], anyWeather), (2, 0x617b99844bff66fc, [3], anyWeather),
  (3, 0x2f55d600dc453c86, [3], anyWeather), (3, 0x6a59cebf28acd2b3, [0, 1, 2], anyWeather),
  (3, 0x6a5d5dbf28affb87, [0, 1, 2], anyWeather), (3, 0x6a56d0bf28aaa042, [0, 1, 2], anyWeather),
  (3, 0x6a56cfbf28aa9e8f, [0, 1, 2], anyWeather), (3, 0x83b2dbf761d48583, [0, 1, 2], anyWeather),
  (3, 0xbca38e03c9ca687e, [0, 1, 2], anyWeather), (3, 0xbca39203c9ca6f4a, [3], anyWeather),
  (3, 0xbca08903c9c82a28, [0, 1, 2], anyWeather), (3, 0xbca08a03c9c82bdb, [0, 1, 2], anyWeather),
  (3, 0xbca08b03c9c82d8e, [0, 1, 2], anyWeather), (3, 0xc637708312694d2f, [0, 1, 2], anyWeather),
  (3, 0xc6376b83126944b0, [0, 1, 2], anyWeather), (3, 0x32c6eff14b2237e9, anyTime, [1, 2, 3, 4, 5, 6, 8]),
  (3, 0x3e50c8bde28887a6, [0, 1, 2], anyWeather),
  (4, 0x6a59d2bf28acd97f, [0, 1, 2], anyWeather), (4, 0xc637708312694d2f, [0, 1, 2], anyWeather),
  (4, 0xc6376b83126944b0, [0, 1, 2], anyWeather),
  (5, 0xc6376c8312694663, [3], anyWeather), (5, 0x32c9f3f14b24748c, anyTime, [1, 2, 3, 4, 5, 6, 7])]

/-- no slot of the table can appear at this time and weather -/
def Dead (area id time weather : Nat) : Prop :=
  ∃ times weathers, (area, id, times, weathers) ∈ deadRows ∧ time ∈ times ∧ weather ∈ weathers

/-- area and table whose level range is empty -/
def oddLevels : Nat × Nat := (2, 0x5f6331859736d8dd)

/-- the ranges of the values of a slot -/
structure SlotFacts (s : SlotLA) : Prop where
  species : 25 ≤ s.species.toNat ∧ s.species.toNat ≤ 905
  gender : s.gender = 0#8 ∨ s.gender = 1#8 ∨ s.gender = 255#8
  form : s.form.toNat ≤ 27
  levels : 2 ≤ s.minLevel.toNat ∧ s.minLevel.toNat ≤ 85 ∧ 2 ≤ s.maxLevel.toNat ∧ s.maxLevel.toNat ≤ 85
  ordinary : s.isAlpha = 0#8 → s.guaranteedIvs = 0#8 ∨ s.guaranteedIvs = 3#8
  alpha : s.isAlpha ≠ 0#8 → s.isAlpha = 1#8 ∧ (s.guaranteedIvs = 3#8 ∨ s.guaranteedIvs = 4#8)
  base : 1 ≤ s.baseProbability.toNat ∧ s.baseProbability.toNat ≤ 120
  times : s.timeMultipliers.length = 4
  weathers : s.weatherMultipliers.length = 9

/-- the number of spawners of an area -/
def spawnerCount : Nat → Nat
  | 1 => 382
  | 2 => 472
  | 3 => 479
  | 4 => 337
  | 5 => 377
  | _ => 0

/-- the outbreak lotteries of an area -/
def lotteriesOf : Nat → List Nat
  | 1 => [0xa7b3a6a110969628]
  | 2 => [0x7c191e9aaf887c3f, 0x7c191f9aaf887df2]
  | 3 => [0xcf42f2909eae04ca, 0xcf42f1909eae0317]
  | 4 => [0xd9589acac9cf7479]
  | 5 => [0xac0b2ec4674ff5a4]
  | _ => []

/-- the FNV-1a hash of the empty string, which stands for "no group" in a lottery -/
def noGroup : Int := 0xcbf29ce484222645

end Verif.ShippedLaSpec
