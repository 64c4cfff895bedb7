import Verif.Lemmas.LaSpawn4
/-
The check of the spawners and outbreaks of area 5 (after the one before, to build one at a time).
-/
namespace Verif.LaFast
open ShippedLaSpec

set_option maxRecDepth 100000 in
theorem spawners5 : spawnersOk 377 Data.ids5 (lotteriesOf 5) Data.spawner5 181024 = true := by decide +kernel

set_option maxRecDepth 100000 in
theorem outbreaks5 : outbreakOk Data.ids5 (lotteriesOf 5) = true := by decide +kernel

end Verif.LaFast
