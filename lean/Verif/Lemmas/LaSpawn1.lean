import Verif.Lemmas.LaSpawnerCheck
/-
The check of the spawners and outbreaks of area 1.
-/
namespace Verif.LaFast
open ShippedLaSpec

set_option maxRecDepth 100000 in
theorem spawners1 : spawnersOk 382 Data.ids1 (lotteriesOf 1) Data.spawner1 182592 = true := by decide +kernel

set_option maxRecDepth 100000 in
theorem outbreaks1 : outbreakOk Data.ids1 (lotteriesOf 1) = true := by decide +kernel

end Verif.LaFast
