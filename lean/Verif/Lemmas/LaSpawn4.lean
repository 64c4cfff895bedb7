import Verif.Lemmas.LaSpawn3
/-
The check of the spawners and outbreaks of area 4 (after the one before, to build one at a time).
-/
namespace Verif.LaFast
open ShippedLaSpec

set_option maxRecDepth 100000 in
theorem spawners4 : spawnersOk 337 Data.ids4 (lotteriesOf 4) Data.spawner4 162944 = true := by decide +kernel

set_option maxRecDepth 100000 in
theorem outbreaks4 : outbreakOk Data.ids4 (lotteriesOf 4) = true := by decide +kernel

end Verif.LaFast
