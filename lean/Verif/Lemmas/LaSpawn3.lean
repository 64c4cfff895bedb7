import Verif.Lemmas.LaSpawn2
/-
The check of the spawners and outbreaks of area 3 (after the one before, to build one at a time).
-/
namespace Verif.LaFast
open ShippedLaSpec

set_option maxRecDepth 100000 in
theorem spawners3 : spawnersOk 479 Data.ids3 (lotteriesOf 3) Data.spawner3 230096 = true := by decide +kernel

set_option maxRecDepth 100000 in
theorem outbreaks3 : outbreakOk Data.ids3 (lotteriesOf 3) = true := by decide +kernel

end Verif.LaFast
