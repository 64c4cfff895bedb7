import Verif.Lemmas.LaSpawn1
/-
The check of the spawners and outbreaks of area 2 (after the one before, to build one at a time).
-/
namespace Verif.LaFast
open ShippedLaSpec

set_option maxRecDepth 100000 in
theorem spawners2 : spawnersOk 472 Data.ids2 (lotteriesOf 2) Data.spawner2 225256 = true := by decide +kernel

set_option maxRecDepth 100000 in
theorem outbreaks2 : outbreakOk Data.ids2 (lotteriesOf 2) = true := by decide +kernel

end Verif.LaFast
