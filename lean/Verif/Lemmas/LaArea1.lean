import Verif.Lemmas.LaCheck
import Verif.Data.LaIds
/-
The check of the tables of area 1.
-/
namespace Verif.LaFast

set_option maxRecDepth 100000 in
theorem area1 : areaOk 1 360 Data.ids1 Data.encounter1 303528 = true := by decide +kernel

end Verif.LaFast
