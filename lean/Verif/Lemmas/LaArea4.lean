import Verif.Lemmas.LaArea3
/-
The check of the tables of area 4 (after the one before, to build one at a time).
-/
namespace Verif.LaFast

set_option maxRecDepth 100000 in
theorem area4 : areaOk 4 317 Data.ids4 Data.encounter4 256192 = true := by decide +kernel

end Verif.LaFast
