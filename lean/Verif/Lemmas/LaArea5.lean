import Verif.Lemmas.LaArea4
/-
The check of the tables of area 5 (after the one before, to build one at a time).
-/
namespace Verif.LaFast

set_option maxRecDepth 100000 in
theorem area5 : areaOk 5 368 Data.ids5 Data.encounter5 311584 = true := by decide +kernel

end Verif.LaFast
