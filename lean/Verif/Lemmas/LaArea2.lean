import Verif.Lemmas.LaArea1
/-
The check of the tables of area 2 (after the one before, to build one at a time).
-/
namespace Verif.LaFast

set_option maxRecDepth 100000 in
theorem area2 : areaOk 2 385 Data.ids2 Data.encounter2 429072 = true := by decide +kernel

end Verif.LaFast
