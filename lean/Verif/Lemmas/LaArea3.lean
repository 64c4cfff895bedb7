import Verif.Lemmas.LaArea2
/-
The check of the tables of area 3 (after the one before, to build one at a time).
-/
namespace Verif.LaFast

set_option maxRecDepth 100000 in
theorem area3 : areaOk 3 349 Data.ids3 Data.encounter3 294632 = true := by decide +kernel

end Verif.LaFast
