import Verif.Lemmas.TableNamesCheck
/-
The text of the file of the table names, evaluated by the kernel.
-/
namespace Verif.TableNames

theorem text_same : fastFile families 123 1 Data.nameChunks 0 = true := by decide +kernel

end Verif.TableNames
