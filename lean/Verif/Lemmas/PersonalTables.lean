import Verif.Lemmas.PersonalCheck
/-
The checks of the personal tables.
-/
namespace Verif.ShippedPersonal
open Personal ShippedPersonalSpec

set_option maxRecDepth 100000

theorem dp : tableOk .dp 501 = true := by decide +kernel
theorem pt : tableOk .pt 508 = true := by decide +kernel
theorem bw : tableOk .bw 668 = true := by decide +kernel
theorem b2w2 : tableOk .b2w2 709 = true := by decide +kernel
theorem xy : tableOk .xy 799 = true := by decide +kernel
theorem oras : tableOk .oras 826 = true := by decide +kernel
theorem sm : tableOk .sm 961 = true := by decide +kernel
theorem usum : tableOk .usum 976 = true := by decide +kernel
theorem swsh : tableOk .swsh 1192 = true := by decide +kernel
theorem bdsp : tableOk .bdsp 560 = true := by decide +kernel
theorem la : tableOk .la 1276 = true := by decide +kernel

theorem tablesOk (t : Table) (ht : t ∈ tables) : tableOk t (entryCount t).1 = true ∧ firstForm t ≤ (entryCount t).1 := by
  cases t
  case dp => exact ⟨dp, by decide⟩
  case pt => exact ⟨pt, by decide⟩
  case bw => exact ⟨bw, by decide⟩
  case b2w2 => exact ⟨b2w2, by decide⟩
  case xy => exact ⟨xy, by decide⟩
  case oras => exact ⟨oras, by decide⟩
  case sm => exact ⟨sm, by decide⟩
  case usum => exact ⟨usum, by decide⟩
  case swsh => exact ⟨swsh, by decide⟩
  case bdsp => exact ⟨bdsp, by decide⟩
  case la => exact ⟨la, by decide⟩
  all_goals exact absurd ht (by decide)

theorem facts (t : Table) (ht : t ∈ tables) :
    (records t).length = (entryCount t).1 ∧ (∀ i < (entryCount t).1, RecordFacts t (records t) i) ∧
      (∀ i < (entryCount t).1, presentOk t i (piece t i) = true) ∧
      (∀ i < firstForm t, baseOk t i (piece t i) = true) ∧ FormFacts t :=
  tableOk_facts t ht _ (tablesOk t ht).2 (tablesOk t ht).1

end Verif.ShippedPersonal
