import Verif.Lemmas.SfmtFullDefs
import Verif.Data.SfmtFull
import Verif.Data.SfmtPoly
namespace Verif.SfmtPeriod
open Verif.Gf2 Verif.Data.SfmtFull Verif.Data.SfmtPoly

set_option Elab.async false

theorem packed_full : packed (spread full) = true := by decide +kernel

/-- the polynomial kills the lowest bit -/
theorem certificate_full : certificate 1 158 full = true := by decide +kernel

/-- the factors, of degree 19937, 3, 13 and 15 -/
theorem product_full : (Nat.beq (mulp (ones 40000) (spread phi) (spread 2619471407)) (spread full) &&
    Nat.beq (mulp (ones 40000) (spread 11) (spread 335937213)) (spread 2619471407) &&
    Nat.beq (mulp (ones 40000) (spread 10571) (spread 33827)) (spread 335937213) &&
    Nat.beq (mulp (ones 40000) (spread 11) (spread 33827)) (spread 372093) &&
    Nat.beq (mulp (ones 40000) (spread 11) (spread 10571)) (spread 78213)) = true := by decide +kernel

/-- a run whose lowest bits are 19967 zeros and a one -/
theorem run_start : runCheck start (fun g => Nat.beq (Nat.land g (rep 19968 1)) (Nat.pow 2 (Nat.mul 128 19967))) = true := by
  decide +kernel

end Verif.SfmtPeriod
