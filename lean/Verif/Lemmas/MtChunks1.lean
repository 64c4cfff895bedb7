import Verif.Lemmas.PackedDefs
import Verif.Data.MtPoly
/-
Written by tools/gen_mtpoly.py. Squarings modulo the minimal polynomial of MT19937.
-/
namespace Verif.MtPeriod
open Verif.Gf2 Verif.Data.MtPoly

set_option Elab.async false

theorem chunk0 : (chunk phi mu 318992 1000 p0 p1000 && !Nat.beq (spread p1000) 0) = true := by
  decide +kernel

theorem chunk1000 : (chunk phi mu 318992 1000 p1000 p2000 && !Nat.beq (spread p2000) 0) = true := by
  decide +kernel

theorem chunk2000 : (chunk phi mu 318992 1000 p2000 p3000 && !Nat.beq (spread p3000) 0) = true := by
  decide +kernel

theorem chunk3000 : (chunk phi mu 318992 1000 p3000 p4000 && !Nat.beq (spread p4000) 0) = true := by
  decide +kernel

theorem chunk4000 : (chunk phi mu 318992 1000 p4000 p5000 && !Nat.beq (spread p5000) 0) = true := by
  decide +kernel

theorem chunk5000 : (chunk phi mu 318992 1000 p5000 p6000 && !Nat.beq (spread p6000) 0) = true := by
  decide +kernel

theorem chunk6000 : (chunk phi mu 318992 1000 p6000 p7000 && !Nat.beq (spread p7000) 0) = true := by
  decide +kernel

theorem chunk7000 : (chunk phi mu 318992 1000 p7000 p8000 && !Nat.beq (spread p8000) 0) = true := by
  decide +kernel

theorem chunk8000 : (chunk phi mu 318992 1000 p8000 p9000 && !Nat.beq (spread p9000) 0) = true := by
  decide +kernel

theorem chunk9000 : (chunk phi mu 318992 1000 p9000 p10000 && !Nat.beq (spread p10000) 0) = true := by
  decide +kernel

end Verif.MtPeriod
