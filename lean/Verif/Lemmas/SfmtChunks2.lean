import Verif.Lemmas.PackedDefs
import Verif.Data.SfmtPoly
/-
Written by tools/gen_sfmtpoly.py. Squarings modulo the polynomial of SFMT19937.
-/
namespace Verif.SfmtPeriod
open Verif.Gf2 Verif.Data.SfmtPoly

set_option Elab.async false

theorem chunk10000 : (chunk phi mu 318992 1000 p10000 p11000 && !Nat.beq (spread p11000) 0) = true := by
  decide +kernel

theorem chunk11000 : (chunk phi mu 318992 1000 p11000 p12000 && !Nat.beq (spread p12000) 0) = true := by
  decide +kernel

theorem chunk12000 : (chunk phi mu 318992 1000 p12000 p13000 && !Nat.beq (spread p13000) 0) = true := by
  decide +kernel

theorem chunk13000 : (chunk phi mu 318992 1000 p13000 p14000 && !Nat.beq (spread p14000) 0) = true := by
  decide +kernel

theorem chunk14000 : (chunk phi mu 318992 1000 p14000 p15000 && !Nat.beq (spread p15000) 0) = true := by
  decide +kernel

theorem chunk15000 : (chunk phi mu 318992 1000 p15000 p16000 && !Nat.beq (spread p16000) 0) = true := by
  decide +kernel

theorem chunk16000 : (chunk phi mu 318992 1000 p16000 p17000 && !Nat.beq (spread p17000) 0) = true := by
  decide +kernel

theorem chunk17000 : (chunk phi mu 318992 1000 p17000 p18000 && !Nat.beq (spread p18000) 0) = true := by
  decide +kernel

theorem chunk18000 : (chunk phi mu 318992 1000 p18000 p19000 && !Nat.beq (spread p19000) 0) = true := by
  decide +kernel

theorem chunk19000 : (chunk phi mu 318992 937 p19000 p19937 && !Nat.beq (spread p19937) 0) = true := by
  decide +kernel

end Verif.SfmtPeriod
