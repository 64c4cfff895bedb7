import Verif.Lemmas.SfmtFullDefs
import Verif.Data.SfmtPoly
/-
Runs of SFMT19937 from some seeds.
-/
namespace Verif.SfmtPeriod
open Verif.Gf2 Verif.Data.SfmtPoly

set_option Elab.async false

theorem lowBits_lt : (Nat.beq (Nat.shiftRight (lowBits phi 335937213) 2560000) 0 && Nat.beq (Nat.shiftRight (lowBits phi 372093) 2560000) 0 &&
    Nat.beq (Nat.shiftRight (lowBits phi 78213) 2560000) 0) = true := by decide +kernel

theorem lowBits_packed : (packed (mulp (ones 40000) (spread phi) (spread 335937213)) && packed (mulp (ones 40000) (spread phi) (spread 372093)) &&
    packed (mulp (ones 40000) (spread phi) (spread 78213))) = true := by decide +kernel

theorem seed_0 : seedCheck phi 0 0 false false false = true := by decide +kernel
theorem seed_9733 : seedCheck phi 9733 1 false false true = true := by decide +kernel
theorem seed_5749 : seedCheck phi 5749 0 false true false = true := by decide +kernel
theorem seed_120659 : seedCheck phi 120659 0 true false true = true := by decide +kernel
theorem seed_111677947 : seedCheck phi 111677947 1 false true true = true := by decide +kernel
theorem seed_87607476 : seedCheck phi 87607476 0 true true true = true := by decide +kernel

end Verif.SfmtPeriod
