import Verif.Lemmas.SfmtFullDefs
import Verif.Data.SfmtFull
import Verif.Data.SfmtPoly
/-
The parts of one run of SFMT19937, all bits of the words at once.
-/
namespace Verif.Gf2

/-- exclusive or of `2 ^ l` words of 128 bits -/
def xorWords : Nat → Nat → Nat
  | 0, x => x
  | l + 1, x => force x fun x =>
      xorWords l (Nat.xor (Nat.mod x (Nat.pow 2 (Nat.mul 128 (Nat.pow 2 l)))) (Nat.shiftRight x (Nat.mul 128 (Nat.pow 2 l))))

/-- the bits that are not zero in one of the first `n` words of the sequence: `c` applied to the run -/
def seen (c g n : Nat) : Nat :=
  Nat.rec 0 (fun i ih => Nat.lor ih (xorWords 15 (Nat.land c (Nat.shiftRight g (Nat.mul 128 i))))) n

/-- all bits of the word -/
def allBits : Nat := 0xFFFFFFFFFFFFFFFFFFFFFFFFFFFFFFFF

/-- the bits that the part of degree 3 reaches -/
def goodBits : Nat := 0xFEBFFEFFFFFFDF3FFF6DFFFEFB7FFFFF

/-- the polynomial `w` (packed) makes none of the bits `m` zero -/
def shows (w m g : Nat) : Bool :=
  Nat.beq (force (spreadH allBits 15 w) fun c => cond (Nat.beq (Nat.shiftRight c 2560000) 0) (Nat.land (seen c g 15) m) 0) m

/-- the polynomial `w` (packed) has degree `m` -/
def monicOf (w m : Nat) : Bool := Nat.beq (Nat.shiftRight w (Nat.mul 16 m)) 1

end Verif.Gf2

namespace Verif.SfmtPeriod
open Verif.Gf2 Verif.Data.SfmtFull Verif.Data.SfmtPoly

set_option Elab.async false

theorem run_words : runCheck start (fun g =>
    shows (mulp (ones 40000) (spread phi) (spread 335937213)) goodBits g &&
    shows (mulp (ones 40000) (spread phi) (spread 372093)) allBits g &&
    shows (mulp (ones 40000) (spread phi) (spread 78213)) allBits g &&
    shows (spread 2619471407) (Nat.sub allBits 1) g) = true := by decide +kernel

theorem degrees : (monicOf (spread phi) 19937 && monicOf (spread 11) 3 && monicOf (spread 10571) 13 && monicOf (spread 33827) 15) = true := by
  decide +kernel

end Verif.SfmtPeriod
