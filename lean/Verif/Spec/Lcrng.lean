import Mathlib.Logic.Function.Iterate
import Mathlib.Data.BitVec
/-
Independent specification of a linear congruential generator modulo 2^w.
-/
namespace Verif.Spec

/-- The map `x ↦ a*x + c (mod 2^w)` written on natural numbers. -/
def lcg (w a c : Nat) (x : BitVec w) : BitVec w := BitVec.ofNat w (a * x.toNat + c)

/-- `n` steps of the generator. -/
def lcgAfter (w a c n : Nat) (x : BitVec w) : BitVec w := (lcg w a c)^[n] x

end Verif.Spec
