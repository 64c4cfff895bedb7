import Verif.Spec.Lcrng
/-
Independent statement of what the Gen 3 encounter code should do: the generator's outputs, slot boundaries, leads.
-/
namespace Verif.Spec.Gen3

/-- State of the Gen 3 generator after `n` steps. -/
def after (n : Nat) (seed : BitVec 32) : BitVec 32 := lcgAfter 32 0x41C64E6D 0x6073 n seed

/-- The `n`-th 16-bit output (`n ≥ 1`): the upper half of the state after `n` steps. -/
def out (n : Nat) (seed : BitVec 32) : Nat := (after n seed).toNat / 65536

/-- The slot a roll belongs to: the number of boundaries at or below it (`boundary i - 1 ≤ ... `: slot `i` owns the rolls
from boundary `i-1` up to, excluding, boundary `i`). -/
def slotOf (boundaries : List Nat) (roll : Nat) : Nat := (boundaries.filter (· ≤ roll)).length

/-- Boundary lists: positive, increasing, ending at 100. -/
def Boundaries (l : List Nat) : Prop := (0 :: l).Pairwise (· < ·) ∧ l.getLast? = some 100

end Verif.Spec.Gen3
