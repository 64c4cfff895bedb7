import Verif.Model.Sfmt
/-
Conformance TESTS (not proofs): the SFMT model reproduces expected values of /repo/tests/test_mersenne_twister.py.
-/
namespace Verif.Conform.Sfmt
open Verif.Sfmt

def outs (f : State → State × Except PyErr (BitVec 64)) : Nat → State → List Nat × State
  | 0, s => ([], s)
  | n + 1, s =>
    let r := f s
    let q := outs f n r.1
    ((match r.2 with | .ok v => v.toNat | .error _ => 0) :: q.1, q.2)

def outsMax (f : BitVec 64 → State → State × Except PyErr (BitVec 64)) : List Nat → State → List (List Nat) × State
  | [], s => ([], s)
  | m :: ms, s =>
    let r := outs (f (BitVec.ofNat 64 m)) 5 s
    let q := outsMax f ms r.2
    (r.1 :: q.1, q.2)

def start : State := new ⟨fun i => BitVec.ofNat 32 (i * 7919)⟩ 0x12345678

#guard (outs next 5 start).1 = [4883196442416872734, 15199411253426940632, 10268751338100151066, 602836503723090224,
  2976335783597749142]
#guard (outsMax (fun m s => nextRand .numba s m) [2, 5, 25, 100, 256] start).1 =
  [[0, 0, 0, 0, 0], [1, 3, 4, 2, 3], [1, 12, 1, 14, 1], [61, 24, 95, 71, 43], [241, 85, 35, 253, 83]]
-- the IR version gives the same block (one concrete state)
#guard match irShuffle 200 start.state with
  | some m => [0, 3, 7, 9, 140].all fun i => m i = pyShuffle start.state i
  | none => false

end Verif.Conform.Sfmt
