import Verif.Model.Mt
/-
Conformance TESTS (not proofs): the MT model reproduces expected values of /repo/tests/test_mersenne_twister.py.
-/
namespace Verif.Conform.Mt
open Verif.Mt

def outs (f : State → State × Except PyErr (BitVec 32)) : Nat → State → List Nat × State
  | 0, s => ([], s)
  | n + 1, s =>
    let r := f s
    let q := outs f n r.1
    ((match r.2 with | .ok v => v.toNat | .error _ => 0) :: q.1, q.2)

def outsMax (f : BitVec 32 → State → State × Except PyErr (BitVec 32)) : List Nat → State → List (List Nat) × State
  | [], s => ([], s)
  | m :: ms, s =>
    let r := outs (f (BitVec.ofNat 32 m)) 5 s
    let q := outsMax f ms r.2
    (r.1 :: q.1, q.2)

def start : State := new ⟨fun i => BitVec.ofNat 32 (i * 7919)⟩ 0x12345678

#guard (outs next 5 start).1 = [3331822403, 157471482, 2805605540, 3776487808, 3041352379]
#guard
  let r := outsMax (fun m s => nextRand s m) [2, 5, 25, 100, 256] start
  r.1 = [[1, 0, 1, 1, 1], [1, 2, 4, 1, 2], [17, 12, 1, 22, 1], [54, 22, 61, 83, 69], [11, 140, 12, 76, 59]] ∧
  (outsMax (fun m s => nextRandMod .numba s m) [2, 5, 25, 100, 256] r.2).1 =
    [[1, 1, 1, 0, 0], [3, 1, 1, 0, 1], [4, 24, 19, 10, 20], [41, 18, 71, 28, 88], [154, 172, 65, 161, 125]]

end Verif.Conform.Mt
