import Verif.Model.TinyMt
/-
Conformance TESTS (not proofs): expected values of /repo/tests/test_mersenne_twister.py.
-/
namespace Verif.Conform.TinyMt
open Verif.TinyMt

def outs (f : State → State × Nat) : Nat → State → List Nat × State
  | 0, s => ([], s)
  | n + 1, s => let r := f s; let q := outs f n r.1; (r.2 :: q.1, q.2)

def outsMax (f : BitVec 32 → State → State × Nat) : List Nat → State → List (List Nat) × State
  | [], s => ([], s)
  | m :: ms, s => let r := outs (f (BitVec.ofNat 32 m)) 5 s; let q := outsMax f ms r.2; (r.1 :: q.1, q.2)

def start (mode : Mode) : State := new mode ⟨1, 2, 3, 4⟩ 0x12345678

#guard [Mode.numba, .numpy].all fun mode =>
  (outs (fun s => let r := next mode s; (r.1, r.2.toNat)) 5 (start mode)).1 =
    [2481148692, 2185716838, 3625480341, 3369169125, 3389594172]

#guard [Mode.numba, .numpy].all fun mode =>
  let a := outsMax (fun m s => let r := nextRand mode s m; (r.1, r.2.toNat)) [2, 5, 25, 100, 256] (start mode)
  let b := outsMax (fun m s => let r := nextRandMod mode s m
    (r.1, match r.2 with | .ok v => v.toNat | .error _ => 0)) [2, 5, 25, 100, 256] a.2
  a.1 = [[1, 1, 1, 1, 1], [1, 0, 2, 4, 0], [23, 0, 4, 20, 21], [59, 51, 5, 47, 77], [156, 84, 195, 5, 150]] ∧
  b.1 = [[0, 0, 1, 1, 0], [2, 2, 2, 0, 3], [20, 14, 8, 22, 2], [98, 10, 40, 11, 54], [30, 185, 57, 8, 182]]

end Verif.Conform.TinyMt
