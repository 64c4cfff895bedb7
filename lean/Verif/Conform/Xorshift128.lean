import Verif.Model.Xorshift128
/-
Conformance tests (not proofs): expected values of tests/test_xorshift.py.
-/
namespace Verif.Xorshift128

private def s0 : State := { s0 := 0x12345678, s1 := 0x87654321, s2 := 0xDEADBEEF, s3 := 0xBEEFCAFE }

private def run {α : Type} (f : State → State × α) : Nat → State → List α × State
  | 0, s => ([], s)
  | n + 1, s => let r := f s; let t := run f n r.1; (r.2 :: t.1, t.2)

private def num (e : Except PyErr (BitVec 32)) : Nat := match e with | .ok v => v.toNat | .error _ => 0xFFFFFFFFF

#guard (run (next .numba) 5 s0).1.map BitVec.toNat = [249089229, 2735340156, 283144756, 3499684588, 418312854]
#guard (run (next .numpy) 5 s0).1.map BitVec.toNat = [249089229, 2735340156, 283144756, 3499684588, 418312854]
#guard (run (previous .numba) 5 (run (next .numba) 5 s0).2).1.map BitVec.toNat =
  [418312854, 3499684588, 283144756, 2735340156, 249089229]

private def seq {α : Type} : List (State → State × α) → State → List (List α) × State
  | [], s => ([], s)
  | f :: l, s => let r := run f 5 s; let t := seq l r.2; (r.1 :: t.1, t.2)

private def p1 := seq ([2, 5, 25, 100, 256].map fun m s => nextRand .numba s m) s0
#guard p1.1.map (·.map num) = [[1, 0, 0, 0, 0], [1, 1, 0, 2, 2], [3, 22, 8, 19, 21], [30, 40, 93, 72, 39], [82, 60, 116, 44, 6]]
private def p2 := seq ([(0, 2), (2, 5), (10, 25), (50, 100), (240, 256)].map fun m s => nextRandrange .numba s m.1 m.2) p1.2
#guard p2.1.map (·.map num) =
  [[1, 1, 1, 0, 1], [2, 4, 3, 2, 4], [19, 13, 10, 15, 14], [94, 91, 99, 91, 91], [250, 243, 240, 255, 247]]
private def p3 := seq ([(0, 2), (2, 5), (3, 12), (10, 25), (50, 100), (240, 256)].map
  fun m s => nextFloatRandrange .numba s m.1 m.2) p2.2
-- exact doubles: the decimal expansions of the test, rounded to 53 bits
#guard p3.1 = [[1.4062709212303162, 1.8026826083660126, 0.3794565200805664, 1.508473813533783, 1.1949046850204468],
  [4.62663896381855, 4.7586337104439735, 2.6715264320373535, 4.023965150117874, 3.1387452483177185],
  [7.068772077560425, 10.153619647026062, 3.4334449768066406, 7.900472640991211, 11.595278233289719],
  [11.794858694076538, 20.038075536489487, 19.8233343064785, 13.392053842544556, 10.621049404144287],
  [87.25868308544159, 73.74181962013245, 64.16280388832092, 54.820579051971436, 56.12268877029419],
  [253.61190795898438, 254.23838806152344, 255.02412223815918, 252.3646469116211, 245.0315704345703]].map
    (·.map fun x : ℚ => Fp.rnd 53 x)
private def p4 := seq ([2, 5, 25, 100, 256].map fun m s => nextAlternateRand .numba s m) p3.2
#guard p4.1.map (·.map num) = [[1, 0, 1, 0, 1], [1, 0, 2, 3, 4], [13, 0, 0, 20, 2], [78, 81, 17, 80, 66], [154, 56, 253, 228, 88]]

end Verif.Xorshift128
