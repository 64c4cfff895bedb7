import Verif.Model.Xoroshiro
/-
Conformance tests (not proofs): expected values of tests/test_xorshift.py.
-/
namespace Verif.Xoroshiro

private def z : State := { s0 := 0, s1 := 0 }

#guard ([0x12345678, 0x87654321, 0xCAFEBEEF, 0xDEADBEEF, 0xBEEFCAFE].map fun s =>
    let t := SplitMix.new z s; (t.s0.toNat, t.s1.toNat)) =
  [(4103302876398381935, 16133041902329894167), (15779530522407162504, 18036422292597032046),
   (16974760463792686510, 6191428841595969426), (5395234354446855067, 16021672434157553954),
   (6041607748924030458, 8399375536991227553)]

private def run {α : Type} (f : State → State × α) : Nat → State → List α × State
  | 0, s => ([], s)
  | n + 1, s => let r := f s; let t := run f n r.1; (r.2 :: t.1, t.2)

private def a5 := run (SplitMix.next .numba) 5 (SplitMix.new z 0x12345678)
#guard a5.1.map BitVec.toNat = [416673884, 10456666, 1220117690, 3668624070, 2653509652]
#guard (run (SplitMix.previous .numba) 5 a5.2).1.map BitVec.toNat = [2653509652, 3668624070, 1220117690, 10456666, 416673884]
private def b5 := run (Rejection.next .numpy) 5 (Rejection.new z 0x12345678)
#guard b5.1.map BitVec.toNat = [9413281288113209555, 5254920089485994697, 13325847552699995764, 18221136201721511112,
  15617030143133486355]
#guard (run (Rejection.previous .numpy) 5 b5.2).1.map BitVec.toNat =
  [15617030143133486355, 18221136201721511112, 13325847552699995764, 5254920089485994697, 9413281288113209555]

private def seq {α : Type} : List (State → State × α) → State → List (List α) × State
  | [], s => ([], s)
  | f :: l, s => let r := run f 5 s; let t := seq l r.2; (r.1 :: t.1, t.2)

private def num (e : Except PyErr (BitVec 32)) : Nat := match e with | .ok v => v.toNat | .error _ => 0xFFFFFFFFF
#guard (seq ([2, 5, 25, 100, 256].map fun m s => SplitMix.nextRand .numba s m) (SplitMix.new z 0x12345678)).1.map (·.map num) =
  [[0, 0, 0, 0, 0], [4, 4, 1, 3, 1], [15, 12, 24, 5, 20], [33, 83, 8, 75, 86], [124, 99, 230, 179, 252]]
#guard (seq ([2, 5, 25, 100, 256].map fun m s => (Rejection.nextRand .numba 100 s m).getD (s, 0)) (Rejection.new z 0x12345678)).1.map
    (·.map BitVec.toNat) =
  [[1, 1, 0, 0, 1], [3, 1, 3, 2, 1], [20, 5, 22, 18, 15], [71, 41, 5, 57, 59], [217, 128, 23, 79, 63]]

end Verif.Xoroshiro
