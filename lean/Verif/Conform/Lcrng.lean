import Verif.Model.Lcrng
/-
Conformance TESTS (not proofs): the LCRNG model reproduces expected values of /repo/tests/test_lcrng.py.
-/
namespace Verif.Conform.Lcrng
open Verif.Lcrng

def five (p : Params w) (s : BitVec w) : List Nat :=
  (List.range 5).map fun i => (advanceLoop p (i + 1) s).toNat

def fiveOf (c : ClassDecl w) (s : BitVec w) : List Nat :=
  match c.params with | .ok p => five p s | .error _ => []

/-- five calls for each maximum, threading the seed -/
def rands32 (c : ClassDecl 32) (d : Dist32) (s : BitVec 32) (maxs : List Nat) : List (List Nat) :=
  match c.params with
  | .error _ => []
  | .ok p =>
    (maxs.foldl (fun (acc : BitVec 32 × List (List Nat)) m =>
      let r := (List.range 5).foldl (fun (a : BitVec 32 × List Nat) _ =>
        let q := nextRand32 .numba p d (BitVec.ofNat 16 m) a.1
        (q.1, a.2 ++ [match q.2 with | .ok v => v.toNat | .error _ => 999999])) (acc.1, [])
      (r.1, acc.2 ++ [r.2])) (s, [])).2

def jumps (c : ClassDecl w) (s : BitVec w) (advs : List Nat) : List (List Nat) :=
  match c.params with
  | .error _ => []
  | .ok p =>
    (advs.foldl (fun (acc : BitVec w × List (List Nat)) m =>
      let r := (List.range 5).foldl (fun (a : BitVec w × List Nat) _ =>
        let q := jump p m a.1
        (q.1, a.2 ++ [match q.2 with | .ok v => v.toNat | .error _ => 999999])) (acc.1, [])
      (r.1, acc.2 ++ [r.2])) (s, [])).2

#guard fiveOf pokeRNG 0x12345678 = [192004491, 2229936802, 3649731437, 4108329948, 646229279]
#guard fiveOf arng 0x12345678 = [775181657, 499207454, 4082793175, 2119206356, 103760037]
#guard fiveOf xdrng 0x12345678 = [3018423131, 1530878130, 3423460525, 3768712380, 1536596111]
#guard fiveOf pokeRNGR 0x12345678 = [1358145273, 3431847134, 687875895, 3556988756, 4100256197]
#guard fiveOf arngR 0x12345678 = [2408337579, 2286114914, 3692372301, 373632348, 1342820287]
#guard fiveOf xdrngR 0x12345678 = [3745948697, 399063950, 1307699815, 631669108, 1486693829]
#guard rands32 pokeRNG .reciprocalDivision 0x12345678 [2, 5, 25, 100, 256] =
  [[0, 1, 1, 1, 0], [2, 2, 0, 2, 1], [19, 1, 11, 14, 3], [70, 74, 25, 72, 68], [230, 42, 92, 133, 221]]
#guard rands32 pokeRNG .modulo 0x12345678 [2, 5, 25, 100, 256] =
  [[1, 0, 0, 0, 0], [2, 2, 3, 3, 3], [8, 3, 18, 2, 0], [94, 1, 8, 41, 61], [76, 93, 38, 12, 132]]
#guard rands32 xdrngR .modulo 0x12345678 [2, 5, 25, 100, 256] =
  [[0, 1, 1, 0, 1], [3, 4, 4, 0, 1], [19, 3, 21, 8, 23], [14, 84, 97, 77, 67], [253, 125, 122, 133, 99]]
#guard jumps pokeRNG 0x12345678 [1, 12, 123, 1234, 12345, 123456, 1234567, 12345678, 123456789, 1234567890] =
  [[192004491, 2229936802, 3649731437, 4108329948, 646229279],
   [3217940315, 2989472983, 1881563539, 3165858191, 2153296075],
   [884291604, 1663541777, 2082535634, 1887281063, 2025557024],
   [3011737306, 1905980836, 3245851390, 262176104, 3955640162],
   [3287845061, 3956680460, 3808542695, 2116860230, 1948537945],
   [3476392857, 4053402329, 2324806169, 2304553305, 490399897],
   [1341700934, 1149868455, 2488120972, 4194967557, 4183583842],
   [2393760392, 3229015614, 3240924420, 4267819098, 2417425856],
   [3312129815, 2870499730, 313239201, 2214150644, 110078075],
   [3277903853, 4242316335, 3551096257, 2703579427, 796073685]]
#guard fiveOf bwrng 0x1234567887654321 = [16002821226169746376, 2040015457476601003, 2028497181719615802,
  16094432643137068197, 16420378533051693276]
#guard fiveOf bwrngR 0x1234567887654321 = [2641392895229885446, 6370139599609869703, 9218825391134224756,
  13553550761165321565, 11857309827725451154]

end Verif.Conform.Lcrng
