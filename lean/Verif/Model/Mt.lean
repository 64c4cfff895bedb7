import Verif.Model.Basic
import Verif.Model.Mem
import Verif.Model.Lcrng
/-
Model of numba_pokemon_prngs/mersenne_twister/mt.py
-/
namespace Verif.Mt

/-- Fields of `MersenneTwister` (`mt.py:18-19`); `index` is an `np.uint16`. -/
structure State where
  state : Mem
  index : Nat

/-- `mt.py:7` `MAG02`, indexed with `y & 1`. -/
def mag02 (y : BitVec 32) : BitVec 32 := if y &&& 1 = 0 then 0 else 0x9908B0DF

/-- One assignment of the shuffle loops, `mt.py:71-72, 75-76, 78-79`, with the indices written (and read) `d`, and read
`n`, `f`. -/
def shuffleStep (m : Mem) (ix : Nat × Nat × Nat) : Mem :=
  let y := (m ix.1 &&& 0x80000000) ||| (m ix.2.1 &&& 0x7FFFFFFF)
  m.set ix.1 ((y >>> 1) ^^^ mag02 y ^^^ m ix.2.2)

/-- indices of the first loop, `mt.py:70-72` -/
def idx1 : List (Nat × Nat × Nat) := (List.range 227).map fun i => (i, i + 1, i + 397)
/-- indices of the second loop, `mt.py:74-76` -/
def idx2 : List (Nat × Nat × Nat) := (List.range' 227 396).map fun i => (i, i + 1, i - 227)
/-- indices of the last assignment, `mt.py:78-79` -/
def idx3 : Nat × Nat × Nat := (623, 0, 396)

/-- The array part of `shuffle`, `mt.py:70-79`. -/
def shuffleMem (m : Mem) : Mem :=
  shuffleStep (idx2.foldl shuffleStep (idx1.foldl shuffleStep m)) idx3

/-- `mt.py:63-81` `shuffle`. -/
def shuffle (s : State) : State := { state := shuffleMem s.state, index := 0 }

/-- One iteration of the initialisation loop, `mt.py:34-37`; the pair is (array, `seed`). -/
def seedStep (a : Mem × BitVec 32) (i : Nat) : Mem × BitVec 32 :=
  let seed := 0x6C078965 * (a.2 ^^^ (a.2 >>> 30)) + BitVec.ofNat 32 i
  (a.1.set i seed, seed)

/-- `mt.py:27-37` `re_init` on an object in an arbitrary state. -/
def reInit (s : State) (seed : BitVec 32) : State :=
  { state := ((List.range' 1 623).foldl seedStep (s.state.set 0 seed, seed)).1, index := 624 }

/-- `mt.py:21-25` `__init__`; `junk` is the uninitialised `np.empty` array. -/
def new (junk : Mem) (seed : BitVec 32) : State := reInit { state := junk, index := 624 } seed

/-- The loop `mt.py:43-45` with the running value of `adv`. -/
def advanceLoop (s : State) (adv : Nat) : State × Nat :=
  if _h : 624 ≤ adv then advanceLoop (shuffle s) (adv - 624) else (s, adv)
termination_by adv
decreasing_by omega

/-- The sum `mt.py:42`: under numba the addition is done in 64 bits, with numpy scalars it wraps at 32 bits. -/
def advTotal (mode : Mode) (adv : BitVec 32) (index : Nat) : Nat :=
  match mode with
  | .numba => adv.toNat + index
  | .numpy => (adv.toNat + index) % 2 ^ 32

/-- `mt.py:39-46` `advance`; the argument is already truncated to 32 bits (line 41). -/
def advance (mode : Mode) (s : State) (adv : BitVec 32) : State :=
  let r := advanceLoop s (advTotal mode adv s.index)
  { r.1 with index := r.2 % 2 ^ 16 }

/-- Tempering, `mt.py:56-59`. -/
def temper (y0 : BitVec 32) : BitVec 32 :=
  let y1 := y0 ^^^ (y0 >>> 11)
  let y2 := y1 ^^^ ((y1 <<< 7) &&& 0x9D2C5680)
  let y3 := y2 ^^^ ((y2 <<< 15) &&& 0xEFC60000)
  y3 ^^^ (y3 >>> 18)

/-- `mt.py:48-61` `next`. The access `self.state[self.index]` (line 53) is checked: an index outside the 624-element
array is an `IndexError` (undefined behaviour when compiled by numba). -/
def next (s : State) : State × Except PyErr (BitVec 32) :=
  let s' := if s.index = 624 then shuffle s else s
  if s'.index < 624 then
    ({ s' with index := (s'.index + 1) % 2 ^ 16 }, .ok (temper (s'.state s'.index)))
  else (s', .error .indexError)

/-- `mt.py:83-86` `next_rand`. -/
def nextRand (s : State) (maximum : BitVec 32) : State × Except PyErr (BitVec 32) :=
  let r := next s
  (r.1, r.2.map fun y => Lcrng.mulShift y maximum)

/-- `mt.py:88-90` `next_rand_mod`. -/
def nextRandMod (mode : Mode) (s : State) (maximum : BitVec 32) : State × Except PyErr (BitVec 32) :=
  let r := next s
  (r.1, r.2.bind fun y => pyMod mode y maximum)

end Verif.Mt
