import Verif.Model.Basic
import Verif.Model.Util
import Mathlib.Logic.Function.Iterate
/-
Model of numba_pokemon_prngs/xorshift/xoroshiro128plus.py
-/
namespace Verif.Xoroshiro

/-- the two-word `state` array (`xoroshiro128plus.py:14, 49, 109`) -/
structure State where
  s0 : BitVec 64
  s1 : BitVec 64
deriving DecidableEq

/-- a call of `rotate_left_u64` with a count for which it is defined (24, 37: see C43) -/
def rotl (mode : Mode) (v : BitVec 64) (c : Nat) : BitVec 64 := (Util.rotateLeft64 mode v c).getD 0
/-- a call of `rotate_right_u64` with a count for which it is defined -/
def rotr (mode : Mode) (v : BitVec 64) (c : Nat) : BitVec 64 := (Util.rotateRight64 mode v c).getD 0

/-- `xoroshiro128plus.py:61-67` = `133-139`: the state update of `next` -/
def step (mode : Mode) (s : State) : State :=
  let seed1 := s.s1 ^^^ s.s0
  { s0 := rotl mode s.s0 24 ^^^ seed1 ^^^ (seed1 <<< 16), s1 := rotl mode seed1 37 }

/-- `xoroshiro128plus.py:72-79` = `144-151`: the state update of `previous` -/
def unstep (mode : Mode) (s : State) : State :=
  let seed1 := rotr mode s.s1 37
  let seed0 := rotr mode (s.s0 ^^^ seed1 ^^^ (seed1 <<< 16)) 24
  { s0 := seed0, s1 := seed1 ^^^ seed0 }

/-- `xoroshiro128plus.py:23-26` `advance` (inherited by both classes; only the state matters) -/
def advance (mode : Mode) (s : State) (adv : Nat) : State := (step mode)^[adv] s

namespace Rejection

/-- `xoroshiro128plus.py:52-56` `re_init` -/
def reInit (_ : State) (a : BitVec 64) (b : BitVec 64 := 0x82A2B175229D6A5B) : State := { s0 := a, s1 := b }

/-- `xoroshiro128plus.py:46-50` `__init__`; `junk` is the uninitialised `np.empty` array -/
def new (junk : State) (a : BitVec 64) (b : BitVec 64 := 0x82A2B175229D6A5B) : State := reInit junk a b

/-- `xoroshiro128plus.py:60-69` `next` -/
def next (mode : Mode) (s : State) : State × BitVec 64 := (step mode s, s.s0 + s.s1)

/-- `xoroshiro128plus.py:71-81` `previous` -/
def previous (mode : Mode) (s : State) : State × BitVec 64 := (unstep mode s, (unstep mode s).s0 + (unstep mode s).s1)

/-- the smearing of `xoroshiro128plus.py:95-99`, on `w` bits -/
def smear (v : BitVec w) : BitVec w :=
  let v := v ||| (v >>> 1)
  let v := v ||| (v >>> 2)
  let v := v ||| (v >>> 4)
  let v := v ||| (v >>> 8)
  v ||| (v >>> 16)

/-- `xoroshiro128plus.py:90-100` `bit_mask`: after the subtraction the variable is 64 bits wide under numba, 32 with numpy
scalars. -/
def bitMask (mode : Mode) (val : BitVec 32) : BitVec 64 :=
  match mode with
  | .numba => smear (val.setWidth 64 - 1)
  | .numpy => (smear (val - 1)).setWidth 64

/-- `xoroshiro128plus.py:85-88`: the sampling loop with the number of draws bounded by `fuel`; `none` = not finished. -/
def drawLoop (mode : Mode) (mask : BitVec 64) (maximum : BitVec 32) : Nat → State → Option (State × BitVec 64)
  | 0, _ => none
  | fuel + 1, s =>
    let r := next mode s
    let result := r.2 &&& mask
    if result ≥ maximum.setWidth 64 then drawLoop mode mask maximum fuel r.1 else some (r.1, result)

/-- `xoroshiro128plus.py:83-88` `next_rand` -/
def nextRand (mode : Mode) (fuel : Nat) (s : State) (maximum : BitVec 32) : Option (State × BitVec 64) :=
  drawLoop mode (bitMask mode maximum) maximum fuel s

end Rejection

namespace SplitMix

/-- `xoroshiro128plus.py:120-130` `splitmix` -/
def splitmix (seed state : BitVec 64) : BitVec 64 :=
  let seed := seed + state
  let seed := (0xBF58476D1CE4E5B9 : BitVec 64) * (seed ^^^ (seed >>> 30))
  let seed := (0x94D049BB133111EB : BitVec 64) * (seed ^^^ (seed >>> 27))
  seed ^^^ (seed >>> 31)

/-- `xoroshiro128plus.py:112-116` `re_init` -/
def reInit (_ : State) (seed : BitVec 64) : State :=
  { s0 := splitmix seed 0x9E3779B97F4A7C15, s1 := splitmix seed 0x3C6EF372FE94F82A }

/-- `xoroshiro128plus.py:108-110` `__init__` -/
def new (junk : State) (seed : BitVec 64) : State := reInit junk seed

/-- `xoroshiro128plus.py:132-141` `next` -/
def next (mode : Mode) (s : State) : State × BitVec 32 := (step mode s, ((s.s0 + s.s1) >>> 32).setWidth 32)

/-- `xoroshiro128plus.py:143-153` `previous` -/
def previous (mode : Mode) (s : State) : State × BitVec 32 :=
  (unstep mode s, (((unstep mode s).s0 + (unstep mode s).s1) >>> 32).setWidth 32)

/-- `xoroshiro128plus.py:155-156` `next_rand` -/
def nextRand (mode : Mode) (s : State) (maximum : BitVec 32) : State × Except PyErr (BitVec 32) :=
  let r := next mode s
  (r.1, pyMod mode r.2 maximum)

end SplitMix
end Verif.Xoroshiro
