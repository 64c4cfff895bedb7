import Verif.Model.Basic
import Mathlib.Logic.Function.Iterate
/-
Model of numba_pokemon_prngs/mersenne_twister/tinymt.py

Under numba integer expressions are evaluated with 64-bit intermediates and only truncated on a store into the
`uint32` array or by an explicit cast; with numpy scalars they wrap at 32 bits. Both are modelled where it matters.
-/
namespace Verif.TinyMt

/-- the four-word `state` array (`tinymt.py:15, 19`) -/
structure State where
  s0 : BitVec 32
  s1 : BitVec 32
  s2 : BitVec 32
  s3 : BitVec 32
deriving DecidableEq

/-- `state[i & 3]` -/
def State.get (s : State) (i : Nat) : BitVec 32 :=
  match i % 4 with | 0 => s.s0 | 1 => s.s1 | 2 => s.s2 | _ => s.s3
/-- `state[i & 3] = v` -/
def State.set (s : State) (i : Nat) (v : BitVec 32) : State :=
  match i % 4 with | 0 => { s with s0 := v } | 1 => { s with s1 := v } | 2 => { s with s2 := v } | _ => { s with s3 := v }

/-- `tinymt.py:60-73` `shuffle`, 32-bit wrapping arithmetic (numpy). -/
def shuffle32 (s : State) : State :=
  let y := s.s3
  let x := (s.s0 &&& 0x7FFFFFFF) ^^^ s.s1 ^^^ s.s2
  let x := x ^^^ (x <<< 1)
  let y := y ^^^ ((y >>> 1) ^^^ x)
  { s0 := s.s1
    s1 := s.s2 ^^^ ((y &&& 1) * 0x8F7011EE)
    s2 := x ^^^ (y <<< 10) ^^^ ((y &&& 1) * 0xFC78FF1F)
    s3 := y }

/-- `tinymt.py:60-73` `shuffle` with 64-bit intermediates, truncated when stored (numba). -/
def shuffle64 (s : State) : State :=
  let z (v : BitVec 32) : BitVec 64 := v.setWidth 64
  let y := z s.s3
  let x := (z s.s0 &&& 0x7FFFFFFF) ^^^ z s.s1 ^^^ z s.s2
  let x := x ^^^ (x <<< 1)
  let y := y ^^^ ((y >>> 1) ^^^ x)
  { s0 := s.s1
    s1 := (z s.s2 ^^^ ((y &&& 1) * 0x8F7011EE)).setWidth 32
    s2 := (x ^^^ (y <<< 10) ^^^ ((y &&& 1) * 0xFC78FF1F)).setWidth 32
    s3 := y.setWidth 32 }

/-- `shuffle` in either mode -/
def shuffle (mode : Mode) (s : State) : State :=
  match mode with | .numba => shuffle64 s | .numpy => shuffle32 s

/-- `tinymt.py:75-82` `temper`: the 64-bit value computed. With numpy scalars the sum wraps at 32 bits. -/
def temper (mode : Mode) (s : State) : BitVec 64 :=
  let z (v : BitVec 32) : BitVec 64 := v.setWidth 64
  let t0 := z s.s3
  let t1 := match mode with
    | .numba => z s.s0 + z (s.s2 >>> 8)
    | .numpy => z (s.s0 + (s.s2 >>> 8))
  let t0 := t0 ^^^ t1
  t0 ^^^ ((t1 &&& 1) * 0x3793FDFF)

/-- one iteration of the loop `tinymt.py:29-34` -/
def seedStep (s : State) (i : Nat) : State :=
  let p := s.get (i - 1)
  s.set i (s.get i ^^^ (0x6C078965 * (p ^^^ (p >>> 30)) + BitVec.ofNat 32 i))

/-- `tinymt.py:25-34`: the state before the certification test -/
def seedWords (s : State) (seed : BitVec 32) : State :=
  (List.range' 1 7).foldl seedStep ((((s.set 0 seed).set 1 0x8F7011EE).set 2 0xFC78FF1F).set 3 0x3793FDFF)

/-- `tinymt.py:36-45` -/
def certify (s : State) : State :=
  if s.s0 &&& 0x7FFFFFFF = 0 ∧ s.s1 = 0 ∧ s.s2 = 0 ∧ s.s3 = 0 then { s0 := 84, s1 := 73, s2 := 78, s3 := 89 } else s

/-- `tinymt.py:22-48` `re_init` -/
def reInit (mode : Mode) (s : State) (seed : BitVec 32) : State := (shuffle mode)^[8] (certify (seedWords s seed))

/-- `tinymt.py:17-20` `__init__`; `junk` is the uninitialised `np.empty` array. -/
def new (mode : Mode) (junk : State) (seed : BitVec 32) : State := reInit mode junk seed

/-- `tinymt.py:50-53` `advance` -/
def advance (mode : Mode) (s : State) (adv : Nat) : State := (shuffle mode)^[adv] s

/-- `tinymt.py:55-58` `next`: new state and the value returned (64-bit under numba, no truncation) -/
def next (mode : Mode) (s : State) : State × BitVec 64 := (shuffle mode s, temper mode (shuffle mode s))

/-- `tinymt.py:84-87` `next_rand` -/
def nextRand (mode : Mode) (s : State) (maximum : BitVec 32) : State × BitVec 32 :=
  let r := next mode s
  (r.1, ((r.2 * maximum.setWidth 64) >>> 32).setWidth 32)

/-- `tinymt.py:89-91` `next_rand_mod` -/
def nextRandMod (mode : Mode) (s : State) (maximum : BitVec 32) : State × Except PyErr (BitVec 64) :=
  let r := next mode s
  (r.1, pyMod mode r.2 (maximum.setWidth 64))

end Verif.TinyMt
