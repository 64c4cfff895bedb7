import Verif.Model.Basic
import Verif.Model.Fp
import Mathlib.Logic.Function.Iterate
/-
Model of numba_pokemon_prngs/xorshift/xorshift128.py

Under numba `t_val` is a 64-bit variable (a shift or xor of `uint32` operands has 64-bit type) that is cut back by the
explicit `np.uint32(...)` casts; with numpy scalars everything is 32 bits wide. Both variants are modelled.
-/
namespace Verif.Xorshift128

/-- the four-word `state` array (`xorshift128.py:14, 19`) -/
structure State where
  s0 : BitVec 32
  s1 : BitVec 32
  s2 : BitVec 32
  s3 : BitVec 32
deriving DecidableEq

/-- `xorshift128.py:24-31` `re_init` -/
def reInit (_ : State) (a b c d : BitVec 32) : State := { s0 := a, s1 := b, s2 := c, s3 := d }

/-- `xorshift128.py:16-22` `__init__`; `junk` is the uninitialised `np.empty` array -/
def new (junk : State) (a b c d : BitVec 32) : State := reInit junk a b c d

/-- `np.uint32(x)` of a 64-bit value, used again as a 64-bit operand -/
def c32 (x : BitVec 64) : BitVec 64 := (x.setWidth 32).setWidth 64

/-- `xorshift128.py:40-45`: the new word -/
def nextWord (mode : Mode) (s : State) : BitVec 32 :=
  match mode with
  | .numpy =>
    let t := s.s0
    let v := s.s3
    let t := t ^^^ (t <<< 11)
    let t := t ^^^ (t >>> 8)
    t ^^^ (v ^^^ (v >>> 19))
  | .numba =>
    let t := s.s0.setWidth 64
    let v := s.s3.setWidth 64
    let t := t ^^^ (c32 t <<< 11)
    let t := t ^^^ (c32 t >>> 8)
    (t ^^^ (c32 v ^^^ (c32 v >>> 19))).setWidth 32

/-- `xorshift128.py:38-52` `next` -/
def next (mode : Mode) (s : State) : State × BitVec 32 :=
  let t := nextWord mode s
  ({ s0 := s.s1, s1 := s.s2, s2 := s.s3, s3 := t }, t)

/-- `xorshift128.py:57-66`: the word recovered by `previous` -/
def prevWord (mode : Mode) (s : State) : BitVec 32 :=
  match mode with
  | .numpy =>
    let t := s.s3
    let v := s.s2
    let t := t ^^^ (v ^^^ (v >>> 19))
    let t := t ^^^ (t >>> 8)
    let t := t ^^^ (t >>> 16)
    let t := t ^^^ (t <<< 11)
    t ^^^ (t <<< 22)
  | .numba =>
    let t := s.s3.setWidth 64
    let v := s.s2.setWidth 64
    let t := t ^^^ (c32 v ^^^ (c32 v >>> 19))
    let t := t ^^^ (c32 t >>> 8)
    let t := t ^^^ (c32 t >>> 16)
    let t := t ^^^ (c32 t <<< 11)
    (t ^^^ (c32 t <<< 22)).setWidth 32

/-- `xorshift128.py:54-73` `previous` -/
def previous (mode : Mode) (s : State) : State × BitVec 32 :=
  let t := prevWord mode s
  ({ s0 := t, s1 := s.s0, s2 := s.s1, s3 := s.s2 }, s.s3)

/-- `xorshift128.py:33-36` `advance` -/
def advance (mode : Mode) (s : State) (adv : Nat) : State := (fun s => (next mode s).1)^[adv] s

/-- `xorshift128.py:75-83` `next_randrange`. `minimum`, `maximum` are the `int32` bit patterns; the sum is formed in
64 bits and truncated by `np.uint32`. -/
def nextRandrange (mode : Mode) (s : State) (minimum maximum : BitVec 32) : State × Except PyErr (BitVec 32) :=
  let diff : BitVec 32 := (maximum.signExtend 64 - minimum.signExtend 64).setWidth 32
  let r := next mode s
  (r.1, (pyMod mode r.2 diff).map fun m => (m.setWidth 64 + minimum.signExtend 64).setWidth 32)

/-- `xorshift128.py:85-89` `next_rand` -/
def nextRand (mode : Mode) (s : State) (maximum : BitVec 32) : State × Except PyErr (BitVec 32) :=
  let r := next mode s
  (r.1, pyMod mode r.2 maximum)

/-- `xorshift128.py:91-99` `next_alternate_rand`; the first bound is `np.int32(-0x7FFFFFFF) - np.uint32(1)`. -/
def nextAlternateRand (mode : Mode) (s : State) (maximum : BitVec 32) : State × Except PyErr (BitVec 32) :=
  let lo : BitVec 32 := ((-0x7FFFFFFF#32).signExtend 64 - (1#32).setWidth 64).setWidth 32
  let r := nextRandrange mode s lo 0x7FFFFFFF
  (r.1, r.2.bind fun v => pyMod mode v maximum)

/-- `xorshift128.py:101-112` `next_float_randrange`: quotient and first product are `float32`, `1 - rand_float` (an
`int64` minus a `float32`), the second product and the sum are `float64`, in both modes. -/
def nextFloatRandrange (mode : Mode) (s : State) (minimum maximum : ℚ) : State × ℚ :=
  let r := next mode s
  let f : ℚ := Fp.rnd 24 (((r.2 &&& 0x7FFFFF).toNat : ℚ) / 0x7FFFFF)
  (r.1, Fp.rnd 53 (Fp.rnd 24 (f * minimum) + Fp.rnd 53 (Fp.rnd 53 (1 - f) * maximum)))

end Verif.Xorshift128
