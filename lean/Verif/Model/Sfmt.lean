import Verif.Model.Basic
import Verif.Model.Mem
/-
Model of numba_pokemon_prngs/mersenne_twister/sfmt.py
-/
namespace Verif.Sfmt

/-- Fields of `SIMDFastMersenneTwister` (`sfmt.py:267-268`); `index` is an `np.uint16`. -/
structure State where
  state : Mem
  index : Nat

/-! ### Python version of the shuffle -/

/-- One group of 20 statements of `sfmt_shuffle` (`sfmt.py:20-43`, `45-68`, `71-94`, `97-120`), with `i` the index of
the group written, `b` the index used for `b_*`, `c` for `y_*` and `d` for `d_*`. All reads precede the four writes. -/
def pyStep (m : Mem) (i b c d : Nat) : Mem :=
  let x0 := m i <<< 8
  let x1 := (m (i + 1) <<< 8) ||| (m i >>> 24)
  let x2 := (m (i + 2) <<< 8) ||| (m (i + 1) >>> 24)
  let x3 := (m (i + 3) <<< 8) ||| (m (i + 2) >>> 24)
  let y0 := (m (c + 1) <<< 24) ||| (m c >>> 8)
  let y1 := (m (c + 2) <<< 24) ||| (m (c + 1) >>> 8)
  let y2 := (m (c + 3) <<< 24) ||| (m (c + 2) >>> 8)
  let y3 := m (c + 3) >>> 8
  let b0 := (m b >>> 11) &&& 0xDFFFFFEF
  let b1 := (m (b + 1) >>> 11) &&& 0xDDFECB7F
  let b2 := (m (b + 2) >>> 11) &&& 0xBFFAFFFF
  let b3 := (m (b + 3) >>> 11) &&& 0xBFFFFFF6
  let d0 := m d <<< 18
  let d1 := m (d + 1) <<< 18
  let d2 := m (d + 2) <<< 18
  let d3 := m (d + 3) <<< 18
  let n0 := m i ^^^ (x0 ^^^ y0 ^^^ b0 ^^^ d0)
  let n1 := m (i + 1) ^^^ (x1 ^^^ y1 ^^^ b1 ^^^ d1)
  let n2 := m (i + 2) ^^^ (x2 ^^^ y2 ^^^ b2 ^^^ d2)
  let n3 := m (i + 3) ^^^ (x3 ^^^ y3 ^^^ b3 ^^^ d3)
  (((m.set i n0).set (i + 1) n1).set (i + 2) n2).set (i + 3) n3

/-- (i, b, c, d) of all groups in program order: the two manual ones (`sfmt.py:20-43`, `45-68`), the loop
`range(8, 136, 4)` (`70-94`) and the loop `range(136, 624, 4)` (`96-120`). -/
def pyIdx : List (Nat × Nat × Nat × Nat) :=
  [(0, 488, 616, 620), (4, 492, 620, 0)] ++
  (List.range' 8 32 4).map (fun i => (i, i + 488, i - 8, i - 4)) ++
  (List.range' 136 122 4).map (fun i => (i, i - 136, i - 8, i - 4))

/-- `sfmt.py:13-120` `sfmt_shuffle` (used when numba is disabled). -/
def pyShuffle (m : Mem) : Mem := pyIdx.foldl (fun m q => pyStep m q.1 q.2.1 q.2.2.1 q.2.2.2) m

/-! ### LLVM IR version of the shuffle -/

/-- a `<4 x i32>` vector -/
abbrev V4 := BitVec 32 × BitVec 32 × BitVec 32 × BitVec 32

/-- load of a `<4 x i32>` from the array at element index `i` (`sfmt.py:206-208`) -/
def load4 (m : Mem) (i : Nat) : V4 := (m i, m (i + 1), m (i + 2), m (i + 3))

/-- store of a `<4 x i32>` (`sfmt.py:221`) -/
def store4 (m : Mem) (i : Nat) (v : V4) : Mem :=
  (((m.set i v.1).set (i + 1) v.2.1).set (i + 2) v.2.2.1).set (i + 3) v.2.2.2

/-- load of a `<16 x i8>` from the array at element index `i`: little-endian bytes (`sfmt.py:180-182`) -/
def load16 (m : Mem) (i : Nat) (k : Nat) : BitVec 8 := (m (i + k / 4)).extractLsb' (8 * (k % 4)) 8

/-- `shufflevector v, zeroinitializer, mask` (`sfmt.py:181-183`) -/
def shuffleVector (v : Nat → BitVec 8) (mask : List Nat) (k : Nat) : BitVec 8 :=
  match mask[k]? with
  | some j => if j < 16 then v j else 0
  | none => 0

/-- reinterpretation of 16 little-endian bytes as `<4 x i32>` through memory (`sfmt.py:176, 184-185`) -/
def asV4 (v : Nat → BitVec 8) : V4 :=
  let w := fun q => v (4 * q + 3) ++ v (4 * q + 2) ++ v (4 * q + 1) ++ v (4 * q)
  (w 0, w 1, w 2, w 3)

/-- `sfmt.py:140-142` -/
def shiftLeftMask : List Nat := [16, 0, 1, 2, 3, 4, 5, 6, 7, 8, 9, 10, 11, 12, 13, 14]
/-- `sfmt.py:143-145` -/
def shiftRightMask : List Nat := [1, 2, 3, 4, 5, 6, 7, 8, 9, 10, 11, 12, 13, 14, 15, 16]

/-- `sfmt.py:179-185` `shift_bytes` -/
def shiftBytes (m : Mem) (i : Nat) (mask : List Nat) : V4 := asV4 (shuffleVector (load16 m i) mask)

/-- lane-wise operation -/
def V4.map2 (f : BitVec 32 → BitVec 32 → BitVec 32) (a b : V4) : V4 :=
  (f a.1 b.1, f a.2.1 b.2.1, f a.2.2.1 b.2.2.1, f a.2.2.2 b.2.2.2)
/-- lane-wise operation -/
def V4.map1 (f : BitVec 32 → BitVec 32) (a : V4) : V4 := (f a.1, f a.2.1, f a.2.2.1, f a.2.2.2)

/-- `sfmt.py:139` `MASK` -/
def maskV4 : V4 := (0xDFFFFFEF, 0xDDFECB7F, 0xBFFAFFFF, 0xBFFFFFF6)

/-- `sfmt.py:187-226` `mm_recursion` on (array, index); `ofs` are the signed offsets added to the 64-bit index. -/
def mmRecursion (ofs : Int × Int × Int) (s : Mem × Nat) : Mem × Nat :=
  let m := s.1
  let index := s.2
  let indexB := (index + ofs.1 : Int).toNat
  let indexC := (index + ofs.2.1 : Int).toNat
  let indexD := (index + ofs.2.2 : Int).toNat
  let vecA := load4 m index
  let vecB := load4 m indexB
  let vecD := load4 m indexD
  let vecX := shiftBytes m index shiftLeftMask
  let vecY := shiftBytes m indexC shiftRightMask
  let vecB1 := (vecB.map1 (· >>> 11)).map2 (· &&& ·) maskV4
  let vecD1 := vecD.map1 (· <<< 18)
  let vecA' := (((vecA.map2 (· ^^^ ·) vecX).map2 (· ^^^ ·) vecB1).map2 (· ^^^ ·) vecY).map2 (· ^^^ ·) vecD1
  (store4 m index vecA', index + 4)

/-- `sfmt.py:228-245` `loop_mm_recursion`: repeat until the index equals `last`. The emitted loop is unbounded; `fuel`
bounds the number of iterations of the model, `none` meaning "not finished yet". -/
def loopMM (ofs : Int × Int × Int) (last : Nat) : (fuel : Nat) → Mem × Nat → Option (Mem × Nat)
  | 0, _ => none
  | fuel + 1, s =>
    let s' := mmRecursion ofs s
    if s'.2 = last then some s' else loopMM ofs last fuel s'

/-- `sfmt.py:247-257` `sfmt_shuffle_ir` -/
def irShuffle (fuel : Nat) (m : Mem) : Option Mem :=
  let s := mmRecursion (488, 616, -4) (mmRecursion (488, 616, 620) (m, 0))
  (loopMM (488, -8, -4) 136 fuel s).bind fun s =>
    (loopMM (-136, -8, -4) 624 fuel s).map Prod.fst

/-! ### The class -/

/-- One iteration of the initialisation loop, `sfmt.py:284-287`. -/
def seedStep (a : Mem × BitVec 32) (i : Nat) : Mem × BitVec 32 :=
  let seed := 0x6C078965 * (a.2 ^^^ (a.2 >>> 30)) + BitVec.ofNat 32 i
  (a.1.set i seed, seed)

/-- `sfmt.py:290-294`: fold the bits of a word onto bit 0. -/
def parityFold (inner : BitVec 32) : BitVec 32 :=
  let i := inner ^^^ (inner >>> 16)
  let i := i ^^^ (i >>> 8)
  let i := i ^^^ (i >>> 4)
  let i := i ^^^ (i >>> 2)
  i ^^^ (i >>> 1)

/-- `sfmt.py:276-296` `re_init`. -/
def reInit (s : State) (seed : BitVec 32) : State :=
  let m := ((List.range' 1 623).foldl seedStep (s.state.set 0 seed, seed)).1
  let inner := parityFold ((seed &&& 1) ^^^ (m 3 &&& 0x13C9E684))
  { state := m.set 0 (m 0 ^^^ (~~~inner &&& 1)), index := 624 }

/-- `sfmt.py:270-274` `__init__`; `junk` is the uninitialised `np.empty` array. -/
def new (junk : Mem) (seed : BitVec 32) : State := reInit { state := junk, index := 624 } seed

/-- `sfmt.py:318-324` `shuffle`. The array part is the Python version or, under numba, the IR version; both are the
same function (`C19_ir_eq_python`), so the class model uses the Python one. -/
def shuffle (s : State) : State := { state := pyShuffle s.state, index := 0 }

/-- The loop `sfmt.py:302-304`. -/
def advanceLoop (s : State) (adv : Nat) : State × Nat :=
  if _h : 624 ≤ adv then advanceLoop (shuffle s) (adv - 624) else (s, adv)
termination_by adv
decreasing_by omega

/-- `sfmt.py:301`: 64-bit arithmetic under numba, 32-bit wrapping with numpy scalars. -/
def advTotal (mode : Mode) (adv : BitVec 32) (index : Nat) : Nat :=
  match mode with
  | .numba => adv.toNat * 2 + index
  | .numpy => (adv.toNat * 2 + index) % 2 ^ 32

/-- `sfmt.py:298-305` `advance`. -/
def advance (mode : Mode) (s : State) (adv : BitVec 32) : State :=
  let r := advanceLoop s (advTotal mode adv s.index)
  { r.1 with index := r.2 % 2 ^ 16 }

/-- `sfmt.py:307-316` `next`; both array accesses are checked. -/
def next (s : State) : State × Except PyErr (BitVec 64) :=
  let s' := if s.index = 624 then shuffle s else s
  if s'.index < 624 then
    let low := s'.state s'.index
    let index1 := (s'.index + 1) % 2 ^ 16
    if index1 < 624 then
      let high := s'.state index1
      ({ s' with index := (index1 + 1) % 2 ^ 16 }, .ok (low.setWidth 64 ||| (high.setWidth 64 <<< 32)))
    else ({ s' with index := index1 }, .error .indexError)
  else (s', .error .indexError)

/-- `sfmt.py:326-328` `next_rand`. -/
def nextRand (mode : Mode) (s : State) (maximum : BitVec 64) : State × Except PyErr (BitVec 64) :=
  let r := next s
  (r.1, r.2.bind fun y => pyMod mode y maximum)

end Verif.Sfmt
