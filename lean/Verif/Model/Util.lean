import Verif.Model.Basic
/-
Model of the integer helpers of numba_pokemon_prngs/util.py (lines 6-45, 60-71) and of fnv.py.
-/
namespace Verif.Util

/-- `util.py:6-13` `change_endian_u32`. `val` is a declared `uint32` local, so each assignment truncates. -/
def changeEndian (v : BitVec 32) : BitVec 32 :=
  let val := ((v <<< 8) &&& 0xFF00FF00) ||| ((v >>> 8) &&& 0xFF00FF)
  (val <<< 16) ||| (val >>> 16)

/-- Result of a shift whose amount may be out of range. LLVM's `shl`/`lshr` by the width or more is undefined
(`none`); numpy defines it as 0. `w'` is the width the operation is carried out in. -/
def shl (mode : Mode) (v : BitVec w) (c : Nat) : Option (BitVec w) :=
  if c < w then some (v <<< c) else match mode with | .numba => none | .numpy => some 0
/-- see `shl` -/
def shr (mode : Mode) (v : BitVec w) (c : Nat) : Option (BitVec w) :=
  if c < w then some (v >>> c) else match mode with | .numba => none | .numpy => some 0

/-- `a | b` of two possibly undefined values -/
def orOpt (a b : Option (BitVec w)) : Option (BitVec w) := match a, b with | some x, some y => some (x ||| y) | _, _ => none

/-- `width - count` on `np.uint8` operands: 64-bit under numba, 8-bit with numpy scalars; both wrap. -/
def subCount (mode : Mode) (width count : Nat) : Nat :=
  match mode with
  | .numba => (2 ^ 64 + width - count % 256) % 2 ^ 64
  | .numpy => (256 + width - count % 256) % 256

/-- `util.py:16-21` `rotate_left_u32`: the shifts are 64 bits wide under numba, 32 with numpy scalars. -/
def rotateLeft32 (mode : Mode) (val : BitVec 32) (count : Nat) : Option (BitVec 32) :=
  match mode with
  | .numba => (orOpt (shl .numba (val.setWidth 64) (count % 256)) (shr .numba (val.setWidth 64) (subCount .numba 32 count))).map
      (·.setWidth 32)
  | .numpy => orOpt (shl .numpy val (count % 256)) (shr .numpy val (subCount .numpy 32 count))

/-- `util.py:24-29` `rotate_right_u32` -/
def rotateRight32 (mode : Mode) (val : BitVec 32) (count : Nat) : Option (BitVec 32) :=
  match mode with
  | .numba => (orOpt (shl .numba (val.setWidth 64) (subCount .numba 32 count)) (shr .numba (val.setWidth 64) (count % 256))).map
      (·.setWidth 32)
  | .numpy => orOpt (shl .numpy val (subCount .numpy 32 count)) (shr .numpy val (count % 256))

/-- `util.py:32-37` `rotate_left_u64` -/
def rotateLeft64 (mode : Mode) (val : BitVec 64) (count : Nat) : Option (BitVec 64) :=
  orOpt (shl mode val (count % 256)) (shr mode val (subCount mode 64 count))

/-- `util.py:40-45` `rotate_right_u64` -/
def rotateRight64 (mode : Mode) (val : BitVec 64) (count : Nat) : Option (BitVec 64) :=
  orOpt (shl mode val (subCount mode 64 count)) (shr mode val (count % 256))

/-- One entry of `HEX_LOOKUP` (`util.py:60`): `f"{i:02X}"`, two upper-case digits. -/
def hexLookup (i : Nat) : List Char :=
  let digit (d : Nat) : Char := if d < 10 then Char.ofNat (48 + d) else Char.ofNat (55 + d)
  [digit (i / 16), digit (i % 16)]

/-- `util.py:63-71` `hex_32`; `num >> 24` needs no mask because `num` is 32 bits wide. -/
def hex32 (num : BitVec 32) : List Char :=
  hexLookup (num >>> 24).toNat ++ hexLookup ((num >>> 16) &&& 0xFF).toNat ++ hexLookup ((num >>> 8) &&& 0xFF).toNat ++
    hexLookup (num &&& 0xFF).toNat

/-- `fnv.py:9-16` `fnv1_64`; a string is the list of its code points. -/
def fnv1 (inp : List (BitVec 64)) : BitVec 64 :=
  inp.foldl (fun h c => (h * 0x00000100000001B3) ^^^ c) 0xCBF29CE484222645

/-- `fnv.py:19-26` `fnv1a_64`. -/
def fnv1a (inp : List (BitVec 64)) : BitVec 64 :=
  inp.foldl (fun h c => (h ^^^ c) * 0x00000100000001B3) 0xCBF29CE484222645

end Verif.Util
