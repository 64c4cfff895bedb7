/-
TinyMT32 as published (Saito and Matsumoto 2011) with the parameters mat1 = 8f7011ee, mat2 = fc78ff1f, tmat = 3793fdff.
-/
namespace Verif.Spec

/-- next state of (status[0], status[1], status[2], status[3]) -/
def tinyNext (s : BitVec 32 × BitVec 32 × BitVec 32 × BitVec 32) : BitVec 32 × BitVec 32 × BitVec 32 × BitVec 32 :=
  let (a, b, c, d) := s
  let x0 := (a &&& 0x7FFFFFFF) ^^^ b ^^^ c
  let x := x0 ^^^ (x0 <<< 1)
  let y := d ^^^ (d >>> 1) ^^^ x
  if y.getLsbD 0 then (b, c ^^^ 0x8F7011EE, x ^^^ (y <<< 10) ^^^ 0xFC78FF1F, y) else (b, c, x ^^^ (y <<< 10), y)

/-- 32-bit tempered output -/
def tinyTemper (s : BitVec 32 × BitVec 32 × BitVec 32 × BitVec 32) : BitVec 32 :=
  let (a, _, c, d) := s
  let t := a + (c >>> 8)
  if t.getLsbD 0 then d ^^^ t ^^^ 0x3793FDFF else d ^^^ t

/-- the words `y 0 = seed, y 1, ..., y 7` of the published `tinymt32_init`: `y i = b i ^ (i + 1812433253 * (y (i-1) ^ y (i-1) >> 30))`
where `b 1, b 2, b 3` are mat1, mat2, tmat and `b i = y (i - 4)` from 4 on -/
def tinyInitWord (seed : BitVec 32) : Nat → BitVec 32
  | 0 => seed
  | i + 1 =>
    let p := tinyInitWord seed i
    let b := match i with
      | 0 => 0x8F7011EE
      | 1 => 0xFC78FF1F
      | 2 => 0x3793FDFF
      | j + 3 => tinyInitWord seed j
    b ^^^ (BitVec.ofNat 32 (i + 1) + 1812433253#32 * (p ^^^ (p >>> 30)))

/-- published initialisation: the last four words (replaced by "TINY" if all 127 bits are zero), then 8 steps -/
def tinyInit (seed : BitVec 32) : BitVec 32 × BitVec 32 × BitVec 32 × BitVec 32 :=
  let w := tinyInitWord seed
  let s := if w 4 &&& 0x7FFFFFFF = 0 ∧ w 5 = 0 ∧ w 6 = 0 ∧ w 7 = 0 then (84, 73, 78, 89) else (w 4, w 5, w 6, w 7)
  Nat.repeat tinyNext 8 s

end Verif.Spec
