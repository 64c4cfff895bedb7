import Verif.Model.Basic
import Verif.Model.Mem
import Verif.Model.Util
import Verif.Model.Lcrng
/-
Model of numba_pokemon_prngs/sha1.py.

32-bit sums are formed with 64-bit intermediates under numba and truncated on return (declared `uint32` tuples, `t_val` local),
and wrap at 32 bits with numpy scalars; addition, `&`, `|`, `^`, `~` commute with truncation, so 32-bit arithmetic is used.
Rotations go through the model of util.py (counts 1, 2, 5: always defined).
-/
namespace Verif.Sha1
open Verif.Util (changeEndian)

/-- call of `rotate_left_u32` -/
def rotl (mode : Mode) (v : BitVec 32) (c : Nat) : BitVec 32 := (Util.rotateLeft32 mode v c).getD 0
/-- call of `rotate_right_u32` -/
def rotr (mode : Mode) (v : BitVec 32) (c : Nat) : BitVec 32 := (Util.rotateRight32 mode v c).getD 0

/-- the five nazo words -/
structure Nazo where
  n0 : BitVec 32
  n1 : BitVec 32
  n2 : BitVec 32
  n3 : BitVec 32
  n4 : BitVec 32
deriving DecidableEq

/-- `sha1.py:19-30` `compute_nazo_bw` -/
def nazoBw (n : BitVec 32) : Nazo :=
  let x := changeEndian (n + 0xFC)
  let y := changeEndian (n + 0xFC + 0x4C)
  { n0 := changeEndian n, n1 := x, n2 := x, n3 := y, n4 := y }

/-- `sha1.py:33-47` `compute_nazo_bw2` -/
def nazoBw2 (n n0 n1 : BitVec 32) : Nazo :=
  let y := changeEndian (n + 0x54)
  { n0 := changeEndian n0, n1 := changeEndian n1, n2 := changeEndian n, n3 := y, n4 := y }

/-- `enums/language.py` -/
inductive Language where | english | french | german | italian | japanese | korean | spanish
deriving DecidableEq

/-- `enums/ds_type.py` -/
inductive DSType where | ds | dsi | ds3
deriving DecidableEq

/-- The versions of `enums/game.py` distinguished by `get_nazo`; all others behave alike. -/
inductive Version where | black | white | black2 | white2 | other
deriving DecidableEq

/-- `sha1.py:50-111` (the constants) and `sha1.py:118-188` `get_nazo` -/
def getNazo (version : Version) (language : Language) (dsType : DSType) : Nazo :=
  let ds : Bool := dsType = .ds
  match language, version with
  | .english, .black => if ds then nazoBw 0x022160B0 else nazoBw 0x02760190
  | .english, .white => if ds then nazoBw 0x022160D0 else nazoBw 0x027601B0
  | .english, .black2 => if ds then nazoBw2 0x02200010 0x0209AEE8 0x02039DE9 else nazoBw2 0x027A5F70 0x0209AEE8 0x02039DE9
  | .english, .white2 => if ds then nazoBw2 0x02200050 0x0209AF28 0x02039E15 else nazoBw2 0x027A5E90 0x0209AF28 0x02039E15
  | .japanese, .black => if ds then nazoBw 0x02215F10 else nazoBw 0x02761150
  | .japanese, .white => if ds then nazoBw 0x02215F30 else nazoBw 0x02761150
  | .japanese, .black2 => if ds then nazoBw2 0x021FF9B0 0x0209A8DC 0x02039AC9 else nazoBw2 0x027AA730 0x0209A8DC 0x02039AC9
  | .japanese, .white2 => if ds then nazoBw2 0x021FF9D0 0x0209A8FC 0x02039AF5 else nazoBw2 0x027AA5F0 0x0209A8FC 0x02039AF5
  | .german, .black => if ds then nazoBw 0x02215FF0 else nazoBw 0x027602F0
  | .german, .white => if ds then nazoBw 0x02216010 else nazoBw 0x027602F0
  | .german, .black2 => if ds then nazoBw2 0x021FFF50 0x0209AE28 0x02039D69 else nazoBw2 0x027A6110 0x0209AE28 0x02039D69
  | .german, .white2 => if ds then nazoBw2 0x021FFF70 0x0209AE48 0x02039D95 else nazoBw2 0x027A6010 0x0209AE48 0x02039D95
  | .spanish, .black => if ds then nazoBw 0x02216070 else nazoBw 0x027601F0
  | .spanish, .white => if ds then nazoBw 0x02216070 else nazoBw 0x027601F0
  | .spanish, .black2 => if ds then nazoBw2 0x021FFFD0 0x0209AEA8 0x02039DB9 else nazoBw2 0x027A6070 0x0209AEA8 0x02039DB9
  | .spanish, .white2 => if ds then nazoBw2 0x021FFFF0 0x0209AEC8 0x02039DE5 else nazoBw2 0x027A5FB0 0x0209AEC8 0x02039DE5
  | .french, .black => if ds then nazoBw 0x02216030 else nazoBw 0x02760230
  | .french, .white => if ds then nazoBw 0x02216050 else nazoBw 0x02760250
  | .french, .black2 => if ds then nazoBw2 0x02200030 0x0209AF08 0x02039DF9 else nazoBw2 0x027A5F90 0x0209AF08 0x02039DF9
  | .french, .white2 => if ds then nazoBw2 0x02200050 0x0209AF28 0x02039E25 else nazoBw2 0x027A5EF0 0x0209AF28 0x02039E25
  | .italian, .black => if ds then nazoBw 0x02215FB0 else nazoBw 0x027601D0
  | .italian, .white => if ds then nazoBw 0x02215FD0 else nazoBw 0x027601D0
  | .italian, .black2 => if ds then nazoBw2 0x021FFF10 0x0209ADE8 0x02039D69 else nazoBw2 0x027A5F70 0x0209ADE8 0x02039D69
  | .italian, .white2 => if ds then nazoBw2 0x021FFF50 0x0209AE28 0x02039D95 else nazoBw2 0x027A5ED0 0x0209AE28 0x02039D95
  | .korean, .black => if ds then nazoBw 0x022167B0 else nazoBw 0x02761150
  | .korean, .white => if ds then nazoBw 0x022167B0 else nazoBw 0x02761150
  | .korean, .black2 => if ds then nazoBw2 0x02200750 0x0209B60C 0x0203A4D5 else nazoBw2 0x02200770 0x0209B60C 0x0203A4D5
  | .korean, .white2 => if ds then nazoBw2 0x02200770 0x0209B62C 0x0203A501 else nazoBw2 0x027A57B0 0x0209B62C 0x0203A501
  | _, .other => { n0 := 0, n1 := 0, n2 := 0, n3 := 0, n4 := 0 }

/-- `BCD[i]` (`sha1.py:195-198`); an index outside 0..99 raises `IndexError` (unchecked memory access under numba). -/
def bcd (i : Nat) : Except PyErr (BitVec 32) :=
  if i < 100 then .ok (BitVec.ofNat 32 ((i / 10) <<< 4 ||| i % 10)) else .error .indexError

/-- `sha1.py:217-234` `section1_calc` -/
def section1 (mode : Mode) (a b c d e input : BitVec 32) : BitVec 32 × BitVec 32 :=
  (rotl mode a 5 + ((b &&& c) ||| (~~~b &&& d)) + e + 0x5A827999 + input, rotr mode b 2)

/-- `sha1.py:252-269` `section2_calc` -/
def section2 (mode : Mode) (a b c d e input : BitVec 32) : BitVec 32 × BitVec 32 :=
  (rotl mode a 5 + (b ^^^ c ^^^ d) + e + 0x6ED9EBA1 + input, rotr mode b 2)

/-- `sha1.py:287-304` `section3_calc` -/
def section3 (mode : Mode) (a b c d e input : BitVec 32) : BitVec 32 × BitVec 32 :=
  (rotl mode a 5 + ((b &&& c) ||| ((b ||| c) &&& d)) + e + 0x8F1BBCDC + input, rotr mode b 2)

/-- `sha1.py:322-339` `section4_calc` -/
def section4 (mode : Mode) (a b c d e input : BitVec 32) : BitVec 32 × BitVec 32 :=
  (rotl mode a 5 + (b ^^^ c ^^^ d) + e + 0xCA62C1D6 + input, rotr mode b 2)

/-- the local variables `a_val` .. `e_val`, `t_val` -/
structure Regs where
  a : BitVec 32
  b : BitVec 32
  c : BitVec 32
  d : BitVec 32
  e : BitVec 32
  t : BitVec 32

/-- which of the four section functions a line calls -/
inductive Sec where | s1 | s2 | s3 | s4
deriving DecidableEq

/-- call of a section function -/
def Sec.calc (s : Sec) (mode : Mode) : BitVec 32 → BitVec 32 → BitVec 32 → BitVec 32 → BitVec 32 → BitVec 32 →
    BitVec 32 × BitVec 32 :=
  match s with | .s1 => section1 mode | .s2 => section2 mode | .s3 => section3 mode | .s4 => section4 mode

/-- The six forms of the 80 calculation lines, named by the variables assigned. Every line of `sha1.py:405-478` and
`499-507` has one of these forms; the arguments are determined by the form. -/
inductive Line where
  | tb | ea | dt | ce | bd | ac
deriving DecidableEq

/-- effect of one calculation line, e.g. `tb`: `t_val, b_val = section_calc(a_val, b_val, c_val, d_val, e_val, input)` -/
def Line.exec (l : Line) (mode : Mode) (s : Sec) (input : BitVec 32) (r : Regs) : Regs :=
  match l with
  | .tb => let q := s.calc mode r.a r.b r.c r.d r.e input; { r with t := q.1, b := q.2 }
  | .ea => let q := s.calc mode r.t r.a r.b r.c r.d input; { r with e := q.1, a := q.2 }
  | .dt => let q := s.calc mode r.e r.t r.a r.b r.c input; { r with d := q.1, t := q.2 }
  | .ce => let q := s.calc mode r.d r.e r.t r.a r.b input; { r with c := q.1, e := q.2 }
  | .bd => let q := s.calc mode r.c r.d r.e r.t r.a input; { r with b := q.1, d := q.2 }
  | .ac => let q := s.calc mode r.b r.c r.d r.e r.t input; { r with a := q.1, c := q.2 }

/-- a sequence of calculation lines: form, section, index into `data` -/
def exec (mode : Mode) (data : Mem) (prog : List (Line × Sec × Nat)) (r : Regs) : Regs :=
  prog.foldl (fun r l => l.1.exec mode l.2.1 (data l.2.2) r) r

/-- the lines `sha1.py:499-507` -/
def precomputeLines : List (Line × Sec × Nat) :=
  [(.tb, .s1, 0), (.ea, .s1, 1), (.dt, .s1, 2), (.ce, .s1, 3), (.bd, .s1, 4), (.ac, .s1, 5), (.tb, .s1, 6), (.ea,
   .s1, 7), (.dt, .s1, 8)]

/-- the lines `sha1.py:405-478` -/
def hashLines : List (Line × Sec × Nat) :=
  [(.tb, .s1, 9), (.ea, .s1, 10), (.dt, .s1, 11), (.ce, .s1, 12), (.bd, .s1, 13), (.ac, .s1, 14), (.tb, .s1, 15),
   (.ea, .s1, 16), (.dt, .s1, 17), (.ce, .s1, 18), (.bd, .s1, 19), (.ac, .s2, 20), (.tb, .s2, 21), (.ea, .s2,
   22), (.dt, .s2, 23), (.ce, .s2, 24), (.bd, .s2, 25), (.ac, .s2, 26), (.tb, .s2, 27), (.ea, .s2, 28), (.dt,
   .s2, 29), (.ce, .s2, 30), (.bd, .s2, 31), (.ac, .s2, 32), (.tb, .s2, 33), (.ea, .s2, 34), (.dt, .s2, 35),
   (.ce, .s2, 36), (.bd, .s2, 37), (.ac, .s2, 38), (.tb, .s2, 39), (.ea, .s3, 40), (.dt, .s3, 41), (.ce, .s3,
   42), (.bd, .s3, 43), (.ac, .s3, 44), (.tb, .s3, 45), (.ea, .s3, 46), (.dt, .s3, 47), (.ce, .s3, 48), (.bd,
   .s3, 49), (.ac, .s3, 50), (.tb, .s3, 51), (.ea, .s3, 52), (.dt, .s3, 53), (.ce, .s3, 54), (.bd, .s3, 55),
   (.ac, .s3, 56), (.tb, .s3, 57), (.ea, .s3, 58), (.dt, .s3, 59), (.ce, .s4, 60), (.bd, .s4, 61), (.ac, .s4,
   62), (.tb, .s4, 63), (.ea, .s4, 64), (.dt, .s4, 65), (.ce, .s4, 66), (.bd, .s4, 67), (.ac, .s4, 68), (.tb,
   .s4, 69), (.ea, .s4, 70), (.dt, .s4, 71), (.ce, .s4, 72), (.bd, .s4, 73), (.ac, .s4, 74), (.tb, .s4, 75),
   (.ea, .s4, 76), (.dt, .s4, 77), (.ce, .s4, 78), (.bd, .s4, 79)]

/-- the object: `data` (80 words) and `ds_type` (`sha1.py:346-347`) -/
structure Obj where
  data : Mem
  dsType : DSType

/-- `sha1.py:566-577` `calc_w` -/
def calcW (mode : Mode) (data : Mem) (i : Nat) : Mem :=
  data.set i (rotl mode (data (i - 3) ^^^ data (i - 8) ^^^ data (i - 14) ^^^ data (i - 16)) 1)

/-- `sha1.py:579-590` `calc_w_simd` -/
def calcWSimd (mode : Mode) (data : Mem) (i : Nat) : Mem :=
  data.set i (rotl mode (data (i - 6) ^^^ data (i - 16) ^^^ data (i - 28) ^^^ data (i - 32)) 2)

/-- `sha1.py:349-384` `__init__`; `junk` is the uninitialised `np.empty(80)` array -/
def new (mode : Mode) (junk : Mem) (version : Version) (language : Language) (dsType : DSType) (mac : BitVec 64)
    (softReset : Bool) (vFrame gxState : BitVec 8) : Obj :=
  let n := getNazo version language dsType
  let d := ((((junk.set 0 n.n0).set 1 n.n1).set 2 n.n2).set 3 n.n3).set 4 n.n4
  let d := d.set 6 ((mac &&& 0xFFFF).setWidth 32)
  let d := if softReset then d.set 6 (d 6 ^^^ 0x1000000) else d
  let d := d.set 7 ((mac >>> 16).setWidth 32 ^^^ (vFrame.setWidth 32 <<< 24) ^^^ gxState.setWidth 32)
  let d := ((((d.set 10 0).set 11 0).set 13 0x80000000).set 14 0).set 15 0x1A0
  let d := d.set 18 (rotl mode (d 15 ^^^ d 10 ^^^ d 4 ^^^ d 2) 1)
  { data := d, dsType := dsType }

/-- the array `alpha` -/
structure Alpha where
  v0 : BitVec 32
  v1 : BitVec 32
  v2 : BitVec 32
  v3 : BitVec 32
  v4 : BitVec 32

/-- `sha1.py:489-525` `precompute` (`t_val` is unassigned before line 499; any value) -/
def precompute (mode : Mode) (o : Obj) : Obj × Alpha :=
  let r : Regs := { a := 0x67452301, b := 0xEFCDAB89, c := 0x98BADCFE, d := 0x10325476, e := 0xC3D2E1F0, t := 0 }
  let r := exec mode o.data precomputeLines r
  let data := [16, 19, 21, 22, 24, 27, 30].foldl (calcW mode) o.data
  ({ o with data := data }, { v0 := r.d, v1 := r.e, v2 := r.t, v3 := r.a, v4 := r.b })

/-- `sha1.py:386-487` `hash_seed` -/
def hashSeed (mode : Mode) (o : Obj) (alpha : Alpha) : Obj × BitVec 64 :=
  let data := [17, 20, 23, 25, 26, 28, 29, 31].foldl (calcW mode) o.data
  let data := (List.range' 32 48).foldl (calcWSimd mode) data
  let r : Regs := { a := alpha.v0, b := alpha.v1, c := alpha.v2, d := alpha.v3, e := alpha.v4, t := 0 }
  let r := exec mode data hashLines r
  let part1 := changeEndian (r.b + 0x67452301)
  let part2 := changeEndian (r.c + 0xEFCDAB89)
  let seed : BitVec 64 := (part2.setWidth 64 <<< 32) ||| part1.setWidth 64
  ({ o with data := data }, Lcrng.next Lcrng.bwrngParams seed)

/-- `sha1.py:527-530` `set_button` -/
def setButton (o : Obj) (button : BitVec 32) : Obj := { o with data := o.data.set 12 button }

/-- `sha1.py:532-544` `set_date`; `year` before 2000 or after 2099 is an index error (see `bcd`) -/
def setDate (o : Obj) (year : BitVec 16) (month day dayOfWeek : BitVec 8) : Except PyErr Obj := do
  let y ← bcd (year - 2000).toNat
  let m ← bcd month.toNat
  let d ← bcd day.toNat
  .ok { o with data := o.data.set 8 ((y <<< 24) ||| (m <<< 16) ||| (d <<< 8) ||| dayOfWeek.setWidth 32) }

/-- `sha1.py:546-550` `set_timer0` -/
def setTimer0 (o : Obj) (timer0 : BitVec 32) (vcount : BitVec 8) : Obj :=
  { o with data := o.data.set 5 (changeEndian ((vcount.setWidth 32 <<< 16) ||| timer0)) }

/-- `sha1.py:552-564` `set_time` -/
def setTime (o : Obj) (hour minute second : BitVec 8) : Except PyErr Obj := do
  let h ← bcd hour.toNat
  let m ← bcd minute.toNat
  let s ← bcd second.toNat
  let h := (h + if hour ≥ 12 ∧ o.dsType ≠ .ds3 then 0x40 else 0) <<< 24
  .ok { o with data := o.data.set 9 (h ||| (m <<< 16) ||| (s <<< 8)) }

end Verif.Sha1
