import Verif.Model.Basic
import Verif.Model.Compat
/-
Model of numba_pokemon_prngs/lcrng/lcrng32.py, lcrng64.py and lcrng/__init__.py.

lcrng32.py and lcrng64.py are the same code with 32 replaced by 64 (and different distributions), so the common part is
modelled once, parametrically in the width `w`; `w = 32` is lcrng32.py and `w = 64` is lcrng64.py. A generator object is
its `seed` field. Methods that mutate `self.seed` return the new seed together with the Python result.
-/
namespace Verif.Lcrng

/-- Class constants: the values of `add` and `mult` after lines 89-94 (85-90) of `lcrng32_init` (`lcrng64_init`). -/
structure Params (w : Nat) where
  add : BitVec w
  mult : BitVec w
  deriving DecidableEq, Repr

/-- `lcrng32.py:89-94` / `lcrng64.py:85-90`: constants of a class built with `reverse=False` or `reverse=True`. -/
def init (add mult : BitVec w) (reverse : Bool) : Except PyErr (Params w) :=
  if reverse then
    match Compat.modInv mult.toNat (2 ^ w) with
    | .error e => .error e
    | .ok m =>
      let mult' := BitVec.ofInt w m
      .ok { add := -add * mult', mult := mult' }
  else .ok { add := add, mult := mult }

/-- One entry of the jump table from the previous one, `lcrng32.py:98-106` / `lcrng64.py:94-102`. -/
def tableStep (e : BitVec w × BitVec w) : BitVec w × BitVec w :=
  (e.1 * (e.2 + 1), e.2 * e.2)

/-- `lcrng32.py:96-107` / `lcrng64.py:92-103`: the table after `k` iterations of the building loop. -/
def tableLoop (p : Params w) : Nat → List (BitVec w × BitVec w)
  | 0 => [(p.add, p.mult)]
  | i + 1 =>
    let t := tableLoop p i
    t ++ [tableStep (t.getD i (0, 0))]

/-- `jump_table`: 31 iterations for `w = 32`, 63 for `w = 64`. -/
def jumpTable (p : Params w) : List (BitVec w × BitVec w) := tableLoop p (w - 1)

/-- `lcrng32.py:110-114` / `lcrng64.py:106-110` `next_`: the new seed, which is also the returned value. -/
def next (p : Params w) (seed : BitVec w) : BitVec w := seed * p.mult + p.add

/-- `lcrng32.py:32-37` / `lcrng64.py:28-33` `__init__` and `re_init` (the previous seed is discarded). -/
def reInit (_old seed : BitVec w) : BitVec w := seed

/-- The loop `for _ in range(adv): self.next()` of `advance`. -/
def advanceLoop (p : Params w) : (adv : Nat) → (seed : BitVec w) → BitVec w
  | 0, seed => seed
  | n + 1, seed => advanceLoop p n (next p seed)

/-- `lcrng32.py:51-56` / `lcrng64.py:47-52` `advance`; line 53 (49) truncates the distance to `w` bits. The new seed is
also the returned value. -/
def advance (p : Params w) (adv : Nat) (seed : BitVec w) : BitVec w :=
  advanceLoop p (BitVec.ofNat w adv).toNat seed

/-- `lcrng32.py:116-126` / `lcrng64.py:112-122` `jump`, the `while adv` loop with its counter `i`. The new seed is
returned next to the Python result, because an out-of-range table index raises after earlier updates of the seed. -/
def jumpLoop (tbl : List (BitVec w × BitVec w)) (adv i : Nat) (seed : BitVec w) :
    BitVec w × Except PyErr (BitVec w) :=
  if _h : adv = 0 then (seed, .ok seed)
  else if adv % 2 = 1 then
    match tbl[i]? with
    | none => (seed, .error .indexError)
    | some e => jumpLoop tbl (adv / 2) (i + 1) (seed * e.2 + e.1)
  else jumpLoop tbl (adv / 2) (i + 1) seed
termination_by adv

/-- `jump(adv)` for a non-negative Python integer `adv`. -/
def jump (p : Params w) (adv : Nat) (seed : BitVec w) : BitVec w × Except PyErr (BitVec w) :=
  jumpLoop (jumpTable p) adv 0 seed

/-- `lcrng32.py:128-138` / `lcrng64.py:124-134` `const_jump`: the loop computing the constants `(mult, add)`.
Unlike `jump` it reads the table in every iteration. -/
def constJumpLoop (tbl : List (BitVec w × BitVec w)) (adv i : Nat) (mult add : BitVec w) :
    Except PyErr (BitVec w × BitVec w) :=
  if _h : adv = 0 then .ok (mult, add)
  else
    match tbl[i]? with
    | none => .error .indexError
    | some e =>
      if adv % 2 = 1 then constJumpLoop tbl (adv / 2) (i + 1) (mult * e.2) (add * e.2 + e.1)
      else constJumpLoop tbl (adv / 2) (i + 1) mult add
termination_by adv

/-- `const_jump(adv)`: the compiled function (`lcrng32.py:140-147` / `lcrng64.py:136-143`), or the exception raised
while building it. -/
def constJump (p : Params w) (adv : Nat) : Except PyErr (BitVec w → BitVec w) :=
  match constJumpLoop (jumpTable p) adv 0 1 0 with
  | .error e => .error e
  | .ok (mult, add) => .ok fun seed => seed * mult + add

/-! ### 32-bit distributions -/

/-- `lcrng32.py:11-22` `LCRNG32RandomDistribution`. -/
inductive Dist32 where | none | modulo | reciprocalDivision
  deriving DecidableEq, Repr

/-- `lcrng32.py:58-60` `next_u16`: new seed and 16-bit value. -/
def nextU16 (p : Params 32) (seed : BitVec 32) : BitVec 32 × BitVec 16 :=
  let s := next p seed
  (s, (s >>> 16).setWidth 16)

/-- `lcrng32.py:151-152, 165-168, 183-184` `next_rand`. In the MODULO and RECIPROCAL_DIVISION branches the draw is
evaluated (and the seed advanced) before the division; `np.uint16(...)` of the divisor truncates to 16 bits. With no
distribution the method raises immediately. -/
def nextRand32 (m : Mode) (p : Params 32) (d : Dist32) (maximum : BitVec 16) (seed : BitVec 32) :
    BitVec 32 × Except PyErr (BitVec 16) :=
  match d with
  | .none => (seed, .error .notImplemented)
  | .modulo =>
    let r := nextU16 p seed
    (r.1, pyMod m r.2 maximum)
  | .reciprocalDivision =>
    let r := nextU16 p seed
    (r.1, match pyDiv m 0xFFFF#16 maximum with
          | .error e => .error e
          | .ok q => pyDiv m r.2 (q + 1))

/-- `lcrng32.py:154-161, 170-179, 186-189` `const_rand(maximum)`: a new function object per call; with no distribution
building the function raises. -/
def constRand32 (m : Mode) (d : Dist32) (maximum : BitVec 16) :
    Except PyErr (Params 32 → BitVec 32 → BitVec 32 × Except PyErr (BitVec 16)) :=
  match d with
  | .none => .error .notImplemented
  | .modulo => .ok fun self seed =>
      let r := nextU16 self seed
      (r.1, pyMod m r.2 maximum)
  | .reciprocalDivision => .ok fun self seed =>
      let r := nextU16 self seed
      (r.1, match pyDiv m 0xFFFF#16 maximum with
            | .error e => .error e
            | .ok q => pyDiv m r.2 (q + 1))

/-! ### 64-bit distribution -/

/-- `lcrng64.py:11-19` `LCRNG64RandomDistribution`. -/
inductive Dist64 where | none | multiplicationShift
  deriving DecidableEq, Repr

/-- `lcrng64.py:54-56` `next_u32`. -/
def nextU32 (p : Params 64) (seed : BitVec 64) : BitVec 64 × BitVec 32 :=
  let s := next p seed
  (s, (s >>> 32).setWidth 32)

/-- `(np.uint64(x) * np.uint64(maximum)) >> np.uint64(32)` truncated to 32 bits; `lcrng64.py:148-150`,
`mt.py:86`, `tinymt.py:87`. -/
def mulShift (u maximum : BitVec 32) : BitVec 32 :=
  ((u.setWidth 64 * maximum.setWidth 64) >>> 32).setWidth 32

/-- `lcrng64.py:147-150, 166-167` `next_rand`. -/
def nextRand64 (p : Params 64) (d : Dist64) (maximum : BitVec 32) (seed : BitVec 64) :
    BitVec 64 × Except PyErr (BitVec 32) :=
  match d with
  | .none => (seed, .error .notImplemented)
  | .multiplicationShift =>
    let r := nextU32 p seed
    (r.1, .ok (mulShift r.2 maximum))

/-- `lcrng64.py:152-162, 169-172` `const_rand(maximum)`. -/
def constRand64 (d : Dist64) (maximum : BitVec 32) :
    Except PyErr (Params 64 → BitVec 64 → BitVec 64 × Except PyErr (BitVec 32)) :=
  match d with
  | .none => .error .notImplemented
  | .multiplicationShift => .ok fun self seed =>
      let r := nextU32 self seed
      (r.1, .ok (mulShift r.2 maximum))

/-! ### Shipped classes, `lcrng/__init__.py` -/

/-- A shipped class: arguments of its decorator (the distribution is kept separately). -/
structure ClassDecl (w : Nat) where
  add : BitVec w
  mult : BitVec w
  reverse : Bool

/-- `lcrng/__init__.py:16-29` PokeRNGMod / PokeRNGDiv. -/
def pokeRNG : ClassDecl 32 := { add := 0x6073, mult := 0x41C64E6D, reverse := false }
/-- `lcrng/__init__.py:32-49` PokeRNGRMod / PokeRNGRDiv. -/
def pokeRNGR : ClassDecl 32 := { add := 0x6073, mult := 0x41C64E6D, reverse := true }
/-- `lcrng/__init__.py:52-57` ARNG. -/
def arng : ClassDecl 32 := { add := 0x1, mult := 0x6C078965, reverse := false }
/-- `lcrng/__init__.py:60-66` ARNGR. -/
def arngR : ClassDecl 32 := { add := 0x1, mult := 0x6C078965, reverse := true }
/-- `lcrng/__init__.py:69-75` XDRNG. -/
def xdrng : ClassDecl 32 := { add := 0x269EC3, mult := 0x343FD, reverse := false }
/-- `lcrng/__init__.py:78-85` XDRNGR. -/
def xdrngR : ClassDecl 32 := { add := 0x269EC3, mult := 0x343FD, reverse := true }
/-- `lcrng/__init__.py:88-94` BWRNG. -/
def bwrng : ClassDecl 64 := { add := 0x269EC3, mult := 0x5D588B656C078965, reverse := false }
/-- `lcrng/__init__.py:97-104` BWRNGR. -/
def bwrngR : ClassDecl 64 := { add := 0x269EC3, mult := 0x5D588B656C078965, reverse := true }

/-- Constants of a shipped class. -/
def ClassDecl.params (c : ClassDecl w) : Except PyErr (Params w) := init c.add c.mult c.reverse

/-- Distribution of each shipped 32-bit class, `lcrng/__init__.py:17-82`. -/
def distOf : List (String × ClassDecl 32 × Dist32) :=
  [("PokeRNGMod", pokeRNG, .modulo), ("PokeRNGDiv", pokeRNG, .reciprocalDivision),
   ("PokeRNGRMod", pokeRNGR, .modulo), ("PokeRNGRDiv", pokeRNGR, .reciprocalDivision),
   ("ARNG", arng, .none), ("ARNGR", arngR, .none),
   ("XDRNG", xdrng, .modulo), ("XDRNGR", xdrngR, .modulo)]

/-- Distribution of each shipped 64-bit class, `lcrng/__init__.py:88-104`. -/
def distOf64 : List (String × ClassDecl 64 × Dist64) :=
  [("BWRNG", bwrng, .multiplicationShift), ("BWRNGR", bwrngR, .multiplicationShift)]

/-- Constants used by clients of PokeRNGMod (`wild_generator_3.py`, `encounter_area_3.py`). -/
def pokeRNGParams : Params 32 := { add := 0x6073, mult := 0x41C64E6D }
/-- Constants used by `sha1.py:487` (BWRNG). -/
def bwrngParams : Params 64 := { add := 0x269EC3, mult := 0x5D588B656C078965 }

end Verif.Lcrng
