import Verif.Model.Basic
/-
Model of numba_pokemon_prngs/rng_list.py. The generator is an arbitrary state machine `next : G → G × BitVec v`
(`next_function`); `w` is the width of the unsigned type `state_type` of the list. Without numba, sizes above `2 ^ 32` are not
modelled (there numpy's integer types depend on the values).
-/
namespace Verif.RngList

/-- `rng_list.py:41-43`: the assertion of `build_rnglist` (Python integers; `size - 1` is -1 for 0, excluded first) -/
def sizeOk (size : Nat) : Bool := size != 0 && (size &&& (size - 1)) == 0

/-- `rng_list.py:36-101`: `build_rnglist`, and the compilation of the class when the first object is made. Under numba the field
`list` is declared as an array of `np.uint32` (line 55), so that `self.list = np.empty(size, dtype=state_type)` (line 66) does
not compile for another type. -/
def build (mode : Mode) (w size : Nat) : Except PyErr Unit :=
  if sizeOk size then
    match mode with
    | .numba => if w = 32 then .ok () else .error .other
    | .numpy => .ok ()
  else .error .assertion

/-- contents of the array `list`: words of `w` bits -/
structure Cells (w : Nat) where
  get : Nat → BitVec w

instance : CoeFun (Cells w) (fun _ => Nat → BitVec w) := ⟨Cells.get⟩

/-- `a[i] = x` for a value `x` of `v` bits: numba and numpy convert it to the type of the array -/
def Cells.set (m : Cells w) (i : Nat) (x : BitVec v) : Cells w := ⟨fun j => if j = i then x.setWidth w else m j⟩

/-- fields of `SpecificRNGList` (`rng_list.py:53-60`) -/
structure State (w : Nat) (G : Type) where
  rng : G
  list : Cells w
  head : Nat
  pointer : Nat

/-- a store into the `np.uint16` fields `head`/`pointer` (`rng_list.py:57-58`): truncated under numba, a plain Python integer
without numba -/
def store (mode : Mode) (v : Nat) : Nat := match mode with | .numba => v % 2 ^ 16 | .numpy => v

variable {G : Type}

/-- the loop `rng_list.py:75-76`, from index `i` for `n` rounds -/
def fill (next : G → G × BitVec v) : Nat → Nat → G → Cells w → G × Cells w
  | 0, _, g, m => (g, m)
  | n + 1, i, g, m => fill next n (i + 1) (next g).1 (m.set i (next g).2)

/-- `rng_list.py:71-76` `re_init` -/
def reInit (next : G → G × BitVec v) (size : Nat) (s : State w G) : State w G :=
  let r := fill next size 0 s.rng s.list
  { rng := r.1, list := r.2, head := 0, pointer := 0 }

/-- `rng_list.py:64-69` `__init__`; `junk` is the uninitialised `np.empty` list -/
def new (next : G → G × BitVec v) (size : Nat) (junk : Cells w) (rng : G) : State w G :=
  reInit next size { rng := rng, list := junk, head := 0, pointer := 0 }

/-- `rng_list.py:84-89` `advance_state` -/
def advanceState (mode : Mode) (next : G → G × BitVec v) (size : Nat) (s : State w G) : State w G :=
  let r := next s.rng
  let head := store mode ((s.head + 1) &&& (size - 1))
  { rng := r.1, list := s.list.set s.head r.2, head := head, pointer := store mode head }

/-- `rng_list.py:78-82` `advance_states`, the argument after line 80 -/
def advanceStates (mode : Mode) (next : G → G × BitVec v) (size : Nat) : Nat → State w G → State w G
  | 0, s => s
  | n + 1, s => advanceStates mode next size n (advanceState mode next size s)

/-- `rng_list.py:91-94` `advance`; the sum is a `uint64` under numba, an `int64` without numba, and does not overflow -/
def advance (mode : Mode) (size : Nat) (adv : BitVec 32) (s : State w G) : State w G :=
  { s with pointer := store mode ((s.pointer + adv.toNat) &&& (size - 1)) }

/-- `rng_list.py:96-101` `get_value`: new state and value. Both statements on lines 99 and 100 store into the field. -/
def getValue (mode : Mode) (size : Nat) (s : State w G) : State w G × BitVec w :=
  ({ s with pointer := store mode (store mode (s.pointer + 1) &&& (size - 1)) }, s.list s.pointer)

end Verif.RngList
