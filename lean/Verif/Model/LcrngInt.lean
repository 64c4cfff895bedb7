import Verif.Model.Lcrng
/-
`jump`, `const_jump` and `advance` of lcrng32.py / lcrng64.py for distances of either sign.

`Verif/Model/Lcrng.lean` takes the distance as a natural number. Nothing in the code rejects a negative one: a Python
integer has no sign restriction, and in compiled code an argument without an explicit type is an `int64`. `adv & 1` and
`adv >>= 1` of a negative integer are those of the infinite two's complement representation (`adv % 2` and `adv / 2` with
floor division), so `adv` tends to -1 and never becomes 0.
-/
namespace Verif.Lcrng

/-- `lcrng32.py:116-126` / `lcrng64.py:112-122` `jump`, the `while adv` loop, for an integer `adv`. -/
def jumpLoopInt (tbl : List (BitVec w × BitVec w)) (adv : Int) (i : Nat) (seed : BitVec w) :
    BitVec w × Except PyErr (BitVec w) :=
  if _h : adv = 0 then (seed, .ok seed)
  else if _h1 : adv % 2 = 1 then
    match _h2 : tbl[i]? with
    | none => (seed, .error .indexError)
    | some e => jumpLoopInt tbl (adv / 2) (i + 1) (seed * e.2 + e.1)
  else jumpLoopInt tbl (adv / 2) (i + 1) seed
termination_by (adv.natAbs, tbl.length - i)
decreasing_by
  · have hi : i < tbl.length := by
      rcases Nat.lt_or_ge i tbl.length with h | h
      · exact h
      · rw [List.getElem?_eq_none h] at _h2; cases _h2
    by_cases hm : adv = -1
    · subst hm
      exact Prod.Lex.right _ (by omega)
    · exact Prod.Lex.left _ _ (by omega)
  · exact Prod.Lex.left _ _ (by omega)

/-- `jump(adv)` for any Python integer `adv` (in compiled code: any `int64`). -/
def jumpInt (p : Params w) (adv : Int) (seed : BitVec w) : BitVec w × Except PyErr (BitVec w) :=
  jumpLoopInt (jumpTable p) adv 0 seed

/-- `lcrng32.py:128-138` / `lcrng64.py:124-134` `const_jump`, the loop, for an integer `adv`. -/
def constJumpLoopInt (tbl : List (BitVec w × BitVec w)) (adv : Int) (i : Nat) (mult add : BitVec w) :
    Except PyErr (BitVec w × BitVec w) :=
  if _h : adv = 0 then .ok (mult, add)
  else
    match _h2 : tbl[i]? with
    | none => .error .indexError
    | some e =>
      if adv % 2 = 1 then constJumpLoopInt tbl (adv / 2) (i + 1) (mult * e.2) (add * e.2 + e.1)
      else constJumpLoopInt tbl (adv / 2) (i + 1) mult add
termination_by (adv.natAbs, tbl.length - i)
decreasing_by
  all_goals
    have hi : i < tbl.length := by
      rcases Nat.lt_or_ge i tbl.length with h | h
      · exact h
      · rw [List.getElem?_eq_none h] at _h2; cases _h2
    by_cases hm : adv = -1
    · subst hm
      exact Prod.Lex.right _ (by omega)
    · exact Prod.Lex.left _ _ (by omega)

/-- `const_jump(adv)` for any Python integer (`lcrng32.py:128-147` / `lcrng64.py:124-143`). -/
def constJumpInt (p : Params w) (adv : Int) : Except PyErr (BitVec w → BitVec w) :=
  match constJumpLoopInt (jumpTable p) adv 0 1 0 with
  | .error e => .error e
  | .ok (mult, add) => .ok fun seed => seed * mult + add

/-- `lcrng32.py:51-56` / `lcrng64.py:47-52` `advance`; line 53 (49) reduces the distance to `w` bits, also when it is
negative. Distances outside the C integer range, which `np.uint32`/`np.uint64` refuse with `OverflowError`, are not
modelled. -/
def advanceInt (p : Params w) (adv : Int) (seed : BitVec w) : BitVec w :=
  advanceLoop p (BitVec.ofInt w adv).toNat seed

end Verif.Lcrng
