/-
Shared vocabulary of the model: the exceptions the Python code can raise, as values.
-/
namespace Verif

/-- Python exceptions (as values) that the modelled code can raise. -/
inductive PyErr where
  | valueError
  | indexError
  | keyError
  | zeroDivision
  | notImplemented
  | attributeError
  | typeError
  | unpickling
  | assertion
  | fileNotFound
  | overflowError
  | structError
  | other
  deriving DecidableEq, Repr

/-- The two execution modes selected by `options.py` (`USE_NUMBA`): compiled by numba, or plain Python with numpy
scalars. They differ, among others, in division by zero: numba's default error model raises `ZeroDivisionError`,
numpy scalars give 0 together with a `RuntimeWarning`. -/
inductive Mode where | numba | numpy
  deriving DecidableEq, Repr

/-- Unsigned `//` in the two modes. -/
def pyDiv (m : Mode) (a b : BitVec w) : Except PyErr (BitVec w) :=
  if b = 0 then (match m with | .numba => .error .zeroDivision | .numpy => .ok 0) else .ok (a / b)

/-- Unsigned `%` in the two modes. -/
def pyMod (m : Mode) (a b : BitVec w) : Except PyErr (BitVec w) :=
  if b = 0 then (match m with | .numba => .error .zeroDivision | .numpy => .ok 0) else .ok (a % b)

/-- Decidable equality of outcomes (used by concrete examples only). -/
instance {α : Type} [DecidableEq α] : DecidableEq (Except PyErr α) := fun a b =>
  match a, b with
  | .ok x, .ok y => if h : x = y then .isTrue (by rw [h]) else .isFalse (by intro h'; cases h'; exact h rfl)
  | .error x, .error y => if h : x = y then .isTrue (by rw [h]) else .isFalse (by intro h'; cases h'; exact h rfl)
  | .ok _, .error _ => .isFalse (by intro h; cases h)
  | .error _, .ok _ => .isFalse (by intro h; cases h)

end Verif
