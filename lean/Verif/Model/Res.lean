import Verif.Model.Basic
/-
Outcome of a piece of code that may raise or may not end: loops without a bound are run with fuel.
-/
namespace Verif

/-- `ok a`: returned `a`; `err e`: raised `e`; `outOfFuel`: not finished within the given number of loop iterations. -/
inductive Res (α : Type) where
  | ok (a : α)
  | err (e : PyErr)
  | outOfFuel
  deriving DecidableEq, Repr

namespace Res

/-- sequencing: exceptions and non-termination propagate -/
def bind (x : Res α) (f : α → Res β) : Res β :=
  match x with
  | ok a => f a
  | err e => err e
  | outOfFuel => outOfFuel

instance : Monad Res where
  pure := ok
  bind := bind

/-- embedding of computations that cannot run out of fuel -/
def ofExcept : Except PyErr α → Res α
  | .ok a => ok a
  | .error e => err e

@[simp] theorem ok_bind (a : α) (f : α → Res β) : (ok a >>= f) = f a := rfl
@[simp] theorem err_bind (e : PyErr) (f : α → Res β) : (err e >>= f) = err e := rfl
@[simp] theorem outOfFuel_bind (f : α → Res β) : ((outOfFuel : Res α) >>= f) = outOfFuel := rfl
@[simp] theorem pure_eq (a : α) : (pure a : Res α) = ok a := rfl
@[simp] theorem ofExcept_ok (a : α) : ofExcept (.ok a) = ok a := rfl
@[simp] theorem ofExcept_error (e : PyErr) : (ofExcept (.error e) : Res α) = err e := rfl

theorem bind_eq_ok {x : Res α} {f : α → Res β} {b : β} : (x >>= f) = ok b ↔ ∃ a, x = ok a ∧ f a = ok b := by
  cases x <;> simp

end Res
end Verif
