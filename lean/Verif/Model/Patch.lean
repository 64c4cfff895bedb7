import Verif.Model.Basic
/-
Model of patch.py: the constructors of numba's array types after the patch. `Buffer.__init__`, which they call, is that of
numba 0.59.1: it refuses an array as element type and stores its arguments. Names of types are not modelled.
-/
namespace Verif.Patch

/-- element types: scalars with their `bitwidth`, and records; `aligned` is false for packed ones (numpy's default) -/
inductive Elem where
  | scalar (name : String) (bitwidth : Nat)
  | record (name : String) (itemsize : Nat) (aligned : Bool)
  deriving DecidableEq, Repr

/-- `patch.py:11-13`: `bitwidth` of a record -/
def Elem.bitwidth : Elem → Nat
  | .scalar _ b => b
  | .record _ n _ => n * 8

/-- the fields of an `Array`; `shape` is that of a `NestedArray`, `none` for other arrays -/
structure Arr where
  dtype : Elem
  ndim : Nat
  layout : String
  mutable : Bool
  aligned : Bool
  shape : Option (List Nat)
  deriving DecidableEq, Repr

/-- what can be an element type of an array: not only elements, but `NestedArray`s, which are flattened -/
inductive Dtype where
  | elem (e : Elem)
  | arr (a : Arr)
  deriving DecidableEq, Repr

/-- `patch.py:17-34` `Array.__init__` -/
def arrayInit (dtype : Dtype) (ndim : Nat) (layout : String) (readonly : Bool := false) (aligned : Bool := true)
    (shape : Option (List Nat) := none) : Except PyErr Arr :=
  let isPacked : Bool := match dtype with
    | .elem (.record _ _ a) => !a
    | _ => false
  let aligned' := if !aligned || isPacked then false else true
  match dtype with
  | .arr a =>
    match a.shape with
    | some _ => .ok { dtype := a.dtype, ndim := ndim + a.ndim, layout, mutable := !readonly, aligned := aligned', shape }
    | none => .error .typeError
  | .elem e => .ok { dtype := e, ndim, layout, mutable := !readonly, aligned := aligned', shape }

/-- `patch.py:38-47` `NestedArray.__init__` -/
def nestedInit (dtype : Dtype) (shape : List Nat) : Except PyErr Arr :=
  match dtype with
  | .arr a =>
    match a.shape with
    | some inner => do
      let tmp ← arrayInit (.elem a.dtype) a.ndim "C"
      let shape := shape ++ inner
      if tmp.dtype.bitwidth % 8 ≠ 0 then .error .assertion
      else arrayInit (.elem tmp.dtype) shape.length "C" (shape := some shape)
    | none => .error .attributeError
  | .elem e =>
    if e.bitwidth % 8 ≠ 0 then .error .assertion
    else arrayInit (.elem e) shape.length "C" (shape := some shape)

end Verif.Patch
