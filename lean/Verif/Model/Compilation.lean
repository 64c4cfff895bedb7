import Verif.Model.Basic
import Verif.Model.Json
/-
Model of the decorator `optional_jitclass` of compilation.py (for `optional_njit` see Model/Njit) and of the choice of the mode in options.py.

A class is its annotations; compiling it is recording the types of its fields. `numba.experimental.jitclass` and
`numba.from_dtype` are not part of the package: `numbaJitclass` follows numba 0.59.1 (numba/experimental/jitclass/decorators.py
and base.py: an annotated field without an entry in the spec gets the type `as_numba_type` of its annotation), `from_dtype` and
`as_numba_type` are parameters. Dicts are lists of items as in Model/Json.
-/
namespace Verif.Compilation
open Json (setItem lookup)

/-- `options.py:7-14` `USE_NUMBA`: `env` is the environment variable `NPP_USE_NUMBA`, `found` says that numba is installed -/
def useNumba (env : Option String) (found : Bool) : Bool :=
  let use := env.getD "TRUE" == "TRUE"
  if use && !found then false else use

/-- the mode of execution -/
def modeOf (env : Option String) (found : Bool) : Mode := if useNumba env found then .numba else .numpy

/-- what the package uses as a type; `T` are the types of numba, `D` those of numpy -/
inductive PyTy (T D : Type) where
  /-- an object of numba -/
  | numba (t : T)
  /-- `np.void` -/
  | void
  /-- `np.str_` -/
  | str
  /-- a compiled class (it has an attribute `class_type`), with the type of its objects -/
  | compiled (t : T)
  /-- anything else -/
  | dtype (d : D)
  deriving DecidableEq

/-- the parts of numba that are used -/
structure Numba (T D : Type) where
  void : T
  string : T
  fromDtype : D → Except PyErr T
  asNumbaType : PyTy T D → Except PyErr T

variable {T D : Type}

/-- `compilation.py:20-36` `convert_to_numba` -/
def convert (nb : Numba T D) : PyTy T D → Except PyErr T
  | .numba t => .ok t
  | .void => .ok nb.void
  | .str => .ok nb.string
  | .compiled t => .ok t
  | .dtype d => nb.fromDtype d

/-- a dict from attributes to types -/
abbrev Spec (T D : Type) := List (String × PyTy T D)

/-- the loop of `convert_spec` and `convert_spec_cls`: `items` are assigned to `spec`, converted -/
def assign (nb : Numba T D) : Spec T D → Spec T D → Except PyErr (Spec T D)
  | spec, [] => .ok spec
  | spec, (attr, ty) :: items => do
    let t ← convert nb ty
    assign nb (setItem spec attr (.numba t)) items

/-- `compilation.py:80-84` `convert_spec`; the argument is changed in place, too -/
def convertSpec (nb : Numba T D) (spec : Spec T D) : Except PyErr (Spec T D) := assign nb spec spec

/-- a class: its name and its annotations -/
structure Cls (T D : Type) where
  name : String
  hints : Spec T D
  deriving DecidableEq

/-- `compilation.py:86-91` `convert_spec_cls` -/
def convertSpecCls (nb : Numba T D) (spec : Option (Spec T D)) (cls : Cls T D) : Except PyErr (Spec T D) :=
  assign nb (spec.getD []) cls.hints

/-- what a decorator makes of a class: the class itself, or the compiled class with its fields -/
inductive Decorated (T D : Type) where
  | plain (cls : Cls T D)
  | compiled (cls : Cls T D) (fields : Spec T D)
  deriving DecidableEq

/-- the argument `cls_or_spec` if it is not `None` -/
inductive Arg (T D : Type) where
  | cls (c : Cls T D)
  | spec (s : Spec T D)

/-- what a call of the decorator returns -/
inductive Returned (T D : Type) where
  /-- the decorated class -/
  | cls (d : Decorated T D)
  /-- a function that decorates a class -/
  | wrap (f : Cls T D → Except PyErr (Decorated T D))

/-- the fields of a compiled class: the spec, and the annotations it does not have -/
def fields (nb : Numba T D) : Spec T D → Spec T D → Except PyErr (Spec T D)
  | spec, [] => .ok spec
  | spec, (attr, ty) :: hints =>
    match lookup spec attr with
    | some _ => fields nb spec hints
    | none => do
      let t ← nb.asNumbaType ty
      fields nb (spec ++ [(attr, .numba t)]) hints

/-- `numba.experimental.jitclass` -/
def numbaJitclass (nb : Numba T D) (clsOrSpec : Option (Arg T D)) (spec : Option (Spec T D)) : Except PyErr (Returned T D) :=
  let wrap (spec : Option (Spec T D)) (c : Cls T D) : Except PyErr (Decorated T D) :=
    (fields nb (spec.getD []) c.hints).map (.compiled c)
  match clsOrSpec with
  | some (.spec s) =>
    match spec with
    | none => .ok (.wrap (wrap (some s)))
    | some _ => .error .other
  | some (.cls c) => (wrap spec c).map .cls
  | none => .ok (.wrap (wrap spec))

/-- `compilation.py:128-157` `optional_jitclass`. A spec given twice makes numba fail. -/
def optionalJitclass (nb : Numba T D) (mode : Mode) (clsOrSpec : Option (Arg T D)) (spec : Option (Spec T D)) :
    Except PyErr (Returned T D) :=
  match mode with
  | .numba => do
    let (clsOrSpec, spec) ← (match clsOrSpec, spec with
      | some (.spec s), none => do .ok (some (.spec (← convertSpec nb s)), none)
      | c, some s => do .ok (c, some (← convertSpec nb s))
      | c, none => .ok (c, none) : Except PyErr (Option (Arg T D) × Option (Spec T D)))
    match clsOrSpec with
    | none => .ok (.wrap fun c => do
        let spec ← convertSpecCls nb none c
        match ← numbaJitclass nb (some (.cls c)) (some spec) with
        | .cls d => .ok d
        | .wrap _ => .error .other)
    | some (.cls c) => do
      let spec ← convertSpecCls nb spec c
      numbaJitclass nb (some (.cls c)) (some spec)
    | some (.spec s) => numbaJitclass nb (some (.spec s)) spec
  | .numpy =>
    match clsOrSpec with
    | some (.cls c) => .ok (.cls (.plain c))
    | _ => .ok (.wrap fun c => .ok (.plain c))

/-- the ways to use the decorator on a class -/
inductive Form (T D : Type) where
  /-- `@optional_jitclass` -/
  | bare
  /-- `@optional_jitclass()` -/
  | empty
  /-- `optional_jitclass(cls, spec)` -/
  | both (s : Spec T D)
  /-- `@optional_jitclass(spec)` -/
  | positional (s : Spec T D)
  /-- `@optional_jitclass(spec=spec)` -/
  | keyword (s : Spec T D)

/-- the decorated class -/
def decorate (nb : Numba T D) (mode : Mode) (form : Form T D) (c : Cls T D) : Except PyErr (Decorated T D) := do
  let r ← (match form with
    | .bare => optionalJitclass nb mode (some (.cls c)) none
    | .both s => optionalJitclass nb mode (some (.cls c)) (some s)
    | .empty => optionalJitclass nb mode none none
    | .positional s => optionalJitclass nb mode (some (.spec s)) none
    | .keyword s => optionalJitclass nb mode none (some s))
  match r with
  | .cls d => .ok d
  | .wrap f => f c

end Verif.Compilation
