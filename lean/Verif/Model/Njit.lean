import Verif.Model.Compilation
/-
Model of the decorator `optional_njit` of compilation.py, of `return_type`, and of the functions of the package that are decorated.

Functions take a number of positional arguments. Arguments and results are values of some type `V`. `numba.njit` is not part of the
package: `numbaNjit` follows numba 0.59.1 (numba/core/decorators.py, numba/core/dispatcher.py). Compiling keeps what a function computes
(`Fn.body`); with a signature, arguments and result are converted to the declared types (`cast`, a parameter). Local variable types
(`locals`) are only converted; their effect on the body belongs to the models of the single functions.
-/
namespace Verif.Njit
open Verif.Compilation

variable {T D V : Type}

/-- a Python function: its number of parameters, and what it computes -/
structure Fn (V : Type) where
  params : Nat
  body : List V → Except PyErr V

/-- a call: a wrong number of arguments raises `TypeError` -/
def Fn.call (f : Fn V) (args : List V) : Except PyErr V := if args.length = f.params then f.body args else .error .typeError

/-- what a call does with its arguments -/
abbrev Callable (V : Type) := List V → Except PyErr V

/-- a signature: type of the result, types of the arguments -/
structure Sig (T : Type) where
  ret : T
  args : List T

/-- the first argument of `optional_njit` -/
inductive First (T V : Type) where
  /-- `None` (or absent) -/
  | none
  | sig (s : Sig T)
  | fn (f : Fn V)
  /-- anything else -/
  | other

/-- `compilation.py:71-78` (numba) and `119-121` (no numba: a function that is not looked at again). `ins` is `none` if the second
argument cannot be looped over. -/
def returnType (nb : Numba T D) (mode : Mode) (out : PyTy T D) (ins : Option (List (PyTy T D))) : Except PyErr (First T V) :=
  match mode with
  | .numba =>
    match ins with
    | none => .error .typeError
    | some l => do
      let o ← convert nb out
      let a ← l.mapM (convert nb)
      .ok (.sig ⟨o, a⟩)
  | .numpy => .ok .other

/-- what a call of the decorator returns -/
inductive Returned (V : Type) where
  /-- a compiled function -/
  | function (c : Callable V)
  /-- a function that compiles a function -/
  | decorator (d : Fn V → Except PyErr (Callable V))
  /-- `wrap` of `compilation.py:172-175`, which returns its argument -/
  | wrap

/-- a function compiled for a signature -/
def compiled (cast : T → V → Except PyErr V) (s : Sig T) (f : Fn V) : Callable V := fun args =>
  if args.length = s.args.length then do
    let vs ← (s.args.zip args).mapM fun p => cast p.1 p.2
    let r ← f.body vs
    cast s.ret r
  else .error .typeError

/-- `numba.njit`: compiling a function for a signature with another number of arguments fails -/
def numbaNjit (cast : T → V → Except PyErr V) : First T V → Except PyErr (Returned V)
  | .none => .ok (.decorator fun f => .ok f.call)
  | .sig s => .ok (.decorator fun f => if s.args.length = f.params then .ok (compiled cast s f) else .error .typeError)
  | .fn f => .ok (.function f.call)
  | .other => .error .typeError

/-- `compilation.py:159-175` `optional_njit` -/
def optionalNjit (nb : Numba T D) (cast : T → V → Except PyErr V) (mode : Mode) (first : First T V) (locals : Spec T D) :
    Except PyErr (Returned V) :=
  match mode with
  | .numba => do
    let _ ← convertSpec nb locals
    numbaNjit cast first
  | .numpy => .ok .wrap

/-- the ways to use the decorator on a function; further keyword arguments are numba's -/
inductive Form (T D : Type) where
  /-- `@optional_njit` -/
  | bare
  /-- `@optional_njit(locals=...)`, `@optional_njit(**kwargs)` -/
  | options (locals : Spec T D)
  /-- `@optional_njit(return_type(out, ins), locals=...)` -/
  | signature (out : PyTy T D) (ins : Option (List (PyTy T D))) (locals : Spec T D)

/-- the returned object called with a function: `@decorator(...) def f` -/
def Returned.apply : Returned V → Fn V → Except PyErr (Callable V)
  | .decorator d, f => d f
  | .wrap, f => .ok f.call
  | .function _, _ => .error .typeError

/-- the returned object called with values -/
def Returned.call : Returned V → Except PyErr (Callable V)
  | .function c => .ok c
  | .wrap => .ok fun args => match args with
    | [v] => .ok v
    | _ => .error .typeError
  | .decorator _ => .error .typeError

/-- what the name of a decorated function is bound to -/
def decorate (nb : Numba T D) (cast : T → V → Except PyErr V) (mode : Mode) (form : Form T D) (f : Fn V) :
    Except PyErr (Callable V) := do
  match form with
  | .bare => (← optionalNjit nb cast mode (.fn f) []).call
  | .options l => (← optionalNjit nb cast mode .none l).apply f
  | .signature out ins l => (← optionalNjit nb cast mode (← returnType nb mode out ins) l).apply f

/-! ### the decorated functions of the package -/

/-- how a function of the package is decorated; types of a signature by their names in the source -/
inductive Deco where
  | bare
  | kwargs
  | signature (out : String) (ins : List String)
  deriving DecidableEq, Repr

/-- a decorated function: module, line of the decorator, name, parameters with their annotations -/
structure Entry where
  file : String
  line : Nat
  name : String
  params : List (String × String)
  deco : Deco
  deriving DecidableEq, Repr

/-- the six words of a SHA-1 round function -/
def roundParams : List (String × String) :=
  [("a_val", "uint32"), ("b_val", "uint32"), ("c_val", "uint32"), ("d_val", "uint32"), ("e_val", "uint32"), ("input_val", "uint32")]

/-- all uses of `optional_njit` in the package (`grep -rn optional_njit`) -/
def package : List Entry := [
  ⟨"lcrng/lcrng32.py", 140, "jump_func", [("self", "LCRNG32")], .kwargs⟩,
  ⟨"lcrng/lcrng32.py", 157, "rand_func", [("self", "LCRNG32")], .kwargs⟩,
  ⟨"lcrng/lcrng32.py", 173, "rand_func", [("self", "LCRNG32")], .kwargs⟩,
  ⟨"lcrng/lcrng64.py", 136, "jump_func", [("self", "LCRNG64")], .kwargs⟩,
  ⟨"lcrng/lcrng64.py", 155, "rand_func", [("self", "LCRNG64")], .kwargs⟩,
  ⟨"util.py", 6, "change_endian_u32", [("val", "uint32")], .signature "uint32" ["uint32"]⟩,
  ⟨"util.py", 16, "rotate_left_u32", [("val", "uint32"), ("count", "uint8")], .signature "uint32" ["uint32", "uint8"]⟩,
  ⟨"util.py", 24, "rotate_right_u32", [("val", "uint32"), ("count", "uint8")], .signature "uint32" ["uint32", "uint8"]⟩,
  ⟨"util.py", 32, "rotate_left_u64", [("val", "uint64"), ("count", "uint8")], .signature "uint64" ["uint64", "uint8"]⟩,
  ⟨"util.py", 40, "rotate_right_u64", [("val", "uint64"), ("count", "uint8")], .signature "uint64" ["uint64", "uint8"]⟩,
  ⟨"util.py", 54, "compute_stat", [("stat", "uint16"), ("nature", "uint8"), ("index", "int8")],
    .signature "uint16" ["uint16", "uint8", "uint8"]⟩,
  ⟨"util.py", 63, "hex_32", [("num", "uint32")], .signature "str_" ["uint32"]⟩,
  ⟨"data/personal/__init__.py", 70, "get_info_table_3", [("game", "Game")], .bare⟩,
  ⟨"gen3/encounter_area_3.py", 36, "calculate_hslot",
    [("encounter_area", "EncounterArea3"), ("rng", "PokeRNGMod"), ("encounter_type", "Encounter")], .bare⟩,
  ⟨"gen3/encounter_area_3.py", 54, "calculate_hslot_lead",
    [("encounter_area", "EncounterArea3"), ("rng", "PokeRNGMod"), ("encounter_type", "Encounter"), ("lead", "Lead"),
      ("modified_slots", "list[Slot3]")], .bare⟩,
  ⟨"gen3/encounter_area_3.py", 72, "calculate_level", [("slot", "Slot3"), ("rng", "PokeRNGMod"), ("pressure", "bool")], .bare⟩,
  ⟨"gen3/encounter_area_3.py", 87, "is_rse_safari_zone", [("encounter_area", "EncounterArea3"), ("game", "Game")], .bare⟩,
  ⟨"gen3/encounter_area_3.py", 116, "get_modified_slots",
    [("encounter_area", "EncounterArea3"), ("encounter_type", "Encounter"), ("lead", "Lead"), ("game", "Game"),
      ("personal_info_table", "list[PersonalInfo3]")], .bare⟩,
  ⟨"gen3/encounter_area_3.py", 191, "get_encounter_rate",
    [("encounter_area", "EncounterArea3"), ("encounter_type", "Encounter")], .bare⟩,
  ⟨"gen3/util.py", 7, "get_gender", [("pid", "uint32"), ("gender_ratio", "uint8")], .signature "uint8" ["uint32", "uint8"]⟩,
  ⟨"gen3/util.py", 19, "get_shiny", [("pid", "uint32"), ("tsv", "uint16")], .signature "uint8" ["uint32", "uint16"]⟩,
  ⟨"gen3/util.py", 30, "unown_check", [("pid", "uint32"), ("form", "uint8")], .signature "bool_" ["uint32", "uint8"]⟩,
  ⟨"sha1.py", 19, "compute_nazo_bw", [("input_nazo", "uint32")], .signature "array(uint32)" ["uint32"]⟩,
  ⟨"sha1.py", 33, "compute_nazo_bw2", [("input_nazo", "uint32"), ("input_nazo0", "uint32"), ("input_nazo1", "uint32")],
    .signature "array(uint32)" ["uint32", "uint32", "uint32"]⟩,
  ⟨"sha1.py", 118, "get_nazo", [("version", "Game"), ("language", "Language"), ("ds_type", "DSType")],
    .signature "array(uint32, readonly)" ["uint32", "uint8", "uint8"]⟩,
  ⟨"sha1.py", 202, "section1_calc", roundParams, .signature "unituple(uint32, 2)" (List.replicate 6 "uint32")⟩,
  ⟨"sha1.py", 237, "section2_calc", roundParams, .signature "unituple(uint32, 2)" (List.replicate 6 "uint32")⟩,
  ⟨"sha1.py", 272, "section3_calc", roundParams, .signature "unituple(uint32, 2)" (List.replicate 6 "uint32")⟩,
  ⟨"sha1.py", 307, "section4_calc", roundParams, .signature "unituple(uint32, 2)" (List.replicate 6 "uint32")⟩,
  ⟨"fnv.py", 9, "fnv1_64", [("inp", "str")], .signature "uint64" ["str_"]⟩,
  ⟨"fnv.py", 19, "fnv1a_64", [("inp", "str")], .signature "uint64" ["str_"]⟩]

end Verif.Njit
