import Verif.Model.Njit
import Verif.Props.Compilation
import Verif.Props.EnumClass
import Verif.Model.WildGen3
/-
C127: what `optional_njit` does to a function.
-/
namespace Verif.Njit
open Verif.Compilation (Numba PyTy Means C119_types convert Spec convertSpec)

variable {T D V : Type}

/-! ### specification -/

/-- the declared types of the arguments and of the result, if the form has a signature -/
inductive Declared (nb : Numba T D) : Form T D → Option (List T × T) → Prop
  | bare : Declared nb .bare none
  | options (l : Spec T D) : Declared nb (.options l) none
  | signature (out : PyTy T D) (ins : List (PyTy T D)) (l : Spec T D) (o : T) (ts : List T) :
      Means nb out o → List.Forall₂ (Means nb) ins ts → Declared nb (.signature out (some ins) l) (some (ts, o))

/-- arguments and result have the declared types: converting does not change them -/
def Fits (cast : T → V → Except PyErr V) (f : Fn V) (args : List V) : Option (List T × T) → Prop
  | none => True
  | some (ts, o) => (List.Forall₂ (fun t v => cast t v = .ok v) ts args) ∧ ∀ r, f.body args = .ok r → cast o r = .ok r

/-- the types of local variables can be converted -/
def LocalsOk (nb : Numba T D) : Form T D → Prop
  | .bare => True
  | .options l => ∃ r, convertSpec nb l = .ok r
  | .signature _ _ l => ∃ r, convertSpec nb l = .ok r

/-- C127 as stated: a decorated function computes what the function computes. -/
def C127Statement : Prop :=
  ∀ (T D V : Type) (nb : Numba T D) (cast : T → V → Except PyErr V) (mode : Mode) (form : Form T D) (f : Fn V) (sig) (args : List V),
    Declared nb form sig → LocalsOk nb form → (∀ s, sig = some s → s.1.length = f.params) → Fits cast f args sig →
    ∃ g, decorate nb cast mode form f = .ok g ∧ g args = f.call args

/-! ### without numba -/

/-- C127: without numba a function decorated with parentheses, whatever is in them, is the function. -/
theorem C127_plain (nb : Numba T D) (cast : T → V → Except PyErr V) (form : Form T D) (f : Fn V) (h : form ≠ .bare) :
    decorate nb cast .numpy form f = .ok f.call := by
  cases form with
  | bare => exact absurd rfl h
  | options l => rfl
  | signature out ins l => rfl

/-- C127: without numba a function decorated without parentheses returns its argument if called with one, and raises `TypeError`
otherwise, whatever the function is. -/
theorem C127_bare (nb : Numba T D) (cast : T → V → Except PyErr V) (f : Fn V) :
    ∃ g, decorate nb cast .numpy .bare f = .ok g ∧ (∀ v, g [v] = .ok v) ∧ ∀ args, args.length ≠ 1 → g args = .error .typeError := by
  refine ⟨_, rfl, fun v => rfl, fun args h => ?_⟩
  match args with
  | [] => rfl
  | [v] => exact absurd rfl h
  | _ :: _ :: _ => rfl

/-- C127: so only a function of one parameter that returns its argument can be decorated without parentheses. -/
theorem C127_bare_iff (nb : Numba T D) (cast : T → V → Except PyErr V) (f : Fn V) (hV : Nonempty V) :
    (∃ g, decorate nb cast .numpy .bare f = .ok g ∧ ∀ args, g args = f.call args) ↔ f.params = 1 ∧ ∀ v, f.body [v] = .ok v := by
  obtain ⟨g, hg, h1, h2⟩ := C127_bare nb cast f
  constructor
  · rintro ⟨g', hg', h⟩
    rw [hg] at hg'
    injection hg' with hg'
    subst hg'
    obtain ⟨v⟩ := hV
    have hp : f.params = 1 := by
      by_contra hp
      have := h [v]
      rw [h1, Fn.call, if_neg (by simpa using fun e => hp e.symm)] at this
      cases this
    refine ⟨hp, fun v => ?_⟩
    have := h [v]
    rw [h1, Fn.call, if_pos (by simp [hp])] at this
    exact this.symm
  · rintro ⟨hp, hb⟩
    refine ⟨g, hg, fun args => ?_⟩
    by_cases hl : args.length = 1
    · obtain ⟨v, rfl⟩ := List.length_eq_one_iff.1 hl
      rw [h1, Fn.call, if_pos (by simp [hp]), hb]
    · rw [h2 _ hl, Fn.call, if_neg (by rw [hp]; exact hl)]

/-! ### with numba -/

theorem mapM_means (nb : Numba T D) : ∀ (ins : List (PyTy T D)) (ts : List T),
    ins.mapM (convert nb) = .ok ts ↔ List.Forall₂ (Means nb) ins ts := by
  intro ins
  induction ins with
  | nil =>
    intro ts
    rw [List.mapM_nil]
    constructor
    · intro h; cases h; exact .nil
    · intro h; cases h; rfl
  | cons ty ins ih =>
    intro ts
    rw [List.mapM_cons]
    constructor
    · intro h
      cases h1 : convert nb ty with
      | error e => rw [h1] at h; cases h
      | ok t =>
        rw [h1] at h
        cases h2 : ins.mapM (convert nb) with
        | error e => rw [h2] at h; cases h
        | ok us =>
          rw [h2] at h
          cases h
          exact .cons ((C119_types nb ty t).1 h1) ((ih us).1 h2)
    · intro h
      cases h with
      | cons h1 h2 =>
        rw [(C119_types nb _ _).2 h1, (ih _).2 h2]
        rfl

theorem mapM_cast (cast : T → V → Except PyErr V) : ∀ (ts : List T) (args : List V),
    List.Forall₂ (fun t v => cast t v = .ok v) ts args → (ts.zip args).mapM (fun p => cast p.1 p.2) = .ok args := by
  intro ts args h
  induction h with
  | nil => rfl
  | cons h1 _ ih =>
    rw [List.zip_cons_cons, List.mapM_cons, h1, ih]
    rfl

/-- C127: what a function compiled for a signature does, on all arguments. -/
theorem C127_signature (nb : Numba T D) (cast : T → V → Except PyErr V) (out : PyTy T D) (ins : List (PyTy T D)) (l : Spec T D)
    (f : Fn V) (g : Callable V) :
    decorate nb cast .numba (.signature out (some ins) l) f = .ok g ↔
      ∃ o ts, Means nb out o ∧ List.Forall₂ (Means nb) ins ts ∧ (∃ r, convertSpec nb l = .ok r) ∧ ts.length = f.params ∧
        g = fun args => if args.length = f.params then do
              let vs ← (ts.zip args).mapM fun p => cast p.1 p.2
              let r ← f.body vs
              cast o r
            else .error .typeError := by
  constructor
  · intro h
    simp only [decorate, returnType] at h
    cases h1 : convert nb out with
    | error e => rw [h1] at h; cases h
    | ok o =>
      cases h2 : ins.mapM (convert nb) with
      | error e => rw [h1, h2] at h; cases h
      | ok ts =>
        cases h3 : convertSpec nb l with
        | error e => simp [h1, h2, h3, optionalNjit, bind, Except.bind] at h
        | ok r =>
          simp only [h1, h2, h3, optionalNjit, bind, Except.bind, numbaNjit, Returned.apply] at h
          split at h
          · rename_i hl
            injection h with h
            refine ⟨o, ts, (C119_types nb _ _).1 h1, (mapM_means nb _ _).1 h2, ⟨r, rfl⟩, hl, ?_⟩
            rw [← h]
            funext args
            rw [compiled, hl]
          · cases h
  · rintro ⟨o, ts, h1, h2, ⟨r, h3⟩, hl, rfl⟩
    simp only [decorate, returnType, (C119_types nb _ _).2 h1, (mapM_means nb _ _).2 h2, h3, optionalNjit, bind, Except.bind, numbaNjit,
      Returned.apply, if_pos hl]
    congr 1
    funext args
    rw [compiled, hl]
    rfl

/-- C127: a second argument of `return_type` that cannot be looped over raises `TypeError`. -/
theorem C127_iter (nb : Numba T D) (cast : T → V → Except PyErr V) (out : PyTy T D) (l : Spec T D) (f : Fn V) :
    decorate nb cast .numba (.signature out none l) f = .error .typeError := rfl

/-- **C127** without bare use outside numba (there the claim is false, `C127_full_false`; `C127_bare` says what happens instead). -/
theorem C127_partial (nb : Numba T D) (cast : T → V → Except PyErr V) (mode : Mode) (form : Form T D) (f : Fn V)
    (sig : Option (List T × T)) (args : List V) (hd : Declared nb form sig) (hl : LocalsOk nb form)
    (hs : ∀ s, sig = some s → s.1.length = f.params) (hf : Fits cast f args sig) (hb : mode = .numpy → form ≠ .bare) :
    ∃ g, decorate nb cast mode form f = .ok g ∧ g args = f.call args := by
  cases mode with
  | numpy => exact ⟨_, C127_plain nb cast form f (hb rfl), rfl⟩
  | numba =>
    cases hd with
    | bare => exact ⟨_, rfl, rfl⟩
    | options l =>
      obtain ⟨r, hr⟩ := hl
      exact ⟨f.call, by simp [decorate, optionalNjit, hr, bind, Except.bind, numbaNjit, Returned.apply], rfl⟩
    | signature out ins l o ts h1 h2 =>
      refine ⟨_, (C127_signature nb cast out ins l f _).2 ⟨o, ts, h1, h2, hl, hs _ rfl, rfl⟩, ?_⟩
      obtain ⟨hf1, hf2⟩ := hf
      rw [Fn.call]
      split
      · simp only [mapM_cast cast ts args hf1, bind, Except.bind]
        cases hr : f.body args with
        | error e => rfl
        | ok r => exact hf2 r hr
      · rfl

/-- C127 is false: without numba and parentheses even a function of one parameter is lost. -/
theorem C127_full_false : ¬ C127Statement := by
  intro h
  obtain ⟨g, h1, h2⟩ := h Unit Unit Nat ⟨(), (), fun _ => .ok (), fun _ => .ok ()⟩ (fun _ v => .ok v) .numpy .bare
    ⟨1, fun _ => .ok 0⟩ none [7] .bare trivial (by simp) trivial
  cases h1
  cases h2

/-! ### the package -/

/-- a form is the use that an entry of the package makes of the decorator -/
def Entry.Uses (e : Entry) (form : Form T D) : Prop :=
  match e.deco with
  | .bare => form = .bare
  | .kwargs => ∃ l, form = .options l
  | .signature _ types => ∃ out ins l, form = .signature out (some ins) l ∧ ins.length = types.length

/-- the functions decorated without parentheses -/
def lost : List String := ["get_info_table_3", "calculate_hslot", "calculate_hslot_lead", "calculate_level", "is_rse_safari_zone",
  "get_modified_slots", "get_encounter_rate"]

theorem package_bare : ∀ e ∈ package, e.deco = .bare ↔ e.name ∈ lost := by decide +kernel

/-- the declared types of the arguments -/
def Deco.types : Deco → Option (List String)
  | .signature _ types => some types
  | _ => none

theorem package_arity : ∀ e ∈ package, ∀ types ∈ e.deco.types, types.length = e.params.length := by decide +kernel

/-- **C127**, the package: every decorated function keeps its meaning on arguments of its declared types under numba, and all but
seven without numba. In particular all signatures have as many types as the function has parameters. -/
theorem C127_package_partial (nb : Numba T D) (cast : T → V → Except PyErr V) (mode : Mode) (e : Entry) (he : e ∈ package)
    (form : Form T D) (hform : e.Uses form) (f : Fn V) (hp : f.params = e.params.length) (sig : Option (List T × T)) (args : List V)
    (hd : Declared nb form sig) (hl : LocalsOk nb form) (hf : Fits cast f args sig) (h : mode = .numpy → e.name ∉ lost) :
    ∃ g, decorate nb cast mode form f = .ok g ∧ g args = f.call args := by
  have ha := package_arity e he
  refine C127_partial nb cast mode form f sig args hd hl ?_ hf ?_
  · rintro s rfl
    cases hd with
    | signature out ins l o ts h1 h2 =>
      rw [hp]
      unfold Entry.Uses at hform
      split at hform
      · cases hform
      · obtain ⟨l', hl'⟩ := hform
        cases hl'
      · rename_i out' types hdeco
        have ha := ha types (by rw [hdeco]; rfl)
        obtain ⟨_, _, _, hx, hy⟩ := hform
        cases hx
        rw [← ha, ← hy, h2.length_eq]
  · intro hm hbare
    apply h hm
    rw [← package_bare e he]
    subst hbare
    unfold Entry.Uses at hform
    split at hform
    · assumption
    · obtain ⟨l', hl'⟩ := hform
      cases hl'
    · obtain ⟨_, _, _, hx, _⟩ := hform
      cases hx

/-- C127: the seven without numba. Called with the arguments it takes, `get_info_table_3` returns its argument (the game, not the
table), the other six raise `TypeError`. -/
theorem C127_lost (nb : Numba T D) (cast : T → V → Except PyErr V) (e : Entry) (he : e ∈ package) (hn : e.name ∈ lost) (form : Form T D)
    (hform : e.Uses form) (f : Fn V) :
    ∃ g, decorate nb cast .numpy form f = .ok g ∧ ∀ args, args.length = e.params.length →
      if e.name = "get_info_table_3" then ∃ v, args = [v] ∧ g args = .ok v else g args = .error .typeError := by
  have hb := (package_bare e he).2 hn
  have hform' : form = .bare := by
    unfold Entry.Uses at hform
    rw [hb] at hform
    exact hform
  subst hform'
  obtain ⟨g, hg, h1, h2⟩ := C127_bare nb cast f
  refine ⟨g, hg, fun args hl => ?_⟩
  have hlen : ∀ e ∈ package, e.deco = .bare → (e.params.length = 1 ↔ e.name = "get_info_table_3") := by decide +kernel
  have := hlen e he hb
  split
  · rename_i hname
    obtain ⟨v, rfl⟩ := List.length_eq_one_iff.1 (hl.trans (this.2 hname))
    exact ⟨v, rfl, h1 v⟩
  · rename_i hname
    exact h2 _ (by rw [hl]; exact fun h => hname (this.1 h))

/-- the largest value of an unsigned type plus one -/
def range : String → Nat
  | "uint8" => 2 ^ 8
  | "uint16" => 2 ^ 16
  | "uint32" => 2 ^ 32
  | "uint64" => 2 ^ 64
  | _ => 0

/-- the enumeration with a name -/
def enumOf : String → Option EnumClass.Enum
  | "Game" => some .game
  | "Language" => some .language
  | "DSType" => some .dsType
  | "Encounter" => some .encounter
  | "Lead" => some .lead
  | "Method" => some .method
  | _ => none

/-- is every value of an annotation a value of a declared type? -/
def agree (annotation declared : String) : Bool :=
  annotation == declared || (annotation == "str" && declared == "str_") ||
    match enumOf annotation with
    | some E => match EnumClass.create E.body with
      | .ok c => c.members.all fun m => m.value < range declared
      | .error _ => false
    | none => false

/-- C127: the signatures agree with the annotations: the same type, or one that holds all members of the annotated enumeration. The
one exception is `index` of `compute_stat`, annotated `int8` and declared `uint8`. -/
theorem C127_annotations : ∀ e ∈ package, ∀ types ∈ e.deco.types, ∀ p ∈ e.params.zip types,
    agree p.1.2 p.2 = true ∨ e.name = "compute_stat" ∧ p = (("index", "int8"), "uint8") := by decide +kernel

/-- C127 and C77: this is why the Gen 3 generator, which calls one of the seven with five arguments first, raises without numba. -/
theorem C127_generator (nb : Numba T D) (cast : T → V → Except PyErr V) (f : Fn V) (n : Nat) :
    ∃ g, decorate nb cast .numpy .bare f = .ok g ∧ ∀ args, args.length = n →
      match Gen3.callBare .numpy n with
      | .runs => g args = f.call args
      | .returnsArgument => ∃ v, args = [v] ∧ g args = .ok v
      | .raises e => g args = .error e := by
  obtain ⟨g, hg, h1, h2⟩ := C127_bare nb cast f
  refine ⟨g, hg, fun args hl => ?_⟩
  unfold Gen3.callBare
  by_cases hn : n = 1
  · obtain ⟨v, rfl⟩ := List.length_eq_one_iff.1 (hl.trans hn)
    simp only [if_pos hn]
    exact ⟨v, rfl, h1 v⟩
  · simp only [if_neg hn]
    exact h2 _ (by omega)

/-! ### examples -/

/-- a function compiled for `uint8`: arguments and result are reduced modulo 256 -/
example : ∃ g, decorate Compilation.sample (fun _ v => .ok (v % 256)) .numba
      (.signature (.dtype "uint8") (some [.dtype "uint8"]) [("val", .dtype "uint8")]) ⟨1, fun l => .ok (l.sum + 250)⟩ = .ok g ∧
    g [3] = .ok 253 ∧ g [259] = .ok 253 ∧ g [7] = .ok 1 ∧ g [1, 2] = .error .typeError := ⟨_, rfl, rfl, rfl, rfl, rfl⟩

/-- `get_shiny` meets the hypotheses of `C127_package_partial` -/
example : ∃ e ∈ package, e.name = "get_shiny" ∧
    e.Uses (Form.signature (.dtype "uint8") (some [.dtype "uint32", .dtype "uint16"]) [] : Form String String) ∧ e.name ∉ lost := by
  refine ⟨⟨"gen3/util.py", 19, "get_shiny", [("pid", "uint32"), ("tsv", "uint16")], .signature "uint8" ["uint32", "uint16"]⟩,
    by decide +kernel, rfl, ⟨_, _, _, rfl, rfl⟩, by decide⟩

end Verif.Njit
