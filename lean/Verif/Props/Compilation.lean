import Verif.Model.Compilation
import Mathlib.Data.List.Nodup
/-
C119: the decorator for classes.
-/
namespace Verif.Compilation
open Json (setItem lookup)

variable {T D : Type}

/-! ### dicts -/

/-- the keys are different, as in every dict -/
def Dict (d : List (String × α)) : Prop := (d.map Prod.fst).Nodup

theorem lookup_nil (k : String) : lookup ([] : List (String × α)) k = none := rfl

theorem lookup_cons (a k : String) (x : α) (d : List (String × α)) :
    lookup ((a, x) :: d) k = if a = k then some x else lookup d k := by
  by_cases h : a = k <;> simp [lookup, h]

theorem lookup_setItem (d : List (String × α)) (a k : String) (x : α) :
    lookup (setItem d a x) k = if a = k then some x else lookup d k := by
  induction d with
  | nil => rw [setItem, lookup_cons]
  | cons m d ih =>
    obtain ⟨b, y⟩ := m
    rw [setItem]
    by_cases hb : b = a
    · subst hb
      rw [if_pos rfl, lookup_cons, lookup_cons]
      by_cases hk : b = k <;> simp [hk]
    · rw [if_neg hb, lookup_cons, lookup_cons, ih]
      by_cases hk : b = k
      · subst hk
        rw [if_pos rfl, if_pos rfl, if_neg (Ne.symm hb)]
      · rw [if_neg hk, if_neg hk]

theorem lookup_append (d e : List (String × α)) (k : String) : lookup (d ++ e) k = (lookup d k).or (lookup e k) := by
  induction d with
  | nil => rfl
  | cons m d ih =>
    rw [List.cons_append, lookup_cons, lookup_cons, ih]
    by_cases h : m.1 = k <;> simp [h]

theorem lookup_none {d : List (String × α)} {k : String} (h : k ∉ d.map Prod.fst) : lookup d k = none := by
  induction d with
  | nil => rfl
  | cons m d ih =>
    rw [List.map_cons, List.mem_cons, not_or] at h
    rw [lookup_cons, if_neg (Ne.symm h.1), ih h.2]

/-! ### what the fields of the class are -/

/-- The field `k` has the type that a declaration stands for: with `some ty` the conversion of `ty`, with `none` there is no
such field. -/
def Declares (conv : PyTy T D → Except PyErr T) (f : Spec T D) (k : String) : Option (PyTy T D) → Prop
  | some ty => ∃ t, conv ty = .ok t ∧ lookup f k = some (.numba t)
  | none => lookup f k = none

theorem assign_spec (nb : Numba T D) : ∀ (items spec r : Spec T D), Dict items → assign nb spec items = .ok r → ∀ k,
    match lookup items k with
    | some ty => ∃ t, convert nb ty = .ok t ∧ lookup r k = some (.numba t)
    | none => lookup r k = lookup spec k := by
  intro items
  induction items with
  | nil =>
    intro spec r _ h k
    cases h
    rfl
  | cons m items ih =>
    intro spec r hd h k
    obtain ⟨a, ty⟩ := m
    rw [Dict, List.map_cons, List.nodup_cons] at hd
    rw [assign] at h
    cases ht : convert nb ty with
    | error e => rw [ht] at h; cases h
    | ok t =>
      rw [ht] at h
      have := ih _ _ hd.2 h k
      rw [lookup_cons]
      by_cases hk : a = k
      · subst hk
        rw [if_pos rfl]
        rw [lookup_none hd.1] at this
        refine ⟨t, ht, ?_⟩
        rw [this, lookup_setItem, if_pos rfl]
      · rw [if_neg hk]
        cases hl : lookup items k with
        | some ty' => rw [hl] at this; exact this
        | none =>
          rw [hl] at this
          simp only at this ⊢
          rw [this, lookup_setItem, if_neg hk]

theorem assign_ok (nb : Numba T D) (items : Spec T D) : ∀ spec, (∀ m ∈ items, ∃ t, convert nb m.2 = .ok t) →
    ∃ r, assign nb spec items = .ok r := by
  induction items with
  | nil => intro spec _; exact ⟨spec, rfl⟩
  | cons m items ih =>
    intro spec h
    obtain ⟨t, ht⟩ := h m (List.mem_cons_self)
    obtain ⟨r, hr⟩ := ih (setItem spec m.1 (.numba t)) fun x hx => h x (List.mem_cons_of_mem _ hx)
    refine ⟨r, ?_⟩
    rw [assign, ht]
    exact hr

theorem lookup_isSome {d : List (String × α)} {m : String × α} (h : m ∈ d) : ∃ x, lookup d m.1 = some x := by
  induction d with
  | nil => cases h
  | cons n d ih =>
    rw [lookup_cons]
    by_cases hn : n.1 = m.1
    · exact ⟨_, if_pos hn⟩
    · rw [if_neg hn]
      rcases List.mem_cons.1 h with rfl | h
      · exact absurd rfl hn
      · exact ih h

/-- fields that are all in the spec -/
theorem fields_all (nb : Numba T D) (spec : Spec T D) : ∀ hints : Spec T D, (∀ m ∈ hints, ∃ x, lookup spec m.1 = some x) →
    fields nb spec hints = .ok spec := by
  intro hints
  induction hints with
  | nil => intro _; rfl
  | cons m hints ih =>
    intro h
    obtain ⟨x, hx⟩ := h m List.mem_cons_self
    rw [fields, hx]
    exact ih fun n hn => h n (List.mem_cons_of_mem _ hn)

theorem fields_spec (nb : Numba T D) : ∀ (hints spec r : Spec T D), Dict hints → fields nb spec hints = .ok r → ∀ k,
    match lookup spec k with
    | some x => lookup r k = some x
    | none => Declares nb.asNumbaType r k (lookup hints k) := by
  intro hints
  induction hints with
  | nil =>
    intro spec r _ h k
    cases h
    cases hl : lookup spec k with
    | some x => rfl
    | none => exact hl
  | cons m hints ih =>
    intro spec r hd h k
    obtain ⟨a, ty⟩ := m
    rw [Dict, List.map_cons, List.nodup_cons] at hd
    rw [fields] at h
    cases ha : lookup spec a with
    | some y =>
      rw [ha] at h
      have := ih _ _ hd.2 h k
      cases hl : lookup spec k with
      | some x => rw [hl] at this; exact this
      | none =>
        rw [hl] at this
        have hne : a ≠ k := by rintro rfl; rw [ha] at hl; cases hl
        rw [lookup_cons, if_neg hne]
        exact this
    | none =>
      rw [ha] at h
      cases ht : nb.asNumbaType ty with
      | error e => simp only [ht] at h; cases h
      | ok t =>
        simp only [ht] at h
        have := ih _ _ hd.2 h k
        rw [lookup_append, lookup_cons, lookup_nil] at this
        cases hl : lookup spec k with
        | some x => rw [hl] at this; exact this
        | none =>
          rw [hl, Option.none_or] at this
          rw [lookup_cons]
          by_cases hk : a = k
          · rw [if_pos hk] at this ⊢
            exact ⟨t, ht, this⟩
          · rw [if_neg hk] at this ⊢
            exact this

/-! ### C119 -/

/-- C119 without numba: however the decorator is used, the class stays as it is. -/
theorem C119_plain (nb : Numba T D) (form : Form T D) (c : Cls T D) : decorate nb .numpy form c = .ok (.plain c) := by
  cases form <;> rfl

/-- the spec given in a form of use -/
def Form.spec : Form T D → Spec T D
  | .bare | .empty => []
  | .both s | .positional s | .keyword s => s

/-- Full C119 under numba: the compiled class has a field for every declaration in the spec and every annotation, and no other
fields. False. -/
def C119_full : Prop := ∀ (T D : Type) (nb : Numba T D) (form : Form T D) (c : Cls T D) (f : Spec T D), Dict c.hints → Dict form.spec →
  decorate nb .numba form c = .ok (.compiled c f) →
    ∀ k, (∃ x, lookup f k = some x) ↔ (∃ x, lookup c.hints k = some x) ∨ ∃ x, lookup form.spec k = some x

theorem convertSpec_spec {nb : Numba T D} {s r : Spec T D} (hd : Dict s) (h : convertSpec nb s = .ok r) (k : String) :
    Declares (convert nb) r k (lookup s k) := by
  have := assign_spec nb s s r hd h k
  cases hl : lookup s k with
  | some ty => rw [hl] at this; exact this
  | none => rw [hl] at this; exact this

theorem numbaJitclass_cls (nb : Numba T D) (c : Cls T D) (hd : Dict c.hints) (s : Option (Spec T D)) (f : Spec T D)
    (hs : convertSpecCls nb s c = .ok f) : numbaJitclass nb (some (.cls c)) (some f) = .ok (.cls (.compiled c f)) := by
  have hall : ∀ m ∈ c.hints, ∃ x, lookup f m.1 = some x := by
    intro m hm
    have := assign_spec nb c.hints _ f hd hs m.1
    obtain ⟨y, hy⟩ := lookup_isSome hm
    rw [hy] at this
    obtain ⟨t, _, ht⟩ := this
    exact ⟨_, ht⟩
  simp only [numbaJitclass, Option.getD_some, fields_all nb f c.hints hall]
  rfl

theorem decorate_bare (nb : Numba T D) (c : Cls T D) (hd : Dict c.hints) :
    decorate nb .numba .bare c = (convertSpecCls nb none c).map (.compiled c) := by
  cases hs : convertSpecCls nb none c with
  | error e => simp [decorate, optionalJitclass, hs, bind, Except.bind, Except.map]
  | ok f => simp [decorate, optionalJitclass, hs, bind, Except.bind, Except.map, numbaJitclass_cls nb c hd none f hs]

theorem decorate_empty (nb : Numba T D) (c : Cls T D) (hd : Dict c.hints) :
    decorate nb .numba .empty c = (convertSpecCls nb none c).map (.compiled c) := by
  cases hs : convertSpecCls nb none c with
  | error e => simp [decorate, optionalJitclass, hs, bind, Except.bind, Except.map]
  | ok f => simp [decorate, optionalJitclass, hs, bind, Except.bind, Except.map, numbaJitclass_cls nb c hd none f hs]

theorem decorate_both (nb : Numba T D) (c : Cls T D) (hd : Dict c.hints) (s : Spec T D) : decorate nb .numba (.both s) c =
    ((convertSpec nb s).bind fun s' => convertSpecCls nb (some s') c).map (.compiled c) := by
  cases hs : convertSpec nb s with
  | error e => simp [decorate, optionalJitclass, hs, bind, Except.bind, Except.map]
  | ok s' =>
    cases hs' : convertSpecCls nb (some s') c with
    | error e => simp [decorate, optionalJitclass, hs, hs', bind, Except.bind, Except.map]
    | ok f =>
      simp [decorate, optionalJitclass, hs, hs', bind, Except.bind, Except.map, numbaJitclass_cls nb c hd (some s') f hs']

theorem decorate_positional (nb : Numba T D) (c : Cls T D) (s : Spec T D) : decorate nb .numba (.positional s) c =
    ((convertSpec nb s).bind fun s' => fields nb s' c.hints).map (.compiled c) := by
  cases hs : convertSpec nb s with
  | error e => simp [decorate, optionalJitclass, hs, bind, Except.bind, Except.map]
  | ok s' => simp [decorate, optionalJitclass, numbaJitclass, hs, bind, Except.bind]

/-- `@optional_jitclass(spec=spec)` converts the spec and then forgets it. -/
theorem C119_keyword (nb : Numba T D) (c : Cls T D) (s : Spec T D) :
    decorate nb .numba (.keyword s) c = (convertSpec nb s).bind fun _ => decorate nb .numba .empty c := by
  cases hs : convertSpec nb s with
  | error e => simp [decorate, optionalJitclass, hs, bind, Except.bind]
  | ok s' => simp [decorate, optionalJitclass, hs, bind, Except.bind]

/-- the declarations of `k` in a use of the decorator: annotation and spec -/
def Form.Field (nb : Numba T D) (form : Form T D) (c : Cls T D) (f : Spec T D) (k : String) : Prop :=
  match form with
  -- the annotation goes before the spec
  | .bare | .empty | .both _ => Declares (convert nb) f k ((lookup c.hints k).or (lookup form.spec k))
  -- the spec goes before the annotation, which must be a type of Python (or of numba), not one of numpy
  | .positional s => match lookup s k with
    | some ty => Declares (convert nb) f k (some ty)
    | none => Declares nb.asNumbaType f k (lookup c.hints k)
  | .keyword _ => Declares (convert nb) f k (lookup c.hints k)

/-- C119 under numba: the fields of the compiled class, for every form of use. With a keyword argument the spec is missing. -/
theorem C119_fields_partial (nb : Numba T D) (form : Form T D) (c : Cls T D) (f : Spec T D) (hc : Dict c.hints) (hs : Dict form.spec)
    (h : decorate nb .numba form c = .ok (.compiled c f)) (k : String) : form.Field nb c f k := by
  have bare : ∀ f, convertSpecCls nb none c = .ok f → Declares (convert nb) f k (lookup c.hints k) := by
    intro f hf
    have := assign_spec nb c.hints _ f hc hf k
    cases hl : lookup c.hints k with
    | some ty => rw [hl] at this; exact this
    | none => rw [hl] at this; exact this
  have ok : ∀ {x : Except PyErr (Spec T D)}, x.map (Decorated.compiled c) = .ok (.compiled c f) → x = .ok f := by
    intro x hx
    cases x with
    | error e => cases hx
    | ok y =>
      injection hx with hx
      injection hx with _ hx
      rw [hx]
  cases form with
  | bare =>
    rw [decorate_bare nb c hc] at h
    simpa [Form.Field, Form.spec, lookup_nil] using bare f (ok h)
  | empty =>
    rw [decorate_empty nb c hc] at h
    simpa [Form.Field, Form.spec, lookup_nil] using bare f (ok h)
  | both s =>
    rw [decorate_both nb c hc] at h
    replace h := ok h
    cases hs' : convertSpec nb s with
    | error e => rw [hs'] at h; cases h
    | ok s' =>
      rw [hs'] at h
      have h1 := assign_spec nb c.hints _ f hc h k
      have h2 : Declares (convert nb) s' k (lookup s k) := convertSpec_spec hs hs' k
      rw [Form.Field, Form.spec]
      cases hl : lookup c.hints k with
      | some ty => rw [hl] at h1; exact h1
      | none =>
        rw [hl] at h1
        rw [Option.none_or]
        have h1 : lookup f k = lookup s' k := h1
        cases hl' : lookup s k with
        | some ty => rw [hl'] at h2; unfold Declares; rw [h1]; exact h2
        | none => rw [hl'] at h2; unfold Declares; rw [h1]; exact h2
  | positional s =>
    rw [decorate_positional] at h
    replace h := ok h
    cases hs' : convertSpec nb s with
    | error e => rw [hs'] at h; cases h
    | ok s' =>
      rw [hs'] at h
      have h1 := fields_spec nb c.hints s' f hc h k
      have h2 : Declares (convert nb) s' k (lookup s k) := convertSpec_spec hs hs' k
      rw [Form.Field]
      cases hl : lookup s k with
      | some ty =>
        rw [hl] at h2
        obtain ⟨t, ht, ht'⟩ := h2
        rw [ht'] at h1
        exact ⟨t, ht, h1⟩
      | none =>
        rw [hl] at h2
        have h2 : lookup s' k = none := h2
        rw [h2] at h1
        exact h1
  | keyword s =>
    rw [C119_keyword] at h
    cases hs' : convertSpec nb s with
    | error e => rw [hs'] at h; cases h
    | ok s' =>
      rw [hs'] at h
      have h : decorate nb .numba .empty c = .ok (.compiled c f) := h
      rw [decorate_empty nb c hc] at h
      exact bare f (ok h)

/-- C119: the usual forms compile every class whose declarations numba knows. -/
theorem C119_compiles (nb : Numba T D) (c : Cls T D) (hc : Dict c.hints) (hconv : ∀ m ∈ c.hints, ∃ t, convert nb m.2 = .ok t) :
    (∃ f, decorate nb .numba .bare c = .ok (.compiled c f)) ∧ (∃ f, decorate nb .numba .empty c = .ok (.compiled c f)) ∧
    ∀ s, (∀ m ∈ s, ∃ t, convert nb m.2 = .ok t) → ∃ f, decorate nb .numba (.both s) c = .ok (.compiled c f) := by
  have key : ∀ s, ∃ f, convertSpecCls nb s c = .ok f := fun s => assign_ok nb c.hints _ hconv
  refine ⟨?_, ?_, ?_⟩
  · obtain ⟨f, hf⟩ := key none
    exact ⟨f, by rw [decorate_bare nb c hc, hf]; rfl⟩
  · obtain ⟨f, hf⟩ := key none
    exact ⟨f, by rw [decorate_empty nb c hc, hf]; rfl⟩
  · intro s hs
    obtain ⟨s', hs'⟩ := assign_ok nb s s hs
    obtain ⟨f, hf⟩ := key (some s')
    refine ⟨f, ?_⟩
    rw [decorate_both nb c hc, show convertSpec nb s = .ok s' from hs']
    show Except.map _ (convertSpecCls nb (some s') c) = _
    rw [hf]
    rfl

/-- C119: converting a spec again (it is changed in place, and dicts may be shared) changes no type. -/
theorem C119_again (nb : Numba T D) (s r : Spec T D) (hs : Dict s) (h : convertSpec nb s = .ok r) (k : String)
    (ty : PyTy T D) (hk : lookup r k = some ty) : ∃ t, ty = .numba t ∧ convert nb ty = .ok t := by
  have := convertSpec_spec hs h k
  cases hl : lookup s k with
  | none => rw [hl] at this; rw [Declares, hk] at this; cases this
  | some x =>
    rw [hl] at this
    obtain ⟨t, _, ht⟩ := this
    rw [hk] at ht
    injection ht with ht
    exact ⟨t, ht, by rw [ht]; rfl⟩

/-- numba with the types named as in numpy; annotations of numpy are unknown to `as_numba_type` -/
def sample : Numba String String :=
  ⟨"void", "string", fun d => .ok d, fun | .numba t => .ok t | .compiled t => .ok t | _ => .error .typeError⟩

-- the forms on a class with annotation `head`, and a spec with `list`
example : decorate sample .numba .bare ⟨"C", [("head", .dtype "uint16")]⟩ =
    .ok (.compiled ⟨"C", [("head", .dtype "uint16")]⟩ [("head", .numba "uint16")]) := by decide
example : decorate sample .numba (.both [("list", .numba "array")]) ⟨"C", [("head", .dtype "uint16")]⟩ =
    .ok (.compiled ⟨"C", [("head", .dtype "uint16")]⟩ [("list", .numba "array"), ("head", .numba "uint16")]) := by decide
example : decorate sample .numba (.positional [("list", .numba "array"), ("head", .dtype "uint16")]) ⟨"C", []⟩ =
    .ok (.compiled ⟨"C", []⟩ [("list", .numba "array"), ("head", .numba "uint16")]) := by decide
example : decorate sample .numba (.positional [("list", .numba "array")]) ⟨"C", [("head", .dtype "uint16")]⟩ =
    .error .typeError := by decide
example : Dict [("list", PyTy.numba (D := String) "array"), ("head", .dtype "uint16")] := by unfold Dict; decide

theorem C119_full_false : ¬ C119_full := fun h => by
  have := (h String String sample (.keyword [("list", .numba "array")]) ⟨"C", [("head", .dtype "uint16")]⟩ [("head", .numba "uint16")]
    (by unfold Dict; decide) (by unfold Dict; decide) rfl "list").2 (.inr ⟨.numba "array", rfl⟩)
  obtain ⟨x, hx⟩ := this
  cases hx

/-- Specification: the numba type that a type stands for -/
inductive Means (nb : Numba T D) : PyTy T D → T → Prop
  | numba (t : T) : Means nb (.numba t) t
  | void : Means nb .void nb.void
  | string : Means nb .str nb.string
  | compiled (t : T) : Means nb (.compiled t) t
  | dtype (d : D) (t : T) : nb.fromDtype d = .ok t → Means nb (.dtype d) t

/-- C119: the conversion of one type. -/
theorem C119_types (nb : Numba T D) (ty : PyTy T D) (t : T) : convert nb ty = .ok t ↔ Means nb ty t := by
  constructor
  · intro h
    cases ty with
    | numba u => cases h; exact .numba _
    | void => cases h; exact .void
    | str => cases h; exact .string
    | compiled u => cases h; exact .compiled _
    | dtype d => exact .dtype d t h
  · intro h
    cases h with
    | numba | void | string | compiled => rfl
    | dtype d _ h => exact h

/-- C119: a spec given twice is an error under numba, and ignored without. -/
theorem C119_twice (nb : Numba T D) (s s' : Spec T D) (c : Cls T D) :
    (∃ e, optionalJitclass nb .numba (some (.spec s)) (some s') = .error e) ∧
    ∃ f, optionalJitclass nb .numpy (some (.spec s)) (some s') = .ok (.wrap f) ∧ f c = .ok (.plain c) := by
  refine ⟨?_, _, rfl, rfl⟩
  cases h : convertSpec nb s' with
  | error e => exact ⟨e, by simp [optionalJitclass, h, bind, Except.bind]⟩
  | ok x => exact ⟨.other, by simp [optionalJitclass, numbaJitclass, h, bind, Except.bind]⟩

/-- C119: which mode is chosen. -/
theorem C119_mode (env : Option String) (found : Bool) :
    modeOf env found = .numba ↔ found = true ∧ (env = none ∨ env = some "TRUE") := by
  cases env <;> cases found <;> simp [modeOf, useNumba]

end Verif.Compilation
