import Verif.Model.StateText
import Verif.Props.Text
import Verif.Props.Util
/-
C96: the text of a Gen 3 state.
-/
namespace Verif.Gen3
open EncLoad3 (Str)

/-! ### texts of numbers -/

theorem dec_injective {m n : Nat} (h : dec m = dec n) : m = n := by
  have := congrArg (Nat.ofDigitChars 10 · 0) h
  simpa only [dec, Nat.ofDigitChars_toDigits (by omega : 1 < 10) (le_refl 10)] using this

theorem dec_digit {n : Nat} {c : Char} (h : c ∈ dec n) : c.isDigit = true :=
  Nat.isDigit_of_mem_toDigits (by omega) (by omega) h

theorem dec_ne_nil (n : Nat) : dec n ≠ [] := Nat.toDigits_ne_nil

/-- `a` and `b` lack the separator: they can be read off. -/
theorem split_unique {sep : Char} {a b x y : Str} (ha : sep ∉ a) (hb : sep ∉ b) (h : a ++ sep :: x = b ++ sep :: y) :
    a = b ∧ x = y := by
  induction a generalizing b with
  | nil =>
    cases b with
    | nil => simpa using h
    | cons c b =>
      simp only [List.nil_append, List.cons_append, List.cons.injEq] at h
      exact absurd (h.1 ▸ List.mem_cons_self) hb
  | cons c a ih =>
    cases b with
    | nil =>
      simp only [List.nil_append, List.cons_append, List.cons.injEq] at h
      exact absurd (h.1 ▸ List.mem_cons_self) ha
    | cons d b =>
      simp only [List.cons_append, List.cons.injEq] at h
      obtain ⟨rfl, h⟩ := h
      obtain ⟨rfl, rfl⟩ := ih (fun hx => ha (List.mem_cons_of_mem _ hx)) (fun hx => hb (List.mem_cons_of_mem _ hx)) h
      exact ⟨rfl, rfl⟩

theorem not_digit_slash : '/'.isDigit = false := by decide

theorem slash_notMem_dec (n : Nat) : '/' ∉ dec n := fun h => by
  have := dec_digit h; rw [not_digit_slash] at this; cases this

theorem slashed_cons (m n : Nat) (l : List Nat) : slashed (m :: n :: l) = dec m ++ '/' :: slashed (n :: l) := rfl

theorem slashed_injective : ∀ {l k : List Nat}, l.length = k.length → slashed l = slashed k → l = k
  | [], [], _, _ => rfl
  | [m], [n], _, h => by
    have h : dec m ++ [] = dec n ++ [] := h
    rw [List.append_nil, List.append_nil] at h
    rw [dec_injective h]
  | m :: m' :: l, n :: n' :: k, hl, h => by
    rw [slashed_cons, slashed_cons] at h
    obtain ⟨h1, h2⟩ := split_unique (slash_notMem_dec m) (slash_notMem_dec n) h
    rw [dec_injective h1, slashed_injective (by simpa using hl) h2]

theorem slashed_chars {l : List Nat} {c : Char} (h : c ∈ slashed l) : c.isDigit = true ∨ c = '/' := by
  unfold slashed at h
  rw [List.mem_flatten] at h
  obtain ⟨s, hs, hc⟩ := h
  have : s = c!"/" ∨ s ∈ l.map dec := by
    revert hs
    generalize l.map dec = k
    intro hs
    induction k with
    | nil => simp at hs
    | cons a k ih =>
      cases k with
      | nil => simp at hs; simp [hs]
      | cons b k =>
        rw [List.intersperse_cons_cons] at hs
        simp only [List.mem_cons] at hs ih ⊢
        rcases hs with h | h | h
        · exact .inr (.inl h)
        · exact .inl h
        · rcases ih h with h | h
          · exact .inl h
          · exact .inr (.inr h)
  rcases this with rfl | h
  · simp at hc; exact .inr hc
  · obtain ⟨n, -, rfl⟩ := List.mem_map.mp h
    exact .inl (dec_digit hc)

/-! ### the tables of names -/

theorem lengths : Data.speciesEn.length = 1011 ∧ Data.naturesEn.length = 25 ∧ Data.abilitiesEn.length = 299 ∧
    Data.typesEn.length = 18 ∧ Text.genderSymbols.length = 3 := by decide +kernel

/-- no comma in any name -/
theorem no_comma : ∀ l ∈ [Data.speciesEn, Data.naturesEn, Data.abilitiesEn, Data.typesEn, Text.genderSymbols],
    l.all (fun s => s.all fun c => c ≠ ',') = true := by decide +kernel

/-- no parenthesis in the names of abilities and types -/
theorem no_paren : ∀ l ∈ [Data.abilitiesEn, Data.typesEn], l.all (fun s => s.all fun c => c ≠ '(') = true := by decide +kernel

/-- what remains of a text without the digits at its end -/
def stem (s : Str) : Str := (s.reverse.dropWhile Char.isDigit)

/-- no name of a species ends in a hyphen and digits -/
theorem no_suffix : Data.speciesEn.all (fun s => (stem s).head? ≠ some '-') = true := by decide +kernel

theorem species_distinct : Text.distinctBy (Text.key 63649) Data.speciesEn 0 = true := by decide +kernel

theorem small_distinct : Data.naturesEn.Nodup ∧ Data.typesEn.Nodup ∧ Text.genderSymbols.Nodup := by decide +kernel

theorem index_of_nodup {l : List Str} (h : l.Nodup) {i j : Nat} {s : Str} (hi : l[i]? = some s) (hj : l[j]? = some s) :
    i = j := by
  obtain ⟨h1, e1⟩ := List.getElem?_eq_some_iff.mp hi
  obtain ⟨h2, e2⟩ := List.getElem?_eq_some_iff.mp hj
  exact (List.Nodup.getElem_inj_iff h).mp (e1.trans e2.symm)

/-- The name of a species and the form can be read off. -/
theorem species_unique {s s' : Str} (hs : s ∈ Data.speciesEn) (hs' : s' ∈ Data.speciesEn) {f f' : Nat}
    (h : s ++ (if f ≠ 0 then c!"-" ++ dec f else []) = s' ++ (if f' ≠ 0 then c!"-" ++ dec f' else [])) : s = s' ∧ f = f' := by
  have hok : ∀ s ∈ Data.speciesEn, (stem s).head? ≠ some '-' := fun s hs => by
    simpa using List.all_eq_true.mp no_suffix s hs
  have hform : ∀ (s : Str) (f : Nat), stem (s ++ (c!"-" ++ dec f)) = '-' :: s.reverse := by
    intro s f
    unfold stem
    rw [List.reverse_append, List.reverse_append, List.append_assoc, List.dropWhile_append_of_pos]
    · rfl
    · intro c hc; exact dec_digit (List.mem_reverse.mp hc)
  by_cases h0 : f = 0 <;> by_cases h1 : f' = 0
  · subst h0; subst h1
    simp only [ne_eq, not_true_eq_false, if_false, List.append_nil] at h
    exact ⟨h, rfl⟩
  · rw [if_neg (by simpa using h0), if_pos h1, List.append_nil] at h
    exact absurd (by rw [h, hform]; rfl) (hok s hs)
  · rw [if_pos h0, if_neg (by simpa using h1), List.append_nil] at h
    exact absurd (by rw [← h, hform]; rfl) (hok s' hs')
  · rw [if_pos h0, if_pos h1] at h
    have h2 := congrArg stem h
    rw [hform, hform] at h2
    have h3 : s = s' := List.reverse_injective (List.cons.inj h2).2
    subst h3
    exact ⟨rfl, dec_injective (List.append_cancel_left (List.append_cancel_left h))⟩

/-! ### csv -/

/-- the fields, given the names -/
def fieldsOf (st : State) (species nature ability type gender : Str) : List (Str × Str) := [
    (c!"Advance", dec st.advance.toNat),
    (c!"Species", species ++ if st.form.toNat ≠ 0 then c!"-" ++ dec st.form.toNat else []),
    (c!"Level", dec st.level.toNat),
    (c!"PID", Util.hex32 st.pid),
    (c!"Nature", nature),
    (c!"Ability", ability ++ c!" (" ++ dec st.ability.toNat ++ c!")"),
    (c!"IVs", slashed (st.ivs.toList.map BitVec.toNat)),
    (c!"Stats", slashed (st.stats.toList.map BitVec.toNat)),
    (c!"HP", type ++ c!" (" ++ dec st.hiddenPowerStrength.floor.toNat ++ c!")"),
    (c!"Gender", gender)]

theorem item_ok (l : List Str) (i : Nat) (s : Str) : item l i = .ok s ↔ l[i]? = some s := by
  unfold item
  cases l[i]? <;> simp

theorem item_error (l : List Str) (i : Nat) (h : l.length ≤ i) : item l i = .error .indexError := by
  unfold item
  rw [List.getElem?_eq_none h]

theorem csv_ok (st : State) (fields : List (Str × Str)) : csv st = .ok fields ↔
    ∃ species nature ability type gender, Data.speciesEn[st.species.toNat]? = some species ∧
      Data.naturesEn[st.nature.toNat]? = some nature ∧ Data.abilitiesEn[st.abilityIndex.toNat]? = some ability ∧
      Data.typesEn[st.hiddenPower.toNat + 1]? = some type ∧ Text.genderSymbols[st.gender.toNat]? = some gender ∧
      fields = fieldsOf st species nature ability type gender := by
  have hform : (st.form ≠ 0) = (st.form.toNat ≠ 0) := by
    rw [ne_eq, ← BitVec.toNat_inj]; rfl
  have bind_ok : ∀ (α β : Type) (x : Except PyErr α) (f : α → Except PyErr β) (b : β),
      (x >>= f) = .ok b ↔ ∃ a, x = .ok a ∧ f a = .ok b := by
    intro α β x f b
    cases x with
    | error e => exact ⟨fun h => (nomatch h), fun ⟨a, h, _⟩ => (nomatch h)⟩
    | ok a => exact ⟨fun h => ⟨a, rfl, h⟩, fun ⟨a', h, h'⟩ => by cases h; exact h'⟩
  unfold csv fieldsOf
  simp only [bind_ok, item_ok, hform]
  constructor
  · rintro ⟨s, h1, n, h2, a, h3, t, h4, g, h5, h6⟩
    exact ⟨s, n, a, t, g, h1, h2, h3, h4, h5, (Except.ok.inj h6).symm⟩
  · rintro ⟨s, n, a, t, g, h1, h2, h3, h4, h5, rfl⟩
    exact ⟨s, h1, n, h2, a, h3, t, h4, g, h5, rfl⟩

/-- **C96**: `csv` gives a text exactly for states whose numbers are in the ranges of the tables of names. -/
theorem C96_csv (st : State) : (∃ fields, csv st = .ok fields) ↔
    st.species.toNat < 1011 ∧ st.nature.toNat < 25 ∧ st.abilityIndex.toNat < 299 ∧ st.hiddenPower.toNat < 17 ∧
      st.gender.toNat < 3 := by
  obtain ⟨l1, l2, l3, l4, l5⟩ := lengths
  constructor
  · rintro ⟨fields, h⟩
    obtain ⟨s, n, a, t, g, h1, h2, h3, h4, h5, -⟩ := (csv_ok st fields).mp h
    have := (List.getElem?_eq_some_iff.mp h1).1
    have := (List.getElem?_eq_some_iff.mp h2).1
    have := (List.getElem?_eq_some_iff.mp h3).1
    have := (List.getElem?_eq_some_iff.mp h4).1
    have := (List.getElem?_eq_some_iff.mp h5).1
    omega
  · rintro ⟨h1, h2, h3, h4, h5⟩
    exact ⟨_, (csv_ok st _).mpr ⟨_, _, _, _, _, List.getElem?_eq_getElem (by omega), List.getElem?_eq_getElem (by omega),
      List.getElem?_eq_getElem (by omega), List.getElem?_eq_getElem (by omega), List.getElem?_eq_getElem (by omega), rfl⟩⟩

/-- States with the same printed values. The index of the ability is determined up to its name (two abilities are called
"As One"); whether the state is shiny and the characteristic are not printed. -/
structure SameText (st st' : State) : Prop where
  advance : st.advance = st'.advance
  species : st.species = st'.species
  form : st.form = st'.form
  level : st.level = st'.level
  pid : st.pid = st'.pid
  nature : st.nature = st'.nature
  abilityName : Data.abilitiesEn[st.abilityIndex.toNat]? = Data.abilitiesEn[st'.abilityIndex.toNat]?
  ability : st.ability = st'.ability
  ivs : st.ivs = st'.ivs
  stats : st.stats = st'.stats
  hiddenPower : st.hiddenPower = st'.hiddenPower
  strength : st.hiddenPowerStrength.floor.toNat = st'.hiddenPowerStrength.floor.toNat
  gender : st.gender = st'.gender

theorem paren_unique {a b : Str} {m n : Nat} (ha : '(' ∉ a) (hb : '(' ∉ b)
    (h : a ++ c!" (" ++ dec m ++ c!")" = b ++ c!" (" ++ dec n ++ c!")") : a = b ∧ m = n := by
  have h := List.append_cancel_right h
  have e : ∀ (a : Str) (m : Nat), a ++ c!" (" ++ dec m = (a ++ [' ']) ++ '(' :: dec m := by intro a m; simp
  rw [e, e] at h
  obtain ⟨h1, h2⟩ := split_unique (by simpa using ha) (by simpa using hb) h
  exact ⟨List.append_cancel_right h1, dec_injective h2⟩

theorem vec_toNat_inj {w n : Nat} {v v' : Vector (BitVec w) n} (h : v.toList.map BitVec.toNat = v'.toList.map BitVec.toNat) : v = v' := by
  apply Vector.toList_inj.mp
  exact List.map_injective_iff.mpr (fun _ _ h => BitVec.eq_of_toNat_eq h) h

theorem C96_csv_determines (st st' : State) (fields : List (Str × Str)) (h : csv st = .ok fields) (h' : csv st' = .ok fields) :
    SameText st st' := by
  obtain ⟨s, n, a, t, g, h1, h2, h3, h4, h5, rfl⟩ := (csv_ok st fields).mp h
  obtain ⟨s', n', a', t', g', k1, k2, k3, k4, k5, e⟩ := (csv_ok st' _).mp h'
  simp only [fieldsOf, List.cons.injEq, Prod.mk.injEq, true_and, and_true] at e
  obtain ⟨e1, e2, e3, e4, e5, e6, e7, e8, e9, e10⟩ := e
  have paren : ∀ l ∈ [Data.abilitiesEn, Data.typesEn], ∀ (i : Nat) (s : Str), l[i]? = some s → '(' ∉ s := by
    intro l hl i s hi hm
    have := List.all_eq_true.mp (no_paren l hl) s (List.mem_of_getElem? hi)
    have := List.all_eq_true.mp this '(' hm
    simp at this
  obtain ⟨rfl, f2⟩ := species_unique (List.mem_of_getElem? h1) (List.mem_of_getElem? k1) e2
  obtain ⟨rfl, f6⟩ := paren_unique (paren _ (by simp) _ _ h3) (paren _ (by simp) _ _ k3) e6
  obtain ⟨rfl, f9⟩ := paren_unique (paren _ (by simp) _ _ h4) (paren _ (by simp) _ _ k4) e9
  subst e5 e10
  obtain ⟨d1, d2, d3⟩ := small_distinct
  have d0 := (Text.distinctBy_spec _ _ _ species_distinct).1
  refine ⟨BitVec.eq_of_toNat_eq (dec_injective e1), BitVec.eq_of_toNat_eq (index_of_nodup d0 h1 k1),
    BitVec.eq_of_toNat_eq f2, BitVec.eq_of_toNat_eq (dec_injective e3), ?_,
    BitVec.eq_of_toNat_eq (index_of_nodup d1 h2 k2), by rw [h3, k3], BitVec.eq_of_toNat_eq f6, ?_, ?_,
    BitVec.eq_of_toNat_eq (Nat.add_right_cancel (index_of_nodup d2 h4 k4)), f9,
    BitVec.eq_of_toNat_eq (index_of_nodup d3 h5 k5)⟩
  · have p := (Util.C44_hex_roundtrip st.pid).2.2
    have p' := (Util.C44_hex_roundtrip st'.pid).2.2
    rw [e4, p'] at p
    exact BitVec.eq_of_toNat_eq (Option.some.inj p).symm
  · exact vec_toNat_inj (slashed_injective (by simp) e7)
  · exact vec_toNat_inj (slashed_injective (by simp) e8)

/-! ### the text -/

/-- The text of the fields: `name: value`, separated by a comma and a blank. -/
def textOf (fields : List (Str × Str)) : Str :=
  ((fields.map fun x => x.1 ++ c!": " ++ x.2).intersperse c!", ").flatten

theorem foldl_text (fields : List (Str × Str)) (acc : Str) :
    fields.foldl (fun acc x => acc ++ (x.1 ++ c!": " ++ x.2 ++ c!", ")) acc =
      acc ++ fields.flatMap fun x => x.1 ++ c!": " ++ x.2 ++ c!", " := by
  induction fields generalizing acc with
  | nil => simp
  | cons x l ih => rw [List.foldl_cons, ih, List.flatMap_cons, List.append_assoc]

theorem flatMap_text (fields : List (Str × Str)) (h : fields ≠ []) :
    (fields.flatMap fun x => x.1 ++ c!": " ++ x.2 ++ c!", ") = textOf fields ++ c!", " := by
  induction fields with
  | nil => exact absurd rfl h
  | cons x l ih =>
    rw [List.flatMap_cons]
    cases l with
    | nil => simp [textOf]
    | cons y l =>
      rw [ih (by simp)]
      simp only [textOf, List.map_cons, List.intersperse_cons_cons, List.flatten_cons, List.append_assoc]

/-- **C96**: the text of a state is that of its fields. -/
theorem C96_str (st : State) (text : Str) : str st = .ok text ↔ ∃ fields, csv st = .ok fields ∧ text = textOf fields := by
  have hne : ∀ fields, csv st = .ok fields → fields ≠ [] := by
    intro fields h
    obtain ⟨s, n, a, t, g, -, -, -, -, -, rfl⟩ := (csv_ok st fields).mp h
    simp [fieldsOf]
  unfold str
  cases hc : csv st with
  | error e => exact ⟨fun h => (nomatch h), fun ⟨f, h, _⟩ => (nomatch h)⟩
  | ok fields =>
    have key : (fields.foldl (fun acc x => acc ++ (x.1 ++ c!": " ++ x.2 ++ c!", ")) []).take
        ((fields.foldl (fun acc x => acc ++ (x.1 ++ c!": " ++ x.2 ++ c!", ")) []).length - 2) = textOf fields := by
      rw [foldl_text, List.nil_append, flatMap_text fields (hne fields hc), List.length_append]
      exact List.take_left' rfl
    show Except.ok _ = Except.ok text ↔ _
    rw [key]
    constructor
    · intro h; exact ⟨fields, rfl, (Except.ok.inj h).symm⟩
    · rintro ⟨f, h, rfl⟩; cases h; rfl

/-- no comma in the fields -/
def Plain (fields : List (Str × Str)) : Prop := ∀ x ∈ fields, ',' ∉ x.1 ++ c!": " ++ x.2

theorem textOf_injective : ∀ {f f' : List (Str × Str)}, f.map Prod.fst = f'.map Prod.fst → Plain f → Plain f' →
    textOf f = textOf f' → f = f'
  | [], [], _, _, _, _ => rfl
  | [x], [y], hk, _, _, h => by
    simp only [List.map_cons, List.map_nil, List.cons.injEq, and_true] at hk
    have h : (x.1 ++ c!": " ++ x.2) ++ [] = (y.1 ++ c!": " ++ y.2) ++ [] := h
    rw [List.append_nil, List.append_nil, hk] at h
    rw [Prod.ext hk (List.append_cancel_left h)]
  | x :: x' :: f, y :: y' :: f', hk, hp, hp', h => by
    rw [List.map_cons (a := x), List.map_cons (a := y), List.cons.injEq] at hk
    have e : ∀ (x x' : Str × Str) (f : List (Str × Str)), textOf (x :: x' :: f) =
        (x.1 ++ c!": " ++ x.2) ++ ',' :: ' ' :: textOf (x' :: f) := by
      intro x x' f
      simp only [textOf, List.map_cons, List.intersperse_cons_cons, List.flatten_cons, List.append_assoc]
      rfl
    rw [e, e] at h
    obtain ⟨h1, h2⟩ := split_unique (hp x (by simp)) (hp' y (by simp)) h
    rw [hk.1] at h1
    rw [Prod.ext hk.1 (List.append_cancel_left h1), textOf_injective hk.2 (fun z hz => hp z (List.mem_cons_of_mem _ hz))
      (fun z hz => hp' z (List.mem_cons_of_mem _ hz)) (List.cons.inj h2).2]
  | [], _ :: _, hk, _, _, _ => by simp at hk
  | _ :: _, [], hk, _, _, _ => by simp at hk
  | [_], _ :: _ :: _, hk, _, _, _ => by simp at hk
  | _ :: _ :: _, [_], hk, _, _, _ => by simp at hk

theorem csv_plain (st : State) (fields : List (Str × Str)) (h : csv st = .ok fields) : Plain fields := by
  obtain ⟨s, n, a, t, g, h1, h2, h3, h4, h5, rfl⟩ := (csv_ok st fields).mp h
  have name : ∀ l ∈ [Data.speciesEn, Data.naturesEn, Data.abilitiesEn, Data.typesEn, Text.genderSymbols],
      ∀ (i : Nat) (s : Str), l[i]? = some s → ',' ∉ s := by
    intro l hl i s hi hm
    have := List.all_eq_true.mp (no_comma l hl) s (List.mem_of_getElem? hi)
    have := List.all_eq_true.mp this ',' hm
    simp at this
  have s1 := name _ (by simp) _ _ h1
  have s2 := name _ (by simp) _ _ h2
  have s3 := name _ (by simp) _ _ h3
  have s4 := name _ (by simp) _ _ h4
  have s5 := name _ (by simp) _ _ h5
  have hd : ∀ n, ',' ∉ dec n := fun n hx => by
    have := dec_digit hx; revert this; decide
  have hs : ∀ l, ',' ∉ slashed l := fun l hx => by
    rcases slashed_chars hx with h | h
    · revert h; decide
    · revert h; decide
  have hh : ',' ∉ Util.hex32 st.pid := fun hx => by
    have := (Util.C44_hex_roundtrip st.pid).2.1 ',' hx
    revert this; decide
  intro x hx
  simp only [fieldsOf, List.mem_cons, List.not_mem_nil, or_false] at hx
  rcases hx with rfl | rfl | rfl | rfl | rfl | rfl | rfl | rfl | rfl | rfl
  all_goals try split
  all_goals simp [hd, hs, hh, s1, s2, s3, s4, s5]

/-- **C96**: two states with the same text have the same printed values. -/
theorem C96_str_determines (st st' : State) (text : Str) (h : str st = .ok text) (h' : str st' = .ok text) :
    SameText st st' := by
  obtain ⟨f, hf, rfl⟩ := (C96_str st text).mp h
  obtain ⟨f', hf', e⟩ := (C96_str st' _).mp h'
  have hk : f.map Prod.fst = f'.map Prod.fst := by
    obtain ⟨s, n, a, t, g, -, -, -, -, -, rfl⟩ := (csv_ok st f).mp hf
    obtain ⟨s', n', a', t', g', -, -, -, -, -, rfl⟩ := (csv_ok st' f').mp hf'
    rfl
  have := textOf_injective hk (csv_plain st f hf) (csv_plain st' f' hf') e
  subst this
  exact C96_csv_determines st st' f hf hf'

/-- an Unown with form 3 -/
def sampleState : State where
  advance := 7
  pid := 0xA5D31
  species := 201
  form := 3
  stats := #v[60, 30, 31, 32, 33, 34]
  abilityIndex := 26
  ivs := #v[0, 1, 2, 10, 30, 31]
  ability := 1
  characteristic := 0
  gender := 2
  hiddenPower := 15
  hiddenPowerStrength := 70
  level := 25
  nature := 24
  shiny := 0

/-- C96: its text -/
example : str sampleState = .ok (c!"Advance: 7, Species: Unown-3, Level: 25, PID: 000A5D31, Nature: Quirky, " ++
    c!"Ability: Levitate (1), IVs: 0/1/2/10/30/31, Stats: 60/30/31/32/33/34, HP: Dark (70), Gender: -") := by
  decide +kernel

/-- C96: another state with the same text, which differs in a value that is not printed -/
example : str { sampleState with shiny := 2, characteristic := 9 } = str sampleState := rfl

end Verif.Gen3
