import Verif.Model.EnumClass
import Verif.Data.Text
import Mathlib.Data.List.Nodup
import Mathlib.Data.List.Induction
/-
C125: names and members of the `IntEnum` classes.
-/
namespace Verif.EnumClass

/-! ### Specification -/

/-- Specification: what a class body says about its names, read from the last assignment backwards: the integer a name stands for. -/
inductive Says : Body → String → Nat → Prop
  | int (b : Body) (n : String) (v : Nat) : Says (b ++ [(n, .int v)]) n v
  | same (b : Body) (n m : String) (v : Nat) : Says b m v → Says (b ++ [(n, .same m)]) n v
  | skip (b : Body) (a : String × Rhs) (n : String) (v : Nat) : Says b n v → Says (b ++ [a]) n v

/-- Specification: `first` is the first name of the body that stands for `v`. -/
def First (b : Body) (first : String) (v : Nat) : Prop :=
  ∃ b₁ r b₂, b = b₁ ++ (first, r) :: b₂ ∧ Says (b₁ ++ [(first, r)]) first v ∧ ∀ n, ¬ Says b₁ n v

/-! ### Class creation -/

theorem get_append (m : List (String × Member)) (k : String) (x : Member) (n : String) :
    get (m ++ [(k, x)]) n = (get m n).or (if k = n then some x else none) := by
  simp only [get, List.find?_append, List.find?_cons, List.find?_nil]
  cases h : m.find? (fun p => p.1 == n) with
  | some p => simp
  | none =>
    by_cases hk : k = n
    · subst hk; simp
    · have hk' : (k == n) = false := by simpa using hk
      simp [hk, hk']

/-- the class agrees with the part of the body read so far -/
structure Ok (b : Body) (c : Cls) : Prop where
  said : ∀ n v, Says b n v ↔ ∃ m, get c.map n = some m ∧ m.value = v
  member : ∀ m, m ∈ c.members ↔ First b m.name m.value
  mapped : ∀ n m, get c.map n = some m → m ∈ c.members
  nodup : (c.members.map (·.value)).Nodup

theorem says_nil (n : String) (v : Nat) : ¬ Says [] n v := by
  intro h
  generalize hb : ([] : Body) = b at h
  cases h <;> simp at hb

theorem says_append {b : Body} {a : String × Rhs} {n : String} {v : Nat} :
    Says (b ++ [a]) n v ↔ Says b n v ∨ (a.1 = n ∧ (a.2 = .int v ∨ ∃ m, a.2 = .same m ∧ Says b m v)) := by
  constructor
  · intro h
    generalize hb : b ++ [a] = b' at h
    cases h with
    | int b₁ n v =>
      obtain ⟨rfl, h2⟩ := List.append_inj' hb rfl
      obtain rfl : a = _ := by simpa using h2
      exact .inr ⟨rfl, .inl rfl⟩
    | same b₁ n m v h =>
      obtain ⟨rfl, h2⟩ := List.append_inj' hb rfl
      obtain rfl : a = _ := by simpa using h2
      exact .inr ⟨rfl, .inr ⟨m, rfl, h⟩⟩
    | skip b₁ a' n v h =>
      obtain ⟨rfl, h2⟩ := List.append_inj' hb rfl
      exact .inl h
  · obtain ⟨k, r⟩ := a
    rintro (h | ⟨rfl, h | ⟨m, h, h'⟩⟩)
    · exact .skip _ _ _ _ h
    · simp only at h; subst h; exact .int _ _ _
    · simp only at h; subst h; exact .same _ _ _ _ h'

theorem first_append {b : Body} {a : String × Rhs} {f : String} {v : Nat} :
    First (b ++ [a]) f v ↔ First b f v ∨ (a.1 = f ∧ Says (b ++ [a]) f v ∧ ∀ n, ¬ Says b n v) := by
  constructor
  · rintro ⟨b₁, r, b₂, e, h1, h2⟩
    rcases List.eq_nil_or_concat b₂ with rfl | ⟨b₃, x, rfl⟩
    · obtain ⟨rfl, h3⟩ := List.append_inj' e rfl
      obtain rfl : a = _ := by simpa using h3
      exact .inr ⟨rfl, h1, h2⟩
    · refine .inl ⟨b₁, r, b₃, ?_, h1, h2⟩
      have e' : b ++ [a] = (b₁ ++ (f, r) :: b₃) ++ [x] := by rw [e]; simp
      exact (List.append_inj' e' rfl).1
  · rintro (⟨b₁, r, b₂, rfl, h1, h2⟩ | ⟨rfl, h1, h2⟩)
    · exact ⟨b₁, r, b₂ ++ [a], by simp, h1, h2⟩
    · exact ⟨b, a.2, [], rfl, h1, h2⟩

/-- a value is first named by one name -/
theorem says_of_first {b : Body} {f : String} {v : Nat} (h : First b f v) : Says b f v := by
  obtain ⟨b₁, r, b₂, rfl, h1, -⟩ := h
  induction b₂ using List.reverseRecOn with
  | nil => exact h1
  | append_singleton b₃ x ih =>
    have : b₁ ++ (f, r) :: (b₃ ++ [x]) = (b₁ ++ (f, r) :: b₃) ++ [x] := by simp
    rw [this]
    exact .skip _ _ _ _ ih

theorem assign_ok {b : Body} {c c' : Cls} {a : String × Rhs} (h : Ok b c) (e : assign c a = .ok c') : Ok (b ++ [a]) c' := by
  obtain ⟨k, r⟩ := a
  unfold assign at e
  by_cases hk : (get c.map k).isSome
  · simp [hk] at e
  have hk' : get c.map k = none := by simpa using hk
  simp only [hk, Bool.false_eq_true, if_false] at e
  -- the value
  cases hv : rhsValue c r with
  | error x => rw [hv] at e; cases e
  | ok v =>
  rw [hv] at e
  have hs : ∀ w, (r = .int w ∨ ∃ m, r = .same m ∧ Says b m w) ↔ w = v := by
    intro w
    cases r with
    | int n =>
      simp only [rhsValue, Except.ok.injEq] at hv
      subst hv
      simp [eq_comm]
    | same n =>
      cases hn : get c.map n with
      | none => simp [rhsValue, hn] at hv
      | some m =>
        simp only [rhsValue, hn, Except.ok.injEq] at hv
        subst hv
        simp [h.said, hn, eq_comm]
  have hsay : ∀ n w, Says (b ++ [(k, r)]) n w ↔ Says b n w ∨ (k = n ∧ w = v) := by
    intro n w
    rw [says_append, hs]
  have hnk : ∀ w, ¬ Says b k w := by
    intro w hw
    obtain ⟨m, hm, -⟩ := (h.said k w).1 hw
    rw [hk'] at hm
    cases hm
  cases hf : c.members.find? (fun m => m.value == v) with
  | some m =>
    simp only [hf, Except.ok.injEq] at e
    subst e
    have hm : m ∈ c.members := List.mem_of_find?_eq_some hf
    have hmv : m.value = v := by simpa using List.find?_some hf
    have hex : Says b m.name v := hmv ▸ says_of_first ((h.member m).1 hm)
    refine ⟨fun n w => ?_, fun m' => ?_, fun n m' hm' => ?_, h.nodup⟩
    · rw [hsay, get_append, h.said]
      by_cases hkn : k = n
      · subst hkn
        simp [hk', hmv, eq_comm]
      · cases get c.map n <;> simp [hkn]
    · rw [h.member, first_append]
      refine ⟨.inl, ?_⟩
      rintro (h' | ⟨rfl, h1, h2⟩)
      · exact h'
      · rcases (hsay _ _).1 h1 with h3 | ⟨-, h3⟩
        · exact absurd h3 (h2 _)
        · exact absurd (h3 ▸ hex) (h2 _)
    · rw [get_append] at hm'
      cases hg : get c.map n with
      | some x =>
        rw [hg] at hm'
        exact h.mapped n m' (by rw [hg]; exact hm')
      | none =>
        rw [hg] at hm'
        by_cases hkn : k = n
        · simp [hkn] at hm'
          exact hm' ▸ hm
        · simp [hkn] at hm'
  | none =>
    simp only [hf, Except.ok.injEq] at e
    subst e
    have hno : ∀ m ∈ c.members, m.value ≠ v := by simpa using hf
    have hnv : ∀ n, ¬ Says b n v := by
      intro n hn
      obtain ⟨m, hm, hmv⟩ := (h.said n v).1 hn
      exact hno m (h.mapped n m hm) hmv
    refine ⟨fun n w => ?_, fun m' => ?_, fun n m' hm' => ?_, ?_⟩
    · rw [hsay, get_append, h.said]
      by_cases hkn : k = n
      · subst hkn
        simp [hk', eq_comm]
      · cases get c.map n <;> simp [hkn]
    · rw [List.mem_append, h.member, first_append]
      refine or_congr Iff.rfl ?_
      rw [List.mem_singleton]
      constructor
      · rintro rfl
        exact ⟨rfl, (hsay _ _).2 (.inr ⟨rfl, rfl⟩), hnv⟩
      · rintro ⟨rfl, h1, h2⟩
        rcases (hsay _ _).1 h1 with h3 | ⟨-, h3⟩
        · exact absurd h3 (h2 _)
        · cases m'; simp at h3 ⊢; exact h3
    · rw [get_append] at hm'
      rw [List.mem_append, List.mem_singleton]
      cases hg : get c.map n with
      | some x =>
        rw [hg] at hm'
        exact .inl (h.mapped n m' (by rw [hg]; exact hm'))
      | none =>
        rw [hg] at hm'
        by_cases hkn : k = n
        · simp [hkn] at hm'
          subst hkn
          exact .inr hm'.symm
        · simp [hkn] at hm'
    · rw [List.map_append, List.nodup_append]
      refine ⟨h.nodup, by simp, ?_⟩
      intro x hx y hy
      simp only [List.map_cons, List.map_nil, List.mem_singleton] at hy
      obtain ⟨m, hm, rfl⟩ := List.mem_map.1 hx
      exact hy ▸ hno m hm

theorem createFrom_ok {b b' : Body} {c c' : Cls} (h : Ok b c) (e : createFrom c b' = .ok c') : Ok (b ++ b') c' := by
  induction b' generalizing b c with
  | nil =>
    simp only [createFrom, Except.ok.injEq] at e
    subst e
    simpa using h
  | cons a as ih =>
    unfold createFrom at e
    cases ha : assign c a with
    | error x => rw [ha] at e; cases e
    | ok c₁ =>
      rw [ha] at e
      have := ih (assign_ok h ha) e
      simpa using this

theorem create_ok {b : Body} {c : Cls} (e : create b = .ok c) : Ok b c := by
  have h0 : Ok [] ⟨[], []⟩ := by
    refine ⟨fun n v => ?_, fun m => ?_, fun n m h => by simp [get] at h, by simp⟩
    · simp [get, says_nil]
    · simp [First]
  exact createFrom_ok h0 e

/-- **C125** (every class body): lookup by name finds the member with the value the body gives the name, and that member is called
by the first name with that value; lookup by value finds it again; any other name or value raises. -/
theorem C125_lookup (b : Body) (c : Cls) (e : create b = .ok c) :
    (∀ n m, c.byName n = .ok m ↔ Says b n m.value ∧ First b m.name m.value) ∧
    (∀ v m, c.byValue v = .ok m ↔ m.value = v ∧ First b m.name v) ∧
    (∀ n, (∀ v, ¬ Says b n v) → c.byName n = .error .keyError) ∧
    (∀ v, (∀ n, ¬ Says b n v) → c.byValue v = .error .valueError) := by
  have h := create_ok e
  have uniq : ∀ m ∈ c.members, ∀ m' ∈ c.members, m.value = m'.value → m = m' := by
    intro m hm m' hm' hv
    exact List.inj_on_of_nodup_map h.nodup hm hm' hv
  refine ⟨fun n m => ?_, fun v m => ?_, fun n hn => ?_, fun v hv => ?_⟩
  · unfold Cls.byName
    cases hg : get c.map n with
    | none =>
      simp only [reduceCtorEq, false_iff]
      rintro ⟨h1, -⟩
      obtain ⟨m', hm', -⟩ := (h.said _ _).1 h1
      rw [hg] at hm'
      cases hm'
    | some x =>
      simp only [Except.ok.injEq]
      constructor
      · rintro rfl
        exact ⟨(h.said _ _).2 ⟨x, hg, rfl⟩, (h.member _).1 (h.mapped n x hg)⟩
      · rintro ⟨h1, h2⟩
        obtain ⟨m', hm', hv⟩ := (h.said _ _).1 h1
        rw [hg] at hm'
        cases hm'
        exact uniq _ (h.mapped n x hg) _ ((h.member _).2 h2) hv
  · unfold Cls.byValue
    cases hf : c.members.find? (fun m => m.value == v) with
    | none =>
      simp only [reduceCtorEq, false_iff]
      rintro ⟨rfl, h2⟩
      have hno : ∀ m' ∈ c.members, m'.value ≠ m.value := by simpa using hf
      exact hno m ((h.member m).2 h2) rfl
    | some x =>
      have hx : x ∈ c.members := List.mem_of_find?_eq_some hf
      have hxv : x.value = v := by simpa using List.find?_some hf
      simp only [Except.ok.injEq]
      constructor
      · rintro rfl
        exact ⟨hxv, hxv ▸ (h.member x).1 hx⟩
      · rintro ⟨rfl, h2⟩
        exact uniq _ hx _ ((h.member m).2 h2) hxv
  · unfold Cls.byName
    cases hg : get c.map n with
    | none => rfl
    | some x => exact absurd ((h.said _ _).2 ⟨x, hg, rfl⟩) (hn _)
  · unfold Cls.byValue
    cases hf : c.members.find? (fun m => m.value == v) with
    | none => rfl
    | some x =>
      have hx : x ∈ c.members := List.mem_of_find?_eq_some hf
      have hxv : x.value = v := by simpa using List.find?_some hf
      exact absurd (hxv ▸ says_of_first ((h.member x).1 hx)) (hv _)

/-- two names are the same member exactly if the body gives them the same value -/
theorem C125_same (b : Body) (c : Cls) (e : create b = .ok c) (n n' : String) (v v' : Nat) (h : Says b n v)
    (h' : Says b n' v') : c.byName n = c.byName n' ↔ v = v' := by
  have ok := create_ok e
  obtain ⟨m, hm, rfl⟩ := (ok.said _ _).1 h
  obtain ⟨m', hm', rfl⟩ := (ok.said _ _).1 h'
  simp only [Cls.byName, hm, hm', Except.ok.injEq]
  refine ⟨fun h => h ▸ rfl, fun hv => ?_⟩
  exact List.inj_on_of_nodup_map ok.nodup (ok.mapped _ _ hm) (ok.mapped _ _ hm') hv

/-! ### The classes of the package -/

/-- every class statement succeeds -/
theorem C125_creates (E : Enum) : ∃ c, create E.body = .ok c := by
  have h : (create E.body).toBool = true := by cases E <;> decide +kernel
  cases hc : create E.body with
  | ok c => exact ⟨c, rfl⟩
  | error x => rw [hc] at h; cases h

/-- Specification: the body declares the two names to be the same (`HUSTLE = PRESSURE`, or both equal to a third). -/
def Linked (b : Body) (n n' : String) : Prop :=
  ∃ p ∈ b, (n = p.1 ∨ (n, .same p.1) ∈ b) ∧ (n' = p.1 ∨ (n', .same p.1) ∈ b)

instance (b : Body) (n n' : String) : Decidable (Linked b n n') := by unfold Linked; infer_instance

/-- The claim: two names of a class are the same member only if the class body says so. -/
def C125Statement : Prop :=
  ∀ (E : Enum) c, create E.body = .ok c → ∀ n n' m, c.byName n = .ok m → c.byName n' = .ok m → Linked E.body n n'

/-- names that can be looked up stand in the body -/
theorem byName_mem {b : Body} {c : Cls} (e : create b = .ok c) {n : String} {m : Member} (h : c.byName n = .ok m) :
    n ∈ b.map (·.1) := by
  have hs := (((C125_lookup b c e).1 n m).1 h).1
  generalize m.value = v at hs
  clear h e
  induction hs with
  | int => simp
  | same => simp
  | skip _ _ _ _ _ ih => simp only [List.map_append, List.mem_append]; exact .inl ih

/-- `byName` of a class body, for evaluation -/
def look (b : Body) (n : String) : Option Member :=
  match create b with
  | .ok c => get c.map n
  | .error _ => none

theorem look_iff {b : Body} {c : Cls} (e : create b = .ok c) {n : String} {m : Member} :
    c.byName n = .ok m ↔ look b n = some m := by
  simp only [look, Cls.byName, e]
  cases h : get c.map n <;> simp

/-- **C125** (partial: all pairs of names but DIAMOND and PLATINUM). -/
theorem C125_partial (E : Enum) (c : Cls) (e : create E.body = .ok c) (n n' : String) (m : Member)
    (h : c.byName n = .ok m) (h' : c.byName n' = .ok m)
    (hE : E = .game → n ≠ n' → ¬ (n ∈ ["DIAMOND", "PLATINUM"] ∧ n' ∈ ["DIAMOND", "PLATINUM"])) : Linked E.body n n' := by
  have hn := byName_mem e h
  have hn' := byName_mem e h'
  have hl : look E.body n = look E.body n' := by rw [(look_iff e).1 h, (look_iff e).1 h']
  have key : ∀ n ∈ E.body.map (·.1), ∀ n' ∈ E.body.map (·.1), look E.body n = look E.body n' →
      (E = .game → n ≠ n' → ¬ (n ∈ ["DIAMOND", "PLATINUM"] ∧ n' ∈ ["DIAMOND", "PLATINUM"])) → Linked E.body n n' := by
    clear hE hl hn hn' h h' e
    cases E <;> decide +kernel
  exact key n hn n' hn' hl hE

/-- **C125 is false as stated**: PLATINUM was given the value of DIAMOND. -/
theorem C125_full_false : ¬ C125Statement := by
  intro h
  obtain ⟨c, e⟩ := C125_creates .game
  have h1 : c.byName "DIAMOND" = .ok ⟨"DIAMOND", 512⟩ := (look_iff e).2 (by decide +kernel)
  have h2 : c.byName "PLATINUM" = .ok ⟨"DIAMOND", 512⟩ := (look_iff e).2 (by decide +kernel)
  exact absurd (h .game c e _ _ _ h1 h2) (by decide +kernel)

/-- So `Game.PLATINUM` prints as DIAMOND, a loop over the games never visits it, and no member is called PLATINUM. -/
theorem C125_platinum (c : Cls) (e : create game = .ok c) :
    c.byName "PLATINUM" = c.byName "DIAMOND" ∧ c.byName "PLATINUM" = .ok ⟨"DIAMOND", 512⟩ ∧
    (∀ m ∈ c.members, m.name ≠ "PLATINUM") ∧ c.len = 29 ∧ game.length = 30 := by
  have h1 : c.byName "DIAMOND" = .ok ⟨"DIAMOND", 512⟩ := (look_iff e).2 (by decide +kernel)
  have h2 : c.byName "PLATINUM" = .ok ⟨"DIAMOND", 512⟩ := (look_iff e).2 (by decide +kernel)
  have h3 : ∀ d, create game = .ok d → (∀ m ∈ d.members, m.name ≠ "PLATINUM") ∧ d.len = 29 := by
    have h : (match create game with
      | .ok d => decide ((∀ m ∈ d.members, m.name ≠ "PLATINUM") ∧ d.len = 29)
      | .error _ => false) = true := by decide +kernel
    intro d hd
    rw [hd] at h
    simpa using h
  exact ⟨by rw [h1, h2], h2, (h3 c e).1, (h3 c e).2, rfl⟩

/-- The values of a class in the order of its members, for evaluation -/
def values (b : Body) : Option (List Nat) :=
  match create b with
  | .ok c => some (c.members.map (·.value))
  | .error _ => none

/-- **C125** (use as an index): in all classes but `Game` and `Lead` the values of the members are 0, 1, ..., len - 1, so
that a member is an index into an array with `len(E)` elements, and each element belongs to exactly one member. -/
theorem C125_index (E : Enum) (c : Cls) (e : create E.body = .ok c) (h1 : E ≠ .game) (h2 : E ≠ .lead) :
    c.members.map (·.value) = List.range c.len := by
  have key : ∀ E : Enum, E ≠ .game → E ≠ .lead → values E.body = some (List.range ((values E.body).getD []).length) := by
    intro E
    cases E <;> decide +kernel
  have := key E h1 h2
  simp only [values, e, Option.getD_some, List.length_map, Option.some.injEq] at this
  exact this

/-- the sizes of the arrays indexed by time and weather (`encounter_area_la.py:22-23`) -/
theorem C125_sizes (c c' : Cls) (e : create laTime = .ok c) (e' : create laWeather = .ok c') : c.len = 4 ∧ c'.len = 9 := by
  have h : ∀ b d, create b = .ok d → (values b).map (·.length) = some d.len := by
    intro b d hd
    simp [values, hd, Cls.len]
  have h1 : (values laTime).map (·.length) = some 4 := by decide +kernel
  have h2 : (values laWeather).map (·.length) = some 9 := by decide +kernel
  rw [h _ _ e] at h1
  rw [h _ _ e'] at h2
  exact ⟨by simpa using h1, by simpa using h2⟩

/-- **C125** (stored in a byte): `np.uint8` does not change the value of an encounter type, a lead or a method
(`wild_generator_3.py:39-45`). -/
theorem C125_byte (E : Enum) (c : Cls) (e : create E.body = .ok c) (h : E ≠ .game) (m : Member) (hm : m ∈ c.members) :
    m.value < 256 := by
  have key : ∀ E : Enum, E ≠ .game → ∀ v ∈ (values E.body).getD [], v < 256 := by
    intro E
    cases E <;> decide +kernel
  refine key E h m.value ?_
  simp only [values, e, Option.getD_some]
  exact List.mem_map_of_mem hm

/-- **C125** (Synchronize): a lead is at most `SYNCHRONIZE_QUIRKY` exactly if its name begins with SYNCHRONIZE, and its value is
then the index, in the list of natures, of the nature in the rest of its name. -/
theorem C125_synchronize (c : Cls) (e : create lead = .ok c) (n : String) (m : Member) (h : c.byName n = .ok m) :
    (m.value ≤ 24 ↔ "SYNCHRONIZE".toList <+: n.toList) ∧
    (m.value ≤ 24 → ∃ nature, Data.naturesEn[m.value]? = some nature ∧
      n.toList = "SYNCHRONIZE_".toList ++ nature.map Char.toUpper) := by
  have key : ∀ n ∈ lead.map (·.1), ∀ m, look lead n = some m →
      (m.value ≤ 24 ↔ "SYNCHRONIZE".toList <+: n.toList) ∧ (m.value ≤ 24 →
        (Data.naturesEn[m.value]?).map (fun nature => "SYNCHRONIZE_".toList ++ nature.map Char.toUpper) = some n.toList) := by
    have h : ∀ n ∈ lead.map (·.1), ∀ m ∈ (look lead n).toList,
        (m.value ≤ 24 ↔ "SYNCHRONIZE".toList <+: n.toList) ∧ (m.value ≤ 24 →
          (Data.naturesEn[m.value]?).map (fun nature => "SYNCHRONIZE_".toList ++ nature.map Char.toUpper) =
            some n.toList) := by decide +kernel
    intro n hn m hm
    exact h n hn m (by rw [hm]; simp)
  obtain ⟨h1, h2⟩ := key n (byName_mem e h) m ((look_iff e).1 h)
  refine ⟨h1, fun hv => ?_⟩
  have h3 := h2 hv
  cases hx : Data.naturesEn[m.value]? with
  | none => rw [hx] at h3; cases h3
  | some nature =>
    rw [hx] at h3
    exact ⟨nature, rfl, by simpa [eq_comm] using h3⟩

/-- The constants of `Model/Enums` are the values of these classes. -/
theorem C125_constants :
    (∀ p ∈ [("NONE", Game.none), ("RUBY", Game.ruby), ("SAPPHIRE", Game.sapphire), ("EMERALD", Game.emerald), ("FIRE_RED",
      Game.fireRed), ("LEAF_GREEN", Game.leafGreen), ("GALES", Game.gales), ("COLOSSEUM", Game.colosseum), ("DIAMOND",
      Game.diamond), ("PEARL", Game.pearl), ("PLATINUM", Game.platinum), ("HEART_GOLD", Game.heartGold),
      ("SOUL_SILVER", Game.soulSilver), ("BLACK", Game.black), ("WHITE", Game.white), ("BLACK2", Game.black2),
      ("WHITE2", Game.white2), ("X", Game.x), ("Y", Game.y), ("OMEGA_RUBY", Game.omegaRuby), ("ALPHA_SAPPHIRE",
      Game.alphaSapphire), ("SUN", Game.sun), ("MOON", Game.moon), ("ULTRA_SUN", Game.ultraSun), ("ULTRA_MOON",
      Game.ultraMoon), ("SWORD", Game.sword), ("SHIELD", Game.shield), ("BRILLIANT_DIAMOND", Game.brilliantDiamond),
      ("SHINING_PEARL", Game.shiningPearl), ("LEGENDS_ARCEUS", Game.legendsArceus)],
      (look game p.1).map (·.value) = some p.2.toNat) ∧
    (∀ p ∈ [("GRASS", Encounter.grass), ("ROCK_SMASH", Encounter.rockSmash), ("SURFING", Encounter.surfing), ("OLD_ROD",
      Encounter.oldRod), ("GOOD_ROD", Encounter.goodRod), ("SUPER_ROD", Encounter.superRod)],
      (look encounter p.1).map (·.value) = some p.2.toNat) ∧
    (∀ p ∈ [("NONE", Lead.none), ("SYNCHRONIZE_QUIRKY", Lead.synchronizeQuirky), ("CUTE_CHARM_F", Lead.cuteCharmF),
      ("CUTE_CHARM_M", Lead.cuteCharmM), ("MAGNET_PULL", Lead.magnetPull), ("STATIC", Lead.static), ("HARVEST",
      Lead.harvest), ("FLASH_FIRE", Lead.flashFire), ("STORM_DRAIN", Lead.stormDrain), ("PRESSURE", Lead.pressure)],
      (look lead p.1).map (·.value) = some p.2.toNat) ∧
    (∀ p ∈ [("METHOD_1", Method.method1), ("METHOD_2", Method.method2), ("METHOD_4", Method.method4)],
      (look method p.1).map (·.value) = some p.2.toNat) := by
  decide +kernel

/-! ### Examples -/

/-- the declared aliases do share a member -/
example : ∃ c, create lead = .ok c ∧ c.byName "HUSTLE" = c.byName "VITAL_SPIRIT" ∧ c.byName "HUSTLE" = .ok ⟨"PRESSURE", 32⟩ := by
  obtain ⟨c, e⟩ := C125_creates .lead
  have h1 : c.byName "HUSTLE" = .ok ⟨"PRESSURE", 32⟩ := (look_iff e).2 (by decide +kernel)
  have h2 : c.byName "VITAL_SPIRIT" = .ok ⟨"PRESSURE", 32⟩ := (look_iff e).2 (by decide +kernel)
  exact ⟨c, e, by rw [h1, h2], h1⟩

/-- a lead that meets the hypotheses of `C125_synchronize` -/
example : ∃ c, create lead = .ok c ∧ c.byName "SYNCHRONIZE_ADAMANT" = .ok ⟨"SYNCHRONIZE_ADAMANT", 3⟩ := by
  obtain ⟨c, e⟩ := C125_creates .lead
  exact ⟨c, e, (look_iff e).2 (by decide +kernel)⟩

/-- a body can fail: a name used twice, a name not known -/
example : (create [("A", .int 0), ("A", .int 1)] = .error .typeError) ∧ (create [("A", .same "B")] = .error .nameError) := by
  constructor <;> rfl

end Verif.EnumClass
