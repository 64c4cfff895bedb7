import Verif.Lemmas.ShippedPersonal
import Mathlib.Tactic.IntervalCases
/-
A check of the pieces of a personal file, evaluated by the kernel, and what it implies.
-/
namespace Verif.ShippedPersonal
open Personal ShippedPersonalSpec

/-! ### the check -/

def dig (p o s : Nat) : Nat := Nat.mod (Nat.div p (Nat.pow 256 (Nat.add o 2))) (Nat.pow 256 s)

def both (a b : Bool) : Bool := Bool.rec false b a

def either (a b : Bool) : Bool := Bool.rec b true a

def isZero (x : Nat) : Bool := Nat.rec true (fun _ _ => false) x

def among (x : Nat) (l : List Nat) : Bool := List.rec false (fun y _ r => either (Nat.beq x y) r) l

/-- `k x`, with `x` evaluated first -/
def ev {α : Type} (x : Nat) (k : Nat → α) : α := Nat.rec (k 0) (fun n _ => k (Nat.succ n)) x

/-- `f` holds of all the numbers and their positions, from position `i` -/
def allFrom (f : Nat → Nat → Bool) (l : List Nat) : Nat → Bool :=
  List.rec (fun _ => true) (fun p _ r i => ev i fun i => ev p fun p => both (f i p) (r (Nat.succ i))) l

/-- the places of the fields -/
structure Places where
  gender : Nat
  growth : Nat
  egg1 : Nat
  egg2 : Nat
  exp : Nat × FieldTy
  index : Nat
  count : Nat

def places : Table → Places
  | .dp | .pt => ⟨0x10, 0x13, 0x14, 0x15, (9, .u8), 42, 41⟩
  | .swsh | .bdsp | .la => ⟨0x12, 0x15, 0x16, 0x17, (34, .u16), 30, 32⟩
  | _ => ⟨0x12, 0x15, 0x16, 0x17, (34, .u16), 28, 32⟩

def eggOk (x : Nat) : Bool := both (Nat.ble 1 x) (Nat.ble x 15)

def recordOk (t : Table) (p : Nat) : Bool :=
  both (either
      (both (isZero (dig p 0 1)) <| both (isZero (dig p 1 1)) <| both (isZero (dig p 2 1)) <| both (isZero (dig p 3 1)) <|
        both (isZero (dig p 4 1)) (isZero (dig p 5 1)))
      (both (Nat.ble 1 (dig p 0 1)) <| both (Nat.ble 1 (dig p 1 1)) <| both (Nat.ble 1 (dig p 2 1)) <| both (Nat.ble 1 (dig p 3 1)) <|
        both (Nat.ble 1 (dig p 4 1)) <| both (Nat.ble 1 (dig p 5 1)) <|
        both (eggOk (dig p (places t).egg1 1)) <| both (eggOk (dig p (places t).egg2 1)) <|
        both (Nat.ble 1 (dig p (places t).count 1)) <| both (Nat.ble (dig p (places t).count 1) 28) <|
        both (Nat.ble 1 (dig p (places t).exp.1 (places t).exp.2.size)) (Nat.ble (dig p (places t).exp.1 (places t).exp.2.size) 635))) <|
  both (Nat.ble (dig p 6 1) (maxType t)) <|
  both (Nat.ble (dig p 7 1) (maxType t)) <|
  both (ev (dig p (places t).gender 1) fun g => among g (genderRatios t)) (Nat.ble (dig p (places t).growth 1) 5)

/-- number, index of the further forms and number of forms of the entries with further forms, among the first `n` -/
def rows {α : Type} (t : Table) : Nat → Nat → List Nat → (List (Nat × Nat × Nat) → α) → α
  | 0, _, _, k => k []
  | _ + 1, _, [], k => k []
  | n + 1, i, p :: ps, k =>
    match isZero (dig p (places t).index 2) with
    | true => rows t n (Nat.succ i) ps k
    | false => ev i fun i => ev (dig p (places t).index 2) fun f => ev (dig p (places t).count 1) fun c =>
        rows t n (Nat.succ i) ps fun rs => k ((i, f, c) :: rs)

/-- the rows with record `k` -/
def owners (k : Nat) : List (Nat × Nat × Nat) → List (Nat × Nat × Nat)
  | [] => []
  | (i, f, c) :: rs =>
    match both (Nat.ble f k) (Nat.blt (Nat.succ k) (Nat.add f c)) with
    | true => (i, f, c) :: owners k rs
    | false => owners k rs

def rowOk (t : Table) (n : Nat) : Nat × Nat × Nat → Bool
  | (_, f, c) => both (Nat.ble (firstForm t) f) <| both (Nat.ble 2 c) (Nat.ble (Nat.add f c) (Nat.succ n))

def rowsOk (t : Table) (n : Nat) : List (Nat × Nat × Nat) → Bool
  | [] => true
  | r :: rs => both (rowOk t n r) (rowsOk t n rs)

/-- record `k` of the form `k + 1 - f` of entry `i` -/
def formOk (t : Table) (p k i f c : Nat) : Bool :=
  match t with
  | .sm | .usum => both (Nat.beq (dig p 28 2) f) (Nat.beq (dig p 32 1) c)
  | .bdsp => both (Nat.beq (dig p 30 2) f) <| both (Nat.beq (dig p 32 1) c) (Nat.beq (dig p 60 2) i)
  | .la => both (Nat.beq (dig p 92 2) i) (Nat.beq (Nat.add (dig p 94 2) f) (Nat.succ k))
  | _ => true

def ownersOk (t : Table) (p k : Nat) : List (Nat × Nat × Nat) → Bool
  | [] => match t with
    | .swsh => true
    | _ => false
  | [(i, f, c)] => formOk t p k i f c
  | _ => false

def formsOk (t : Table) (ps : List Nat) (n : Nat) (rs : List (Nat × Nat × Nat)) : Bool :=
  both (rowsOk t n rs) (allFrom (fun k p => ownersOk t p k (owners k rs)) (ps.drop (firstForm t)) (firstForm t))

def baseOk (t : Table) (i p : Nat) : Bool :=
  match t with
  | .bdsp => Nat.beq (dig p 60 2) i
  | .la => both (Nat.beq (dig p 92 2) i) (isZero (dig p 94 2))
  | _ => true

def presentOk (t : Table) (i p : Nat) : Bool :=
  match i, t with
  | 0, _ => isZero (dig p 0 1)
  | _ + 1, .swsh => true
  | _ + 1, .la => true
  | _ + 1, _ => Nat.ble 1 (dig p 0 1)

def tableOk (t : Table) (n : Nat) : Bool :=
  both (Nat.beq (pieces t).2.length n) <|
  both (allFrom (fun i p => both (recordOk t p) (presentOk t i p)) (pieces t).2 0) <|
  both (allFrom (fun i p => baseOk t i p) ((pieces t).2.take (firstForm t)) 0)
    (rows t (firstForm t) 0 (pieces t).2 (formsOk t (pieces t).2 n))

/-! ### what it implies -/

theorem dig_eq (p o s : Nat) : dig p o s = digit p o s := rfl

theorem both_eq (a b : Bool) : both a b = true ↔ a = true ∧ b = true := by cases a <;> cases b <;> decide

theorem either_eq (a b : Bool) : either a b = true ↔ a = true ∨ b = true := by cases a <;> cases b <;> decide

theorem isZero_eq (x : Nat) : isZero x = true ↔ x = 0 := by cases x <;> simp [isZero]

theorem among_eq (x : Nat) (l : List Nat) : among x l = true ↔ x ∈ l := by
  induction l with
  | nil => simp [among]
  | cons y l ih =>
    have : among x (y :: l) = either (Nat.beq x y) (among x l) := rfl
    rw [this, either_eq, ih, List.mem_cons, Nat.beq_eq]

theorem ev_eq {α : Type} (x : Nat) (k : Nat → α) : ev x k = k x := by cases x <;> rfl

theorem allFrom_eq (f : Nat → Nat → Bool) (l : List Nat) (i : Nat) :
    allFrom f l i = true ↔ ∀ j < l.length, f (i + j) (l.getD j 0) = true := by
  induction l generalizing i with
  | nil => simp [allFrom]
  | cons p l ih =>
    have : allFrom f (p :: l) i = ev i fun i => ev p fun p => both (f i p) (allFrom f l (Nat.succ i)) := rfl
    rw [this, ev_eq, ev_eq, both_eq, ih]
    constructor
    · rintro ⟨h1, h2⟩ j hj
      cases j with
      | zero => simpa using h1
      | succ j =>
        have := h2 j (by simpa using hj)
        rw [show i + (j + 1) = i.succ + j from by omega]
        simpa using this
    · intro h
      refine ⟨by simpa using h 0 (by simp), fun j hj => ?_⟩
      have := h (j + 1) (by simpa using hj)
      rw [show i + (j + 1) = i.succ + j from by omega] at this
      simpa using this

theorem place_ok (t : Table) (ht : t ∈ tables) :
    (∀ j < 6, place (stats.getD j "") t.source.2 = some (j, .u8)) ∧
    place "type_1" t.source.2 = some (6, .u8) ∧ place "type_2" t.source.2 = some (7, .u8) ∧
    place "gender_ratio" t.source.2 = some ((places t).gender, .u8) ∧
    place "exp_growth" t.source.2 = some ((places t).growth, .u8) ∧
    place "egg_group_1" t.source.2 = some ((places t).egg1, .u8) ∧
    place "egg_group_2" t.source.2 = some ((places t).egg2, .u8) ∧
    place "base_exp" t.source.2 = some (places t).exp ∧ ((places t).exp.2 = .u8 ∨ (places t).exp.2 = .u16) ∧
    place "form_stats_index" t.source.2 = some ((places t).index, .u16) ∧
    place "form_count" t.source.2 = some ((places t).count, .u8) := by
  have h : ∀ t ∈ tables, (∀ j < 6, place (stats.getD j "") t.source.2 = some (j, .u8)) ∧
    place "type_1" t.source.2 = some (6, .u8) ∧ place "type_2" t.source.2 = some (7, .u8) ∧
    place "gender_ratio" t.source.2 = some ((places t).gender, .u8) ∧
    place "exp_growth" t.source.2 = some ((places t).growth, .u8) ∧
    place "egg_group_1" t.source.2 = some ((places t).egg1, .u8) ∧
    place "egg_group_2" t.source.2 = some ((places t).egg2, .u8) ∧
    place "base_exp" t.source.2 = some (places t).exp ∧ ((places t).exp.2 = .u8 ∨ (places t).exp.2 = .u16) ∧
    place "form_stats_index" t.source.2 = some ((places t).index, .u16) ∧
    place "form_count" t.source.2 = some ((places t).count, .u8) := by decide +kernel
  exact h t ht

/-- piece `i` -/
abbrev piece (t : Table) (i : Nat) : Nat := (pieces t).2.getD i 0

theorem index_eq (t : Table) (ht : t ∈ tables) (i : Nat) (hi : i < (pieces t).2.length) :
    entry t (records t) i "form_stats_index" = dig (piece t i) (places t).index 2 :=
  entry_eq t i _ _ _ hi (place_ok t ht).2.2.2.2.2.2.2.2.2.1 (.inr rfl)

theorem count_eq (t : Table) (ht : t ∈ tables) (i : Nat) (hi : i < (pieces t).2.length) :
    entry t (records t) i "form_count" = dig (piece t i) (places t).count 1 :=
  entry_eq t i _ _ _ hi (place_ok t ht).2.2.2.2.2.2.2.2.2.2 (.inl rfl)

theorem hp_eq (t : Table) (ht : t ∈ tables) (i : Nat) (hi : i < (pieces t).2.length) :
    entry t (records t) i "hp" = dig (piece t i) 0 1 :=
  entry_eq t i _ _ _ hi ((place_ok t ht).1 0 (by omega)) (.inl rfl)

theorem eggOk_eq (x : Nat) (h : eggOk x = true) : x ∈ List.range' 1 15 := by
  rw [eggOk, both_eq, Nat.ble_eq, Nat.ble_eq] at h
  rw [List.mem_range'_1]
  omega

theorem recordOk_facts (t : Table) (ht : t ∈ tables) (i : Nat) (hi : i < (pieces t).2.length)
    (h : recordOk t (piece t i) = true) : RecordFacts t (records t) i := by
  obtain ⟨p0, p1, p2, p3, p4, p5, p6, p7, p8, p9, p10⟩ := place_ok t ht
  have e : ∀ name o ty, place name t.source.2 = some (o, ty) → ty = .u8 ∨ ty = .u16 →
      entry t (records t) i name = dig (piece t i) o ty.size := fun name o ty h1 h2 => entry_eq t i name o ty hi h1 h2
  have s : ∀ s ∈ stats, ∃ j < 6, entry t (records t) i s = dig (piece t i) j 1 := by
    intro s hs
    obtain ⟨j, hj, rfl⟩ := List.getElem_of_mem hs
    have hj6 : j < 6 := hj
    refine ⟨j, hj6, ?_⟩
    have := p0 j hj6
    rw [List.getD_eq_getElem?_getD, List.getElem?_eq_getElem hj, Option.getD_some] at this
    exact e _ _ _ this (.inl rfl)
  have hp := e _ _ _ (p0 0 (by omega)) (.inl rfl)
  change entry t (records t) i "hp" = dig (piece t i) 0 1 at hp
  simp only [recordOk, both_eq, either_eq, isZero_eq, Nat.ble_eq, among_eq, ev_eq] at h
  obtain ⟨h1, h2, h3, h4, h5⟩ := h
  have hpres : Present t (records t) i → _ := fun hp' => h1.resolve_left fun h0 => hp' (by rw [hp]; exact h0.1)
  refine ⟨?_, ⟨?_, ?_⟩, ?_, ?_, fun h0 => ?_, fun h0 => ?_, fun h0 => ?_⟩
  · rcases h1 with ⟨z0, z1, z2, z3, z4, z5⟩ | ⟨z0, z1, z2, z3, z4, z5, _⟩
    · refine .inr fun x hx => ?_
      obtain ⟨j, hj, hx⟩ := s x hx
      rw [hx]
      interval_cases j <;> assumption
    · refine .inl fun x hx => ?_
      obtain ⟨j, hj, hx⟩ := s x hx
      rw [hx]
      interval_cases j <;> omega
  · rw [e _ _ _ p1 (.inl rfl)]; exact h2
  · rw [e _ _ _ p2 (.inl rfl)]; exact h3
  · rw [e _ _ _ p3 (.inl rfl)]; exact h4
  · rw [e _ _ _ p4 (.inl rfl)]; exact h5
  · obtain ⟨_, _, _, _, _, _, q1, q2, _⟩ := hpres h0
    rw [e _ _ _ p5 (.inl rfl), e _ _ _ p6 (.inl rfl)]
    exact ⟨eggOk_eq _ q1, eggOk_eq _ q2⟩
  · obtain ⟨_, _, _, _, _, _, _, _, q1, q2, _⟩ := hpres h0
    rw [e _ _ _ p10 (.inl rfl)]
    exact ⟨q1, q2⟩
  · obtain ⟨_, _, _, _, _, _, _, _, _, _, q1, q2⟩ := hpres h0
    rw [e _ _ _ p7 p8]
    exact ⟨q1, q2⟩

/-- the rows, without continuation -/
def rowList (t : Table) : Nat → Nat → List Nat → List (Nat × Nat × Nat)
  | 0, _, _ => []
  | _ + 1, _, [] => []
  | n + 1, i, p :: ps =>
    if dig p (places t).index 2 = 0 then rowList t n (i + 1) ps
    else (i, dig p (places t).index 2, dig p (places t).count 1) :: rowList t n (i + 1) ps

theorem rows_eq {α : Type} (t : Table) (n i : Nat) (ps : List Nat) (k : List (Nat × Nat × Nat) → α) :
    rows t n i ps k = k (rowList t n i ps) := by
  induction n generalizing i ps k with
  | zero => rfl
  | succ n ih =>
    cases ps with
    | nil => rfl
    | cons p ps =>
      unfold rows rowList
      by_cases h : dig p (places t).index 2 = 0
      · rw [if_pos h, (isZero_eq _).2 h]
        exact ih _ _ _
      · rw [if_neg h, Bool.eq_false_iff.2 (fun h' => h ((isZero_eq _).1 h'))]
        simp only [ev_eq, ih]

theorem mem_rowList (t : Table) (n i : Nat) (ps : List Nat) (x : Nat × Nat × Nat) :
    x ∈ rowList t n i ps ↔ ∃ j < n, j < ps.length ∧ dig (ps.getD j 0) (places t).index 2 ≠ 0 ∧
      x = (i + j, dig (ps.getD j 0) (places t).index 2, dig (ps.getD j 0) (places t).count 1) := by
  induction n generalizing i ps with
  | zero => simp [rowList]
  | succ n ih =>
    cases ps with
    | nil => simp [rowList]
    | cons p ps =>
      have key : (∃ j < n + 1, j < (p :: ps).length ∧ dig ((p :: ps).getD j 0) (places t).index 2 ≠ 0 ∧
          x = (i + j, dig ((p :: ps).getD j 0) (places t).index 2, dig ((p :: ps).getD j 0) (places t).count 1)) ↔
          (dig p (places t).index 2 ≠ 0 ∧ x = (i, dig p (places t).index 2, dig p (places t).count 1)) ∨
          ∃ j < n, j < ps.length ∧ dig (ps.getD j 0) (places t).index 2 ≠ 0 ∧
            x = (i + 1 + j, dig (ps.getD j 0) (places t).index 2, dig (ps.getD j 0) (places t).count 1) := by
        constructor
        · rintro ⟨j, h1, h2, h3, h4⟩
          cases j with
          | zero => exact .inl ⟨by simpa using h3, by simpa using h4⟩
          | succ j =>
            refine .inr ⟨j, by omega, by simpa using h2, by simpa using h3, ?_⟩
            rw [show i + 1 + j = i + (j + 1) from by omega]
            simpa using h4
        · rintro (⟨h1, h2⟩ | ⟨j, h1, h2, h3, h4⟩)
          · exact ⟨0, by omega, by simp, by simpa using h1, by simpa using h2⟩
          · refine ⟨j + 1, by omega, by simpa using h2, by simpa using h3, ?_⟩
            rw [show i + (j + 1) = i + 1 + j from by omega]
            simpa using h4
      rw [key, ← ih]
      rw [rowList]
      by_cases h : dig p (places t).index 2 = 0
      · simp [h]
      · simp [h]

theorem mem_owners (k : Nat) (rs : List (Nat × Nat × Nat)) (i f c : Nat) :
    (i, f, c) ∈ owners k rs ↔ (i, f, c) ∈ rs ∧ f ≤ k ∧ k + 1 < f + c := by
  have hb : ∀ f c, both (Nat.ble f k) (Nat.blt (Nat.succ k) (Nat.add f c)) = true ↔ f ≤ k ∧ k + 1 < f + c := by
    intro f c
    rw [both_eq, Nat.ble_eq, Nat.blt_eq]
    rfl
  induction rs with
  | nil => simp [owners]
  | cons r rs ih =>
    obtain ⟨i', f', c'⟩ := r
    unfold owners
    by_cases h : f' ≤ k ∧ k + 1 < f' + c'
    · rw [(hb f' c').2 h]
      simp only [List.mem_cons, ih, Prod.mk.injEq]
      constructor
      · rintro (⟨rfl, rfl, rfl⟩ | h')
        · exact ⟨.inl ⟨rfl, rfl, rfl⟩, h⟩
        · exact ⟨.inr h'.1, h'.2⟩
      · rintro ⟨h1 | h1, h2⟩
        · exact .inl h1
        · exact .inr ⟨h1, h2⟩
    · rw [Bool.eq_false_iff.2 (fun h' => h ((hb f' c').1 h'))]
      simp only [List.mem_cons, ih, Prod.mk.injEq]
      constructor
      · rintro h'
        exact ⟨.inr h'.1, h'.2⟩
      · rintro ⟨⟨rfl, rfl, rfl⟩ | h1, h2⟩
        · exact absurd h2 h
        · exact ⟨h1, h2⟩

theorem rowsOk_mem (t : Table) (n : Nat) (rs : List (Nat × Nat × Nat)) (h : rowsOk t n rs = true) (r : Nat × Nat × Nat) (hr : r ∈ rs) :
    firstForm t ≤ r.2.1 ∧ 2 ≤ r.2.2 ∧ r.2.1 + r.2.2 ≤ n + 1 := by
  induction rs with
  | nil => simp at hr
  | cons x rs ih =>
    rw [rowsOk, both_eq] at h
    rcases List.mem_cons.1 hr with rfl | hr
    · obtain ⟨i, f, c⟩ := r
      have := h.1
      rw [rowOk, both_eq, both_eq, Nat.ble_eq, Nat.ble_eq, Nat.ble_eq] at this
      exact this
    · exact ih h.2 hr

/-- what a check of a table says about the forms -/
structure FormFacts (t : Table) : Prop where
  range : ∀ i, i < firstForm t → entry t (records t) i "form_stats_index" ≠ 0 →
    firstForm t ≤ entry t (records t) i "form_stats_index" ∧ 2 ≤ entry t (records t) i "form_count" ∧
      entry t (records t) i "form_stats_index" + entry t (records t) i "form_count" ≤ (records t).length + 1
  one : ∀ k, firstForm t ≤ k → k < (records t).length → ∀ i j i' j', FormOf t (records t) i j k → FormOf t (records t) i' j' k →
    i = i' ∧ j = j'
  all : t ≠ .swsh → ∀ k, firstForm t ≤ k → k < (records t).length → ∃ i j, FormOf t (records t) i j k
  form : ∀ i j k, FormOf t (records t) i j k →
    formOk t (piece t k) k i (entry t (records t) i "form_stats_index") (entry t (records t) i "form_count") = true

theorem tableOk_facts (t : Table) (ht : t ∈ tables) (n : Nat) (hb : firstForm t ≤ n) (h : tableOk t n = true) :
    (records t).length = n ∧ (∀ i < n, RecordFacts t (records t) i) ∧ (∀ i < n, presentOk t i (piece t i) = true) ∧
      (∀ i < firstForm t, baseOk t i (piece t i) = true) ∧ FormFacts t := by
  rw [tableOk, both_eq, both_eq, both_eq, Nat.beq_eq, rows_eq, formsOk, both_eq, allFrom_eq, allFrom_eq, allFrom_eq] at h
  obtain ⟨hn, h1, h2, h3, h4⟩ := h
  have hl : (records t).length = n := by rw [records_length, hn]
  have hrow : ∀ i f c, (i, f, c) ∈ rowList t (firstForm t) 0 (pieces t).2 ↔ i < firstForm t ∧
      entry t (records t) i "form_stats_index" ≠ 0 ∧ f = entry t (records t) i "form_stats_index" ∧
      c = entry t (records t) i "form_count" := by
    intro i f c
    rw [mem_rowList]
    constructor
    · rintro ⟨j, hj, hj', hz, he⟩
      simp only [Prod.mk.injEq] at he
      obtain ⟨rfl, rfl, rfl⟩ := he
      rw [Nat.zero_add, index_eq t ht j hj', count_eq t ht j hj']
      exact ⟨hj, hz, rfl, rfl⟩
    · rintro ⟨hi, hz, rfl, rfl⟩
      have hi' : i < (pieces t).2.length := by omega
      rw [index_eq t ht i hi'] at hz
      exact ⟨i, hi, hi', hz, by rw [Nat.zero_add, index_eq t ht i hi', count_eq t ht i hi']⟩
  have hown : ∀ i j k, FormOf t (records t) i j k →
      (i, entry t (records t) i "form_stats_index", entry t (records t) i "form_count") ∈
        owners k (rowList t (firstForm t) 0 (pieces t).2) := by
    rintro i j k ⟨hi, hj, hj', hz, rfl⟩
    rw [mem_owners, hrow]
    exact ⟨⟨hi, hz, rfl, rfl⟩, by omega, by omega⟩
  have hk : ∀ k, firstForm t ≤ k → k < n →
      ownersOk t (piece t k) k (owners k (rowList t (firstForm t) 0 (pieces t).2)) = true := by
    intro k hk hk'
    have := h4 (k - firstForm t) (by rw [List.length_drop]; omega)
    rw [show firstForm t + (k - firstForm t) = k from by omega] at this
    rw [List.getD_eq_getElem?_getD, List.getElem?_drop, show firstForm t + (k - firstForm t) = k from by omega,
      ← List.getD_eq_getElem?_getD] at this
    exact this
  have hrange : ∀ i, i < firstForm t → entry t (records t) i "form_stats_index" ≠ 0 →
      firstForm t ≤ entry t (records t) i "form_stats_index" ∧ 2 ≤ entry t (records t) i "form_count" ∧
        entry t (records t) i "form_stats_index" + entry t (records t) i "form_count" ≤ n + 1 := fun i hi hz =>
    rowsOk_mem t n _ h3 _ ((hrow i _ _).2 ⟨hi, hz, rfl, rfl⟩)
  have hkr : ∀ i j k, FormOf t (records t) i j k → firstForm t ≤ k ∧ k < n := by
    rintro i j k ⟨hi, hj, hj', hz, rfl⟩
    have := hrange i hi hz
    omega
  refine ⟨hl, fun i hi => ?_, fun i hi => ?_, fun i hi => ?_, ⟨?_, ?_, ?_, ?_⟩⟩
  · have := h1 i (by omega)
    rw [Nat.zero_add, both_eq] at this
    exact recordOk_facts t ht i (by omega) this.1
  · have := h1 i (by omega)
    rw [Nat.zero_add, both_eq] at this
    exact this.2
  · have := h2 i (by rw [List.length_take]; omega)
    rw [Nat.zero_add, List.getD_eq_getElem?_getD, List.getElem?_take, if_pos hi, ← List.getD_eq_getElem?_getD] at this
    exact this
  · rw [hl]; exact hrange
  · rw [hl]
    intro k hk1 hk2 i j i' j' hf hf'
    have ho := hk k hk1 hk2
    have m := hown i j k hf
    have m' := hown i' j' k hf'
    revert ho m m'
    generalize owners k (rowList t (firstForm t) 0 (pieces t).2) = os
    intro ho m m'
    match os, ho with
    | [(a, b, c)], _ =>
      rw [List.mem_singleton, Prod.mk.injEq] at m m'
      have hi : i = i' := by rw [m.1, m'.1]
      subst hi
      refine ⟨rfl, ?_⟩
      have e1 := hf.2.2.2.2
      have e2 := hf'.2.2.2.2
      have := hf.2.1
      have := hf'.2.1
      omega
  · rw [hl]
    intro hs k hk1 hk2
    have ho := hk k hk1 hk2
    cases hos : owners k (rowList t (firstForm t) 0 (pieces t).2) with
    | nil => rw [hos] at ho; cases t <;> first | exact absurd rfl hs | exact absurd ho (by simp [ownersOk])
    | cons x os =>
      obtain ⟨i, f, c⟩ := x
      have hm : (i, f, c) ∈ owners k (rowList t (firstForm t) 0 (pieces t).2) := by rw [hos]; exact List.mem_cons_self
      rw [mem_owners, hrow] at hm
      obtain ⟨⟨hi, hz, rfl, rfl⟩, hf1, hf2⟩ := hm
      exact ⟨i, k + 1 - entry t (records t) i "form_stats_index", hi, by omega, by omega, hz, by omega⟩
  · intro i j k hf
    obtain ⟨hk1, hk2⟩ := hkr i j k hf
    have ho := hk k hk1 hk2
    have m := hown i j k hf
    revert ho m
    generalize owners k (rowList t (firstForm t) 0 (pieces t).2) = os
    intro ho m
    match os, ho with
    | [(a, b, c)], ho =>
      rw [List.mem_singleton, Prod.mk.injEq, Prod.mk.injEq] at m
      obtain ⟨rfl, rfl, rfl⟩ := m
      exact ho

end Verif.ShippedPersonal
