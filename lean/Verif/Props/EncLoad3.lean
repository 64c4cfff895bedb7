import Verif.Model.EncLoad3
import Mathlib.Data.List.Infix
import Mathlib.Tactic.SplitIfs
/-
C71: where the entries of the Gen 3 encounter data end up.
-/
namespace Verif.EncLoad3
open Gen3

/-! ### specification -/

/-- `s` is the (first) place of `name` in the list of species names. -/
def IsIndex (names : List Str) (name : Str) (s : Nat) : Prop :=
  names[s]? = some name ∧ ∀ t < s, names[t]? ≠ some name

/-- `slot` holds the entry `mon`, with form number `form` in bits 11-15 of the species. -/
structure SlotFor (names : List Str) (mon : Mon) (form : Nat) (slot : Slot3) : Prop where
  minLevel : slot.minLevel = BitVec.ofNat 8 mon.minLevel
  maxLevel : slot.maxLevel = BitVec.ofNat 8 mon.maxLevel
  species : ∃ s, IsIndex names mon.species s ∧ slot.species = BitVec.ofNat 16 s ||| BitVec.ofNat 16 (form * 2048)

/-- `slot` holds the `i`-th entry of the list, or is zero if there is none. -/
def Entry (names : List Str) (l : Option MonList) (i form : Nat) (slot : Slot3) : Prop :=
  match l.bind fun l => l.mons[i]? with
  | some mon => SlotFor names mon form slot
  | none => slot = ⟨0, 0, 0⟩

/-- The Tanoby chambers, as in the games: map and letter of each of the twelve slots. -/
def chambers : List (Str × Str) := [
  ("MAP_SEVEN_ISLAND_TANOBY_RUINS_MONEAN_CHAMBER".toList, "AAAAAAAAAAA?".toList),
  ("MAP_SEVEN_ISLAND_TANOBY_RUINS_LIPTOO_CHAMBER".toList, "CCCDDDHHHUUO".toList),
  ("MAP_SEVEN_ISLAND_TANOBY_RUINS_WEEPTH_CHAMBER".toList, "NNNNSSSSIIEE".toList),
  ("MAP_SEVEN_ISLAND_TANOBY_RUINS_DILFORD_CHAMBER".toList, "PPLLJJRRRQQQ".toList),
  ("MAP_SEVEN_ISLAND_TANOBY_RUINS_SCUFIB_CHAMBER".toList, "YYTTGGGFFFKK".toList),
  ("MAP_SEVEN_ISLAND_TANOBY_RUINS_RIXY_CHAMBER".toList, "VVVWWWXXMMBB".toList),
  ("MAP_SEVEN_ISLAND_TANOBY_RUINS_VIAPOIS_CHAMBER".toList, "ZZZZZZZZZZZ!".toList)]

/-- the letters, in the order of the form numbers -/
def alphabet : Str := "ABCDEFGHIJKLMNOPQRSTUVWXYZ!?".toList

/-- form of the `i`-th land encounter: that of the letter of the Unown in the Tanoby chambers, else 0 -/
def formOf (map : Str) (i : Nat) : Nat :=
  match (chambers.lookup map).bind fun letters => letters[i]? with
  | some letter => alphabet.idxOf letter
  | none => 0

/-- encounter rate of a list, 0 if there is none -/
def rateOf (l : Option MonList) : BitVec 8 := BitVec.ofNat 8 ((l.map MonList.encounterRate).getD 0)

/-- `area` holds the encounters `e`, numbered `k`. -/
structure AreaFor (names : List Str) (k : Nat) (e : Encounter) (area : EncounterArea3) : Prop where
  location : area.location = BitVec.ofNat 16 k
  landRate : area.landRate = rateOf e.landMons
  waterRate : area.waterRate = rateOf e.waterMons
  rockRate : area.rockRate = rateOf e.rockSmashMons
  fishRate : area.fishRate = rateOf e.fishingMons
  land : ∀ (i : Nat) (h : i < 12), Entry names e.landMons i (formOf e.map i) area.land[i]
  water : ∀ (i : Nat) (h : i < 5), Entry names e.waterMons i 0 area.water[i]
  rock : ∀ (i : Nat) (h : i < 5), Entry names e.rockSmashMons i 0 area.rock[i]
  fishOld : ∀ (i : Nat) (h : i < 2), Entry names e.fishingMons i 0 area.fishOld[i]
  fishGood : ∀ (i : Nat) (h : i < 3), Entry names e.fishingMons (i + 2) 0 area.fishGood[i]
  fishSuper : ∀ (i : Nat) (h : i < 5), Entry names e.fishingMons (i + 5) 0 area.fishSuper[i]

/-- No list has more entries than there are slots. -/
structure Fits (e : Encounter) : Prop where
  land : ∀ l, e.landMons = some l → l.mons.length ≤ 12
  water : ∀ l, e.waterMons = some l → l.mons.length ≤ 5
  rock : ∀ l, e.rockSmashMons = some l → l.mons.length ≤ 5
  fish : ∀ l, e.fishingMons = some l → l.mons.length ≤ 10

/-- a label ending in a digit from 2 to 9 after `p` -/
def Numbered (p s : Str) : Prop := ∃ d rest, s = p ++ d :: rest ∧ '2' ≤ d ∧ d ≤ '9'

/-- the labels of areas left out: the further Altering Caves and the unused areas -/
def Skip (label : Str) : Prop :=
  Numbered "gAlteringCave".toList label ∨ (∃ pre s, label = pre ++ s ∧ Numbered "AlteringCave_".toList s) ∨
    "Unused".toList <:+: label

/-- the label part that marks the areas of a game -/
def gameLabel (game : BitVec 32) : Option Str :=
  if game = Game.ruby then some "Ruby".toList
  else if game = Game.sapphire then some "Sapphire".toList
  else if game = Game.fireRed then some "FireRed".toList
  else if game = Game.leafGreen then some "LeafGreen".toList
  else if game = Game.emerald then some []
  else none

/-! ### strings -/

theorem stripPrefix_iff (p s r : Str) : stripPrefix p s = some r ↔ s = p ++ r := by
  induction p generalizing s with
  | nil => simp [stripPrefix]
  | cons c p ih =>
    cases s with
    | nil => simp [stripPrefix]
    | cons d s =>
      rw [stripPrefix, List.cons_append, List.cons.injEq]
      by_cases h : c = d
      · rw [if_pos h, ih]; simp [h]
      · rw [if_neg h]
        constructor
        · intro h'; cases h'
        · rintro ⟨h', _⟩; exact absurd h'.symm h

theorem isSome_stripPrefix (p s : Str) : (stripPrefix p s).isSome = true ↔ p <+: s := by
  rw [Option.isSome_iff_exists]
  constructor
  · rintro ⟨r, h⟩; exact ⟨r, ((stripPrefix_iff _ _ _).mp h).symm⟩
  · rintro ⟨r, h⟩; exact ⟨r, (stripPrefix_iff _ _ _).mpr h.symm⟩

theorem contains_iff (p s : Str) : contains p s = true ↔ p <:+: s := by
  induction s with
  | nil => rw [contains, isSome_stripPrefix]; simp
  | cons c s ih =>
    rw [contains, Bool.or_eq_true, isSome_stripPrefix, ih, List.infix_cons_iff]

theorem reMatch_iff (p s : Str) : reMatch p s = true ↔ Numbered p s := by
  unfold reMatch Numbered
  cases h : stripPrefix p s with
  | none =>
    simp only [digit29, Bool.false_eq_true, false_iff]
    rintro ⟨d, rest, hs, _⟩
    rw [(stripPrefix_iff p s _).mpr hs] at h
    cases h
  | some r =>
    have hs := (stripPrefix_iff p s r).mp h
    cases r with
    | nil =>
      simp only [digit29, Bool.false_eq_true, false_iff]
      rintro ⟨d, rest, hs', _⟩
      rw [hs] at hs'
      have := congrArg List.length hs'
      simp at this
    | cons c r =>
      simp only [digit29, Bool.and_eq_true, decide_eq_true_eq]
      constructor
      · rintro ⟨h1, h2⟩; exact ⟨c, r, hs, h1, h2⟩
      · rintro ⟨d, rest, hs', h1, h2⟩
        rw [hs, List.append_cancel_left_eq, List.cons.injEq] at hs'
        rw [hs'.1]; exact ⟨h1, h2⟩

theorem reSearch_iff (p s : Str) : reSearch p s = true ↔ ∃ pre t, s = pre ++ t ∧ Numbered p t := by
  induction s with
  | nil =>
    rw [reSearch, reMatch_iff]
    constructor
    · intro h; exact ⟨[], [], rfl, h⟩
    · rintro ⟨pre, t, h, hn⟩
      have := List.append_eq_nil_iff.mp h.symm
      rwa [this.2] at hn
  | cons c s ih =>
    rw [reSearch, Bool.or_eq_true, reMatch_iff, ih]
    constructor
    · rintro (h | ⟨pre, t, h, hn⟩)
      · exact ⟨[], _, rfl, h⟩
      · exact ⟨c :: pre, t, by rw [h]; rfl, hn⟩
    · rintro ⟨pre, t, h, hn⟩
      cases pre with
      | nil => left; rw [h]; exact hn
      | cons d pre =>
        right
        rw [List.cons_append, List.cons.injEq] at h
        exact ⟨pre, t, h.2, hn⟩

theorem isSkipped_iff (label : Str) : isSkipped label = true ↔ Skip label := by
  unfold isSkipped Skip
  rw [Bool.or_eq_true, Bool.or_eq_true, reMatch_iff, reSearch_iff, contains_iff, or_assoc]

theorem selectGame_iff (game : BitVec 32) (data es : List Encounter) :
    selectGame game data = .ok es ↔
      ∃ part, gameLabel game = some part ∧ es = data.filter fun x => decide (part <:+: x.baseLabel) := by
  have hf : ∀ p : Str, (data.filter fun x => contains p x.baseLabel) =
      data.filter fun x => decide (p <:+: x.baseLabel) := by
    intro p
    apply List.filter_congr
    intro x _
    rw [Bool.eq_iff_iff, contains_iff, decide_eq_true_eq]
  unfold selectGame gameLabel
  split_ifs
  all_goals first
    | (constructor
       · intro h; cases h; exact ⟨_, rfl, hf _⟩
       · rintro ⟨part, h1, h2⟩; cases h1; rw [hf, h2])
    | (constructor
       · intro h; cases h; exact ⟨_, rfl, by simp⟩
       · rintro ⟨part, h1, h2⟩; cases h1; rw [h2]; simp)
    | (constructor
       · intro h; cases h
       · rintro ⟨part, h1, _⟩; cases h1)

/-! ### slots -/

theorem speciesIndex_iff (name : Str) (names : List Str) (i s : Nat) :
    speciesIndex name names i = .ok s ↔ ∃ t, s = i + t ∧ IsIndex names name t := by
  induction names generalizing i with
  | nil =>
    simp only [speciesIndex, reduceCtorEq, false_iff]
    rintro ⟨t, _, h⟩
    simp [IsIndex] at h
  | cons n names ih =>
    rw [speciesIndex]
    by_cases h : n = name
    · rw [if_pos h]
      constructor
      · intro h'; cases h'
        exact ⟨0, rfl, by simp [h], fun t ht => by omega⟩
      · rintro ⟨t, rfl, h1, h2⟩
        cases t with
        | zero => rfl
        | succ t => exact absurd (by simp [h]) (h2 0 (by omega))
    · rw [if_neg h, ih]
      constructor
      · rintro ⟨t, rfl, h1, h2⟩
        refine ⟨t + 1, by omega, by simpa using h1, fun u hu => ?_⟩
        cases u with
        | zero => simpa using h
        | succ u => simpa using h2 u (by omega)
      · rintro ⟨t, rfl, h1, h2⟩
        cases t with
        | zero => simp at h1; exact absurd h1 h
        | succ t =>
          refine ⟨t, by omega, by simpa using h1, fun u hu => ?_⟩
          have := h2 (u + 1) (by omega)
          simpa using this

/-- the species of an entry is in the list of names -/
def Known (names : List Str) (mon : Mon) : Prop := mon.species ∈ names

theorem known_index {names : List Str} {name : Str} (h : name ∈ names) : ∃ s, IsIndex names name s := by
  induction names with
  | nil => cases h
  | cons n names ih =>
    by_cases hn : n = name
    · exact ⟨0, by simp [hn], fun t ht => by omega⟩
    · obtain ⟨s, h1, h2⟩ := ih ((List.mem_cons.mp h).resolve_left fun e => hn e.symm)
      refine ⟨s + 1, by simpa using h1, fun t ht => ?_⟩
      cases t with
      | zero => simpa using hn
      | succ t => simpa using h2 t (by omega)

theorem fillSlot_spec (names : List Str) (mon : Mon) :
    (∀ slot, fillSlot names mon = .ok slot → SlotFor names mon 0 slot) ∧
      (Known names mon → ∃ slot, fillSlot names mon = .ok slot) := by
  unfold fillSlot
  constructor
  · intro slot h
    cases hs : speciesIndex mon.species names 0 with
    | error e => rw [hs] at h; cases h
    | ok s =>
      rw [hs] at h
      cases h
      obtain ⟨t, ht, hi⟩ := (speciesIndex_iff _ _ _ _).mp hs
      rw [Nat.zero_add] at ht
      subst ht
      exact ⟨rfl, rfl, s, hi, by simp⟩
  · intro h
    obtain ⟨s, hs⟩ := known_index h
    rw [(speciesIndex_iff _ _ 0 s).mpr ⟨s, by omega, hs⟩]
    exact ⟨_, rfl⟩

theorem unownForms_eq (map : Str) (l : List (Str × List Nat)) : unownForms map l = l.lookup map := by
  induction l with
  | nil => rfl
  | cons x l ih =>
    obtain ⟨m, forms⟩ := x
    rw [unownForms, List.lookup_cons]
    by_cases h : m = map
    · subst h; simp
    · rw [if_neg h, ih]
      have : (map == m) = false := by simpa using fun e : map = m => h e.symm
      rw [this]

theorem unown_chambers : unownEncounters = chambers.map fun c => (c.1, c.2.map fun letter => alphabet.idxOf letter) := by
  decide +kernel

theorem lookup_map (f : Str → List Nat) (l : List (Str × Str)) (map : Str) :
    (l.map fun c => (c.1, f c.2)).lookup map = (l.lookup map).map f := by
  induction l with
  | nil => rfl
  | cons c l ih =>
    obtain ⟨m, w⟩ := c
    rw [List.map_cons, List.lookup_cons, List.lookup_cons]
    cases map == m with
    | true => rfl
    | false => exact ih

theorem formOf_eq (map : Str) (i : Nat) :
    formOf map i = ((unownEncounters.lookup map).bind fun forms => forms[i]?).getD 0 := by
  unfold formOf
  rw [unown_chambers, lookup_map (fun w => w.map fun letter => alphabet.idxOf letter)]
  cases chambers.lookup map with
  | none => rfl
  | some w =>
    rw [Option.map_some, Option.bind_some, Option.bind_some, List.getElem?_map]
    cases w[i]? <;> rfl

theorem unown_lengths : ∀ x ∈ unownEncounters, x.2.length = 12 := by decide +kernel

theorem lookup_mem {l : List (Str × List Nat)} {map : Str} {forms : List Nat} (h : l.lookup map = some forms) :
    (map, forms) ∈ l := by
  induction l with
  | nil => cases h
  | cons x l ih =>
    obtain ⟨m, f⟩ := x
    rw [List.lookup_cons] at h
    by_cases e : map = m
    · subst e; simp at h; simp [h]
    · have : (map == m) = false := by simpa using e
      rw [this] at h
      exact List.mem_cons_of_mem _ (ih h)

theorem addForm_spec (names : List Str) (map : Str) (i : Nat) (hi : i < 12) (mon : Mon) (slot : Slot3)
    (h : SlotFor names mon 0 slot) : ∃ slot', addForm map i slot = .ok slot' ∧ SlotFor names mon (formOf map i) slot' := by
  unfold addForm
  rw [formOf_eq, unownForms_eq]
  cases hl : unownEncounters.lookup map with
  | none => exact ⟨slot, rfl, h⟩
  | some forms =>
    have hlen := unown_lengths _ (lookup_mem hl)
    obtain ⟨f, hf⟩ : ∃ f, forms[i]? = some f := ⟨forms[i]'(by simp at hlen; omega), by rw [List.getElem?_eq_getElem]⟩
    simp only [Option.bind_some, hf, Option.getD_some]
    obtain ⟨h1, h2, s, h3, h4⟩ := h
    refine ⟨_, rfl, h1, h2, s, h3, ?_⟩
    simp only [h4, Nat.zero_mul, BitVec.or_zero, Nat.shiftLeft_eq]

theorem landLoop_spec (names : List Str) (map : Str) (mons : List Mon) (i : Nat) (land : Vector Slot3 12) :
    (∀ land', landLoop names map i mons land = .ok land' → (mons = [] ∨ i + mons.length ≤ 12) ∧
      ∀ (j : Nat) (hj : j < 12), if h : i ≤ j ∧ j < i + mons.length then
        SlotFor names (mons[j - i]'(by omega)) (formOf map j) land'[j] else land'[j] = land[j]) ∧
      (i + mons.length ≤ 12 → (∀ m ∈ mons, Known names m) → ∃ land', landLoop names map i mons land = .ok land') := by
  induction mons generalizing i land with
  | nil =>
    constructor
    · intro land' h
      cases h
      refine ⟨.inl rfl, fun j hj => ?_⟩
      rw [dif_neg (by simp)]
    · intro _ _; exact ⟨_, rfl⟩
  | cons mon mons ih =>
    obtain ⟨f1, f2⟩ := fillSlot_spec names mon
    rw [landLoop]
    constructor
    · intro land' h
      split at h
      · rename_i hi
        cases hs : fillSlot names mon with
        | error e => rw [hs] at h; cases h
        | ok slot =>
          rw [hs] at h
          obtain ⟨slot', ha, hfor⟩ := addForm_spec names map i hi mon slot (f1 slot hs)
          simp only [ha] at h
          obtain ⟨h1, h2⟩ := (ih (i + 1) (land.set i slot')).1 land' h
          refine ⟨.inr ?_, fun j hj => ?_⟩
          · rcases h1 with rfl | h1 <;> simp <;> omega
          · have := h2 j hj
            by_cases hji : j = i
            · subst hji
              rw [dif_neg (by omega)] at this
              rw [dif_pos (by simp), this]
              simpa using hfor
            · by_cases hr : i + 1 ≤ j ∧ j < i + 1 + mons.length
              · rw [dif_pos hr] at this
                rw [dif_pos (by simp; omega)]
                have e : j - i = j - (i + 1) + 1 := by omega
                simp only [e, List.getElem_cons_succ]
                exact this
              · rw [dif_neg hr] at this
                rw [dif_neg (by simp; omega), this, Vector.getElem_set_ne hi hj (by omega)]
      · cases h
    · intro hl hk
      rw [List.length_cons] at hl
      rw [dif_pos (by omega)]
      obtain ⟨slot, hs⟩ := f2 (hk mon (by simp))
      obtain ⟨slot', ha, _⟩ := addForm_spec names map i (by omega) mon slot (f1 slot hs)
      simp only [hs, ha]
      exact (ih (i + 1) _).2 (by omega) fun m hm => hk m (by simp [hm])

theorem slotLoop_spec (names : List Str) (mons : List Mon) (i : Nat) (slots : Vector Slot3 5) :
    (∀ slots', slotLoop names i mons slots = .ok slots' → (mons = [] ∨ i + mons.length ≤ 5) ∧
      ∀ (j : Nat) (hj : j < 5), if h : i ≤ j ∧ j < i + mons.length then
        SlotFor names (mons[j - i]'(by omega)) 0 slots'[j] else slots'[j] = slots[j]) ∧
      (i + mons.length ≤ 5 → (∀ m ∈ mons, Known names m) → ∃ slots', slotLoop names i mons slots = .ok slots') := by
  induction mons generalizing i slots with
  | nil =>
    constructor
    · intro slots' h
      cases h
      refine ⟨.inl rfl, fun j hj => ?_⟩
      rw [dif_neg (by simp)]
    · intro _ _; exact ⟨_, rfl⟩
  | cons mon mons ih =>
    obtain ⟨f1, f2⟩ := fillSlot_spec names mon
    rw [slotLoop]
    constructor
    · intro slots' h
      split at h
      · rename_i hi
        cases hs : fillSlot names mon with
        | error e => rw [hs] at h; cases h
        | ok slot =>
          rw [hs] at h
          obtain ⟨h1, h2⟩ := (ih (i + 1) (slots.set i slot)).1 slots' h
          refine ⟨.inr ?_, fun j hj => ?_⟩
          · rcases h1 with rfl | h1 <;> simp <;> omega
          · have := h2 j hj
            by_cases hji : j = i
            · subst hji
              rw [dif_neg (by omega)] at this
              rw [dif_pos (by simp), this]
              simpa using f1 slot hs
            · by_cases hr : i + 1 ≤ j ∧ j < i + 1 + mons.length
              · rw [dif_pos hr] at this
                rw [dif_pos (by simp; omega)]
                have e : j - i = j - (i + 1) + 1 := by omega
                simp only [e, List.getElem_cons_succ]
                exact this
              · rw [dif_neg hr] at this
                rw [dif_neg (by simp; omega), this, Vector.getElem_set_ne hi hj (by omega)]
      · cases h
    · intro hl hk
      rw [List.length_cons] at hl
      rw [dif_pos (by omega)]
      obtain ⟨slot, hs⟩ := f2 (hk mon (by simp))
      simp only [hs]
      exact (ih (i + 1) _).2 (by omega) fun m hm => hk m (by simp [hm])

/-- the ten fishing slots in the order of the data -/
def fishAt (area : EncounterArea3) (j : Nat) : Slot3 :=
  if h : j < 2 then area.fishOld[j] else if h : j < 5 then area.fishGood[j - 2]
  else if h : j < 10 then area.fishSuper[j - 5] else zeroSlot

/-- the two areas agree outside the fishing slots -/
def SameButFish (a b : EncounterArea3) : Prop :=
  a.location = b.location ∧ a.landRate = b.landRate ∧ a.land = b.land ∧ a.waterRate = b.waterRate ∧ a.water = b.water ∧
    a.rockRate = b.rockRate ∧ a.rock = b.rock ∧ a.fishRate = b.fishRate

/-- storing the `i`-th fishing entry -/
def setFish (area : EncounterArea3) (i : Nat) (slot : Slot3) : EncounterArea3 :=
  if h : i < 2 then { area with fishOld := area.fishOld.set i slot }
  else if h : i < 5 then { area with fishGood := area.fishGood.set (i - 2) slot }
  else if h : i - 5 < 5 then { area with fishSuper := area.fishSuper.set (i - 5) slot } else area

theorem fishAt_setFish (area : EncounterArea3) (i j : Nat) (hi : i < 10) (slot : Slot3) :
    fishAt (setFish area i slot) j = if j = i then slot else fishAt area j := by
  unfold fishAt setFish
  by_cases h1 : i < 2
  · rw [dif_pos h1]
    by_cases hj : j < 2
    · rw [dif_pos hj, dif_pos hj]
      simp only [Vector.getElem_set]
      by_cases e : j = i
      · simp [e]
      · rw [if_neg (by omega), if_neg e]
    · rw [dif_neg hj, dif_neg hj, if_neg (by omega)]
  · rw [dif_neg h1]
    by_cases h2 : i < 5
    · rw [dif_pos h2]
      by_cases hj : j < 2
      · rw [dif_pos hj, dif_pos hj, if_neg (by omega)]
      · rw [dif_neg hj, dif_neg hj]
        by_cases hj2 : j < 5
        · rw [dif_pos hj2, dif_pos hj2]
          simp only [Vector.getElem_set]
          by_cases e : j = i
          · simp [e]
          · rw [if_neg (by omega), if_neg e]
        · rw [dif_neg hj2, dif_neg hj2, if_neg (by omega)]
    · have h3 : i - 5 < 5 := by omega
      rw [dif_neg h2, dif_pos h3]
      by_cases hj : j < 2
      · rw [dif_pos hj, dif_pos hj, if_neg (by omega)]
      · rw [dif_neg hj, dif_neg hj]
        by_cases hj2 : j < 5
        · rw [dif_pos hj2, dif_pos hj2, if_neg (by omega)]
        · rw [dif_neg hj2, dif_neg hj2]
          by_cases hj3 : j < 10
          · rw [dif_pos hj3, dif_pos hj3]
            simp only [Vector.getElem_set]
            by_cases e : j = i
            · simp [e]
            · rw [if_neg (by omega), if_neg e]
          · rw [dif_neg hj3, dif_neg hj3, if_neg (by omega)]

theorem setFish_same (area : EncounterArea3) (i : Nat) (slot : Slot3) : SameButFish (setFish area i slot) area := by
  unfold setFish SameButFish
  split_ifs <;> simp

theorem fishLoop_cons (names : List Str) (i : Nat) (mon : Mon) (mons : List Mon) (area : EncounterArea3) :
    fishLoop names i (mon :: mons) area =
      if i < 10 then match fillSlot names mon with
        | .error e => .error e
        | .ok slot => fishLoop names (i + 1) mons (setFish area i slot)
      else .error .indexError := by
  rw [fishLoop]
  unfold setFish
  by_cases h1 : i < 2
  · simp only [dif_pos h1, if_pos (show i < 10 by omega)]
    cases fillSlot names mon <;> rfl
  · by_cases h2 : i < 5
    · simp only [dif_neg h1, dif_pos h2, if_pos (show i < 10 by omega)]
      cases fillSlot names mon <;> rfl
    · by_cases h3 : i < 10
      · have h4 : i - 5 < 5 := by omega
        simp only [dif_neg h1, dif_neg h2, dif_pos h4, if_pos h3]
        cases fillSlot names mon <;> rfl
      · have h4 : ¬ i - 5 < 5 := by omega
        simp only [dif_neg h1, dif_neg h2, dif_neg h4, if_neg h3]

theorem fishLoop_spec (names : List Str) (mons : List Mon) (i : Nat) (area : EncounterArea3) :
    (∀ area', fishLoop names i mons area = .ok area' → (mons = [] ∨ i + mons.length ≤ 10) ∧ SameButFish area' area ∧
      ∀ j, if h : i ≤ j ∧ j < i + mons.length then
        SlotFor names (mons[j - i]'(by omega)) 0 (fishAt area' j) else fishAt area' j = fishAt area j) ∧
      (i + mons.length ≤ 10 → (∀ m ∈ mons, Known names m) → ∃ area', fishLoop names i mons area = .ok area') := by
  induction mons generalizing i area with
  | nil =>
    constructor
    · intro area' h
      cases h
      refine ⟨.inl rfl, ⟨rfl, rfl, rfl, rfl, rfl, rfl, rfl, rfl⟩, fun j => ?_⟩
      rw [dif_neg (by simp)]
    · intro _ _; exact ⟨_, rfl⟩
  | cons mon mons ih =>
    obtain ⟨f1, f2⟩ := fillSlot_spec names mon
    rw [fishLoop_cons]
    constructor
    · intro area' h
      split at h
      · rename_i hi
        cases hs : fillSlot names mon with
        | error e => rw [hs] at h; cases h
        | ok slot =>
          rw [hs] at h
          obtain ⟨h1, hsame, h2⟩ := (ih (i + 1) (setFish area i slot)).1 area' h
          have hs2 := setFish_same area i slot
          refine ⟨.inr ?_, ?_, fun j => ?_⟩
          · rcases h1 with rfl | h1 <;> simp <;> omega
          · obtain ⟨a1, a2, a3, a4, a5, a6, a7, a8⟩ := hsame
            obtain ⟨b1, b2, b3, b4, b5, b6, b7, b8⟩ := hs2
            exact ⟨a1.trans b1, a2.trans b2, a3.trans b3, a4.trans b4, a5.trans b5, a6.trans b6, a7.trans b7, a8.trans b8⟩
          · have := h2 j
            by_cases hji : j = i
            · subst hji
              rw [dif_neg (by omega), fishAt_setFish _ _ _ hi, if_pos rfl] at this
              rw [dif_pos (by simp), this]
              simpa using f1 slot hs
            · by_cases hr : i + 1 ≤ j ∧ j < i + 1 + mons.length
              · rw [dif_pos hr] at this
                rw [dif_pos (by simp; omega)]
                have e : j - i = j - (i + 1) + 1 := by omega
                simp only [e, List.getElem_cons_succ]
                exact this
              · rw [dif_neg hr, fishAt_setFish _ _ _ hi, if_neg hji] at this
                rw [dif_neg (by simp; omega), this]
      · cases h
    · intro hl hk
      rw [List.length_cons] at hl
      rw [if_pos (by omega)]
      obtain ⟨slot, hs⟩ := f2 (hk mon (by simp))
      simp only [hs]
      exact (ih (i + 1) _).2 (by omega) fun m hm => hk m (by simp [hm])

/-! ### areas -/

/-- all species of an encounter are known -/
def AllKnown (names : List Str) (e : Encounter) : Prop :=
  ∀ l, l ∈ [e.landMons, e.waterMons, e.rockSmashMons, e.fishingMons] → ∀ x, l = some x → ∀ m ∈ x.mons, Known names m


theorem entry_of {names : List Str} {l : MonList} {i form : Nat} {slot : Slot3}
    (h : if h : 0 ≤ i ∧ i < 0 + l.mons.length then SlotFor names (l.mons[i - 0]'(by omega)) form slot
      else slot = zeroSlot) : Entry names (some l) i form slot := by
  unfold Entry
  rw [Option.bind_some]
  by_cases hi : i < l.mons.length
  · rw [List.getElem?_eq_getElem hi]
    rw [dif_pos (by omega)] at h
    simpa using h
  · rw [List.getElem?_eq_none (by omega)]
    rwa [dif_neg (by omega)] at h

theorem loadLand_spec (names : List Str) (e : Encounter) (area : EncounterArea3) (hz : area.landRate = 0#8)
    (hl : ∀ (i : Nat) (h : i < 12), area.land[i] = zeroSlot) :
    (∀ area', loadLand names e area = .ok area' →
      (∀ l, e.landMons = some l → l.mons.length ≤ 12) ∧
      (∀ (i : Nat) (h : i < 12), Entry names e.landMons i (formOf e.map i) area'.land[i]) ∧
      area' = { area with landRate := rateOf e.landMons, land := area'.land }) ∧
    ((∀ l, e.landMons = some l → l.mons.length ≤ 12) → (∀ l, e.landMons = some l → ∀ m ∈ l.mons, Known names m) →
      ∃ area', loadLand names e area = .ok area') := by
  unfold loadLand
  cases hm : e.landMons with
  | none =>
    refine ⟨fun area' h => ?_, fun _ _ => ⟨_, rfl⟩⟩
    cases h
    refine ⟨fun l h => (by cases h), fun i h => hl i h, ?_⟩
    have : rateOf none = 0#8 := rfl
    rw [this, ← hz]
  | some l =>
    obtain ⟨p1, p2⟩ := landLoop_spec names e.map l.mons 0 area.land
    dsimp only
    refine ⟨fun area' h => ?_, fun h1 h2 => ?_⟩
    · cases hL : landLoop names e.map 0 l.mons area.land with
      | error x => rw [hL] at h; cases h
      | ok land =>
        rw [hL] at h
        cases h
        obtain ⟨q1, q2⟩ := p1 land hL
        refine ⟨fun l' h => ?_, fun i h => entry_of ?_, rfl⟩
        · cases h
          rcases q1 with q | q
          · simp [q]
          · omega
        · have := q2 i h
          rwa [hl i h] at this
    · obtain ⟨land, h⟩ := p2 (by have := h1 l rfl; omega) (h2 l rfl)
      rw [h]
      exact ⟨_, rfl⟩

theorem loadWater_spec (names : List Str) (e : Encounter) (area : EncounterArea3) (hz : area.waterRate = 0#8)
    (hl : ∀ (i : Nat) (h : i < 5), area.water[i] = zeroSlot) :
    (∀ area', loadWater names e area = .ok area' →
      (∀ l, e.waterMons = some l → l.mons.length ≤ 5) ∧
      (∀ (i : Nat) (h : i < 5), Entry names e.waterMons i 0 area'.water[i]) ∧
      area' = { area with waterRate := rateOf e.waterMons, water := area'.water }) ∧
    ((∀ l, e.waterMons = some l → l.mons.length ≤ 5) → (∀ l, e.waterMons = some l → ∀ m ∈ l.mons, Known names m) →
      ∃ area', loadWater names e area = .ok area') := by
  unfold loadWater
  cases hm : e.waterMons with
  | none =>
    refine ⟨fun area' h => ?_, fun _ _ => ⟨_, rfl⟩⟩
    cases h
    refine ⟨fun l h => (by cases h), fun i h => hl i h, ?_⟩
    have : rateOf none = 0#8 := rfl
    rw [this, ← hz]
  | some l =>
    obtain ⟨p1, p2⟩ := slotLoop_spec names l.mons 0 area.water
    dsimp only
    refine ⟨fun area' h => ?_, fun h1 h2 => ?_⟩
    · cases hL : slotLoop names 0 l.mons area.water with
      | error x => rw [hL] at h; cases h
      | ok slots =>
        rw [hL] at h
        cases h
        obtain ⟨q1, q2⟩ := p1 slots hL
        refine ⟨fun l' h => ?_, fun i h => entry_of ?_, rfl⟩
        · cases h
          rcases q1 with q | q
          · simp [q]
          · omega
        · have := q2 i h
          rwa [hl i h] at this
    · obtain ⟨slots, h⟩ := p2 (by have := h1 l rfl; omega) (h2 l rfl)
      rw [h]
      exact ⟨_, rfl⟩

theorem loadRock_spec (names : List Str) (e : Encounter) (area : EncounterArea3) (hz : area.rockRate = 0#8)
    (hl : ∀ (i : Nat) (h : i < 5), area.rock[i] = zeroSlot) :
    (∀ area', loadRock names e area = .ok area' →
      (∀ l, e.rockSmashMons = some l → l.mons.length ≤ 5) ∧
      (∀ (i : Nat) (h : i < 5), Entry names e.rockSmashMons i 0 area'.rock[i]) ∧
      area' = { area with rockRate := rateOf e.rockSmashMons, rock := area'.rock }) ∧
    ((∀ l, e.rockSmashMons = some l → l.mons.length ≤ 5) →
      (∀ l, e.rockSmashMons = some l → ∀ m ∈ l.mons, Known names m) →
      ∃ area', loadRock names e area = .ok area') := by
  unfold loadRock
  cases hm : e.rockSmashMons with
  | none =>
    refine ⟨fun area' h => ?_, fun _ _ => ⟨_, rfl⟩⟩
    cases h
    refine ⟨fun l h => (by cases h), fun i h => hl i h, ?_⟩
    have : rateOf none = 0#8 := rfl
    rw [this, ← hz]
  | some l =>
    obtain ⟨p1, p2⟩ := slotLoop_spec names l.mons 0 area.rock
    dsimp only
    refine ⟨fun area' h => ?_, fun h1 h2 => ?_⟩
    · cases hL : slotLoop names 0 l.mons area.rock with
      | error x => rw [hL] at h; cases h
      | ok slots =>
        rw [hL] at h
        cases h
        obtain ⟨q1, q2⟩ := p1 slots hL
        refine ⟨fun l' h => ?_, fun i h => entry_of ?_, rfl⟩
        · cases h
          rcases q1 with q | q
          · simp [q]
          · omega
        · have := q2 i h
          rwa [hl i h] at this
    · obtain ⟨slots, h⟩ := p2 (by have := h1 l rfl; omega) (h2 l rfl)
      rw [h]
      exact ⟨_, rfl⟩

theorem loadFish_spec (names : List Str) (e : Encounter) (area : EncounterArea3) (hz : area.fishRate = 0#8)
    (hl : ∀ i, fishAt area i = zeroSlot) :
    (∀ area', loadFish names e area = .ok area' →
      (∀ l, e.fishingMons = some l → l.mons.length ≤ 10) ∧
      (∀ i, Entry names e.fishingMons i 0 (fishAt area' i)) ∧
      SameButFish area' { area with fishRate := rateOf e.fishingMons }) ∧
    ((∀ l, e.fishingMons = some l → l.mons.length ≤ 10) →
      (∀ l, e.fishingMons = some l → ∀ m ∈ l.mons, Known names m) →
      ∃ area', loadFish names e area = .ok area') := by
  unfold loadFish
  cases hm : e.fishingMons with
  | none =>
    refine ⟨fun area' h => ?_, fun _ _ => ⟨_, rfl⟩⟩
    cases h
    refine ⟨fun l h => (by cases h), fun i => hl i, rfl, rfl, rfl, rfl, rfl, rfl, rfl, hz⟩
  | some l =>
    obtain ⟨p1, p2⟩ := fishLoop_spec names l.mons 0 { area with fishRate := BitVec.ofNat 8 l.encounterRate }
    dsimp only
    refine ⟨fun area' h => ?_, fun h1 h2 => ?_⟩
    · obtain ⟨q1, q3, q2⟩ := p1 area' h
      refine ⟨fun l' h => ?_, fun i => entry_of ?_, q3⟩
      · cases h
        rcases q1 with q | q
        · simp [q]
        · omega
      · have := q2 i
        have hz : fishAt { area with fishRate := BitVec.ofNat 8 l.encounterRate } i = zeroSlot := hl i
        rwa [hz] at this
    · exact p2 (by have := h1 l rfl; omega) (h2 l rfl)

theorem loadArea_spec (names : List Str) (k : Nat) (e : Encounter) :
    (∀ area, loadArea names k e zeroArea = .ok area → Fits e ∧ AreaFor names k e area) ∧
      (Fits e → AllKnown names e → ∃ area, loadArea names k e zeroArea = .ok area) := by
  have z12 : ∀ (i : Nat) (h : i < 12), zeroArea.land[i] = zeroSlot := by decide +kernel
  have z5w : ∀ (i : Nat) (h : i < 5), zeroArea.water[i] = zeroSlot := by decide +kernel
  have z5r : ∀ (i : Nat) (h : i < 5), zeroArea.rock[i] = zeroSlot := by decide +kernel
  have zf : ∀ i, fishAt zeroArea i = zeroSlot := by
    intro i
    by_cases h : i < 10
    · revert i; decide +kernel
    · unfold fishAt; rw [dif_neg (by omega), dif_neg (by omega), dif_neg (by omega)]
  unfold loadArea
  constructor
  · intro area h
    obtain ⟨l1, _⟩ := loadLand_spec names e { zeroArea with location := BitVec.ofNat 16 k } rfl z12
    cases hL : loadLand names e { zeroArea with location := BitVec.ofNat 16 k } with
    | error x => simp only [hL] at h; cases h
    | ok a1 =>
      obtain ⟨f1, s1, e1⟩ := l1 a1 hL
      obtain ⟨l2, _⟩ := loadWater_spec names e a1 (by rw [e1]; rfl) (by rw [e1]; exact z5w)
      cases hW : loadWater names e a1 with
      | error x => simp only [hL, hW, bind, Except.bind] at h; cases h
      | ok a2 =>
        obtain ⟨f2, s2, e2⟩ := l2 a2 hW
        obtain ⟨l3, _⟩ := loadRock_spec names e a2 (by rw [e2, e1]; rfl) (by rw [e2, e1]; exact z5r)
        cases hR : loadRock names e a2 with
        | error x => simp only [hL, hW, hR, bind, Except.bind] at h; cases h
        | ok a3 =>
          obtain ⟨f3, s3, e3⟩ := l3 a3 hR
          obtain ⟨l4, _⟩ := loadFish_spec names e a3 (by rw [e3, e2, e1]; rfl) (by rw [e3, e2, e1]; exact zf)
          simp only [hL, hW, hR, bind, Except.bind] at h
          obtain ⟨f4, s4, b1, b2, b3, b4, b5, b6, b7, b8⟩ := l4 area h
          refine ⟨⟨f1, f2, f3, f4⟩, ?_⟩
          have g1 : a3.location = BitVec.ofNat 16 k := by rw [e3, e2, e1]
          have g2 : a3.landRate = rateOf e.landMons := by rw [e3, e2, e1]
          have g3 : a3.land = a1.land := by rw [e3, e2]
          have g4 : a3.waterRate = rateOf e.waterMons := by rw [e3, e2]
          have g5 : a3.water = a2.water := by rw [e3]
          have g6 : a3.rockRate = rateOf e.rockSmashMons := by rw [e3]
          dsimp only at b1 b2 b3 b4 b5 b6 b7 b8
          refine ⟨b1.trans g1, b2.trans g2, b4.trans g4, b6.trans g6, b8, ?_, ?_, ?_, ?_, ?_, ?_⟩
          · rw [b3, g3]; exact s1
          · rw [b5, g5]; exact s2
          · rw [b7]; exact s3
          · intro i hi
            have := s4 i
            unfold fishAt at this
            rwa [dif_pos hi] at this
          · intro i hi
            have := s4 (i + 2)
            unfold fishAt at this
            rw [dif_neg (by omega), dif_pos (by omega)] at this
            simpa using this
          · intro i hi
            have := s4 (i + 5)
            unfold fishAt at this
            rw [dif_neg (by omega), dif_neg (by omega), dif_pos (by omega)] at this
            simpa using this
  · rintro ⟨f1, f2, f3, f4⟩ hk
    obtain ⟨l1, t1⟩ := loadLand_spec names e { zeroArea with location := BitVec.ofNat 16 k } rfl z12
    obtain ⟨a1, hL⟩ := t1 f1 fun l h => hk _ (by simp) l h
    obtain ⟨_, _, e1⟩ := l1 a1 hL
    obtain ⟨l2, t2⟩ := loadWater_spec names e a1 (by rw [e1]; rfl) (by rw [e1]; exact z5w)
    obtain ⟨a2, hW⟩ := t2 f2 fun l h => hk _ (by simp) l h
    obtain ⟨_, _, e2⟩ := l2 a2 hW
    obtain ⟨l3, t3⟩ := loadRock_spec names e a2 (by rw [e2, e1]; rfl) (by rw [e2, e1]; exact z5r)
    obtain ⟨a3, hR⟩ := t3 f3 fun l h => hk _ (by simp) l h
    obtain ⟨_, _, e3⟩ := l3 a3 hR
    obtain ⟨l4, t4⟩ := loadFish_spec names e a3 (by rw [e3, e2, e1]; rfl) (by rw [e3, e2, e1]; exact zf)
    obtain ⟨a4, hF⟩ := t4 f4 fun l h => hk _ (by simp) l h
    simp only [hL, hW, hR, bind, Except.bind, hF]
    exact ⟨_, rfl⟩

/-! ### the whole table -/

/-- an area with nothing in it -/
def emptyArea : EncounterArea3 where
  location := 0
  landRate := 0
  land := .replicate 12 ⟨0, 0, 0⟩
  waterRate := 0
  water := .replicate 5 ⟨0, 0, 0⟩
  rockRate := 0
  rock := .replicate 5 ⟨0, 0, 0⟩
  fishRate := 0
  fishOld := .replicate 2 ⟨0, 0, 0⟩
  fishGood := .replicate 3 ⟨0, 0, 0⟩
  fishSuper := .replicate 5 ⟨0, 0, 0⟩

/-- what the `k`-th place of the results holds -/
def PlaceFor (clean : Str → Str) (speciesNames : List Str) (k : Nat) (e : Encounter) (name : Str)
    (area : EncounterArea3) : Prop :=
  (Skip e.baseLabel → name = [] ∧ area = emptyArea) ∧
    (¬ Skip e.baseLabel → name = clean e.map ∧ Fits e ∧ AreaFor speciesNames k e area)

theorem loadLoop_spec (clean : Str → Str) (sn : List Str) (es : List Encounter) (n : Nat) (names : List Str)
    (areas : List EncounterArea3) (hn : names.length = n) (ha : areas.length = n + es.length)
    (hz : ∀ k, n ≤ k → k < areas.length → areas[k]? = some zeroArea) :
    (∀ names' areas', loadLoop clean sn n es names areas = .ok (names', areas') →
      names'.length = n + es.length ∧ areas'.length = n + es.length ∧
      (∀ k < n, names'[k]? = names[k]? ∧ areas'[k]? = areas[k]?) ∧
      ∀ k e, es[k]? = some e → ∃ name area, names'[n + k]? = some name ∧ areas'[n + k]? = some area ∧
        PlaceFor clean sn (n + k) e name area) ∧
    ((∀ e ∈ es, ¬ Skip e.baseLabel → Fits e ∧ AllKnown sn e) →
      ∃ r, loadLoop clean sn n es names areas = .ok r) := by
  induction es generalizing n names areas with
  | nil =>
    refine ⟨fun names' areas' h => ?_, fun _ => ⟨_, rfl⟩⟩
    cases h
    exact ⟨hn, ha, fun k _ => ⟨rfl, rfl⟩, fun k e h => by simp at h⟩
  | cons e es ih =>
    rw [List.length_cons] at ha
    have hzn := hz n (le_refl _) (by omega)
    rw [loadLoop]
    by_cases hs : isSkipped e.baseLabel = true
    · rw [if_pos hs]
      obtain ⟨i1, i2⟩ := ih (n + 1) (names ++ [[]]) areas (by simp [hn]) (by omega) (fun k h1 h2 => hz k (by omega) h2)
      refine ⟨fun names' areas' h => ?_, fun h => i2 fun e' he' => h e' (by simp [he'])⟩
      obtain ⟨j1, j2, j3, j4⟩ := i1 names' areas' h
      refine ⟨by simp; omega, by simp; omega, fun k hk => ?_, fun k e' hk => ?_⟩
      · obtain ⟨u1, u2⟩ := j3 k (by omega)
        exact ⟨by rw [u1, List.getElem?_append_left (by omega)], u2⟩
      · cases k with
        | zero =>
          cases hk
          obtain ⟨u1, u2⟩ := j3 n (by omega)
          refine ⟨[], zeroArea, ?_, by rw [Nat.add_zero, u2, hzn], fun _ => ⟨rfl, rfl⟩, fun h => ?_⟩
          · rw [Nat.add_zero, u1, List.getElem?_append_right (by omega)]; simp [hn]
          · exact absurd ((isSkipped_iff _).mp hs) h
        | succ k =>
          have := j4 k e' (by simpa using hk)
          rwa [show n + 1 + k = n + (k + 1) by omega] at this
    · rw [if_neg hs]
      simp only [hzn]
      obtain ⟨l1, l2⟩ := loadArea_spec sn n e
      have hset : ∀ area, ∀ k, n + 1 ≤ k → k < (areas.set n area).length → (areas.set n area)[k]? = some zeroArea := by
        intro area k h1 h2
        rw [List.getElem?_set_ne (by omega)]
        exact hz k (by omega) (by simpa using h2)
      refine ⟨fun names' areas' h => ?_, fun h => ?_⟩
      · cases hA : loadArea sn n e zeroArea with
        | error x => rw [hA] at h; cases h
        | ok area =>
          rw [hA] at h
          obtain ⟨i1, _⟩ := ih (n + 1) (names ++ [clean e.map]) (areas.set n area) (by simp [hn]) (by simp; omega)
            (hset area)
          obtain ⟨j1, j2, j3, j4⟩ := i1 names' areas' h
          refine ⟨by simp; omega, by simp; omega, fun k hk => ?_, fun k e' hk => ?_⟩
          · obtain ⟨u1, u2⟩ := j3 k (by omega)
            exact ⟨by rw [u1, List.getElem?_append_left (by omega)], by rw [u2, List.getElem?_set_ne (by omega)]⟩
          · cases k with
            | zero =>
              cases hk
              obtain ⟨u1, u2⟩ := j3 n (by omega)
              refine ⟨clean e.map, area, ?_, ?_, fun h => ?_, fun _ => ⟨rfl, l1 area hA⟩⟩
              · rw [Nat.add_zero, u1, List.getElem?_append_right (by omega)]; simp [hn]
              · rw [Nat.add_zero, u2, List.getElem?_set_self (by omega)]
              · exact absurd ((isSkipped_iff _).mpr h) hs
            | succ k =>
              have := j4 k e' (by simpa using hk)
              rwa [show n + 1 + k = n + (k + 1) by omega] at this
      · obtain ⟨hf, hk⟩ := h e (by simp) fun h => hs ((isSkipped_iff _).mpr h)
        obtain ⟨area, hA⟩ := l2 hf hk
        simp only [hA]
        exact (ih (n + 1) (names ++ [clean e.map]) (areas.set n area) (by simp [hn]) (by simp; omega)
            (hset area)).2 fun e' he' => h e' (by simp [he'])

/-- **C71**: When loading succeeds, there is one name and one area for every encounter of the game, in the order of the
data.  A skipped encounter has the empty name and an all-zero area.  For any other the area holds its number, its four
rates, and the `i`-th entry of each list in the `i`-th slot - the fishing list split as entries 0-1, 2-4 and 5-9 over
the rods, the land list with the Unown form where the map is one of the Tanoby chambers - and zero slots where the
list is shorter. -/
theorem C71_load (clean : Str → Str) (speciesNames : List Str) (game : BitVec 32) (data : List Encounter)
    (names : List Str) (areas : List EncounterArea3)
    (h : loadEncounter3 clean speciesNames game data = .ok (names, areas)) :
    ∃ part, gameLabel game = some part ∧ ∃ es, es = data.filter (fun x => decide (part <:+: x.baseLabel)) ∧
      names.length = es.length ∧ areas.length = es.length ∧
      ∀ k e, es[k]? = some e → ∃ name area, names[k]? = some name ∧ areas[k]? = some area ∧
        PlaceFor clean speciesNames k e name area := by
  unfold loadEncounter3 at h
  cases hs : selectGame game data with
  | error x => rw [hs] at h; cases h
  | ok es =>
    rw [hs] at h
    obtain ⟨part, hp, he⟩ := (selectGame_iff _ _ _).mp hs
    obtain ⟨l1, _⟩ := loadLoop_spec clean speciesNames es 0 [] (List.replicate es.length zeroArea) rfl (by simp)
      (fun k _ h => by rw [List.getElem?_replicate]; rw [List.length_replicate] at h; simp [h])
    obtain ⟨j1, j2, _, j4⟩ := l1 names areas h
    refine ⟨part, hp, es, he, by omega, by omega, fun k e hk => ?_⟩
    simpa using j4 k e hk

/-- **C71**, the other half: loading succeeds whenever the game is one of the five and every encounter that is not
skipped has lists no longer than the slots and only species found in the list of names. -/
theorem C71_total (clean : Str → Str) (speciesNames : List Str) (game : BitVec 32) (data : List Encounter)
    (part : Str) (hg : gameLabel game = some part)
    (h : ∀ e ∈ data, part <:+: e.baseLabel → ¬ Skip e.baseLabel → Fits e ∧ AllKnown speciesNames e) :
    ∃ r, loadEncounter3 clean speciesNames game data = .ok r := by
  unfold loadEncounter3
  rw [(selectGame_iff game data _).mpr ⟨part, hg, rfl⟩]
  dsimp only
  apply (loadLoop_spec clean speciesNames _ 0 [] _ rfl (by simp)
      (fun k _ h => by rw [List.getElem?_replicate]; rw [List.length_replicate] at h; simp [h])).2
  intro e he
  rw [List.mem_filter] at he
  exact h e he.1 (by simpa using he.2)

/-! ### examples -/

/-- two encounters of LeafGreen and one of FireRed -/
def exampleData : List Encounter :=
  [{ map := "MAP_A".toList, baseLabel := "sA_FireRed".toList, landMons := none, waterMons := none,
     rockSmashMons := none, fishingMons := none },
   { map := "MAP_ALTERING_CAVE".toList, baseLabel := "sSixIsland_AlteringCave_2_LeafGreen".toList, landMons := none,
     waterMons := none, rockSmashMons := none, fishingMons := none },
   { map := "MAP_B".toList, baseLabel := "sB_LeafGreen".toList, landMons := none,
     waterMons := some { encounterRate := 7, mons := [{ minLevel := 5, maxLevel := 9, species := "y".toList }] },
     rockSmashMons := none,
     fishingMons := some { encounterRate := 20, mons := [⟨1, 2, "x".toList⟩, ⟨3, 4, "y".toList⟩, ⟨5, 6, "x".toList⟩] } }]

example : ∃ names areas, loadEncounter3 id ["x".toList, "y".toList] Game.leafGreen exampleData = .ok (names, areas) ∧
    names = [[], "MAP_B".toList] ∧ areas[0]? = some emptyArea ∧
    (areas[1]?.map fun a => (a.water[0], a.waterRate, a.fishGood[0])) =
      some (⟨5#8, 9#8, 1#16⟩, 7#8, ⟨5#8, 6#8, 0#16⟩) := by
  refine ⟨_, _, rfl, ?_, ?_, ?_⟩ <;> decide +kernel

example : Skip "sSixIsland_AlteringCave_2_LeafGreen".toList := (isSkipped_iff _).mp (by decide +kernel)
example : ¬ Skip "sSixIsland_AlteringCave_LeafGreen".toList := fun h => absurd ((isSkipped_iff _).mpr h) (by decide +kernel)

end Verif.EncLoad3
