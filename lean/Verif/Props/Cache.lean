import Verif.Model.Cache
import Mathlib.Data.Countable.Basic
import Mathlib.Data.Countable.Defs
import Mathlib.Logic.Equiv.List
import Mathlib.Logic.Function.Basic
import Mathlib.Data.List.Nodup
/-
C63, C64, C78: the encounter cache.
-/
namespace Verif.Cache

/-- no braces in a directory name -/
def Plain (s : List Char) : Prop := '{' ∉ s ∧ '}' ∉ s

instance (s : List Char) : Decidable (Plain s) := inferInstanceAs (Decidable (_ ∧ _))

theorem prepend_append (s t : List Char) (x) : prepend (s ++ t) x = prepend s (prepend t x) := by
  cases x <;> simp [prepend]

theorem format_plain (s : List Char) (h : Plain s) (t : List Char) (args : List (List Char)) :
    format (s ++ t) args = prepend s (format t args) := by
  induction s with
  | nil => cases hf : format t args <;> simp [prepend, hf]
  | cons c s ih =>
    obtain ⟨h1, h2⟩ := h
    simp only [List.mem_cons, not_or] at h1 h2
    have ih := ih ⟨h1.2, h2.2⟩
    have hc1 : c ≠ '{' := fun e => h1.1 e.symm
    have hc2 : c ≠ '}' := fun e => h2.1 e.symm
    rw [List.cons_append]
    cases hst : s ++ t with
    | nil =>
      obtain ⟨rfl, rfl⟩ := List.append_eq_nil_iff.mp hst
      simp [format, prepend, hc1, hc2]
    | cons d r =>
      rw [format.eq_def]
      simp only [if_neg hc1, if_neg hc2]
      rw [← hst, ih, ← prepend_append]
      rfl

theorem decimal_injective : Function.Injective decimal := by
  intro a b h
  have h1 := Nat.ofDigitChars_toDigits (b := 10) (n := a) (by decide) (by decide)
  have h2 := Nat.ofDigitChars_toDigits (b := 10) (n := b) (by decide) (by decide)
  unfold decimal at h
  rw [h] at h1
  exact h1.symm.trans h2

/-- the file of the Gen 3 encounters of a game -/
def gen3Path (dir : List Char) (game : Nat) : Path := dir ++ "/encounter_3_".toList ++ decimal game ++ ".pkl".toList
/-- the file of the Legends Arceus encounters of an area -/
def laPath (dir : List Char) (area : Nat) : Path :=
  dir ++ "/encounter_tables_la_".toList ++ decimal area ++ ".pkl".toList

theorem format_tail (a : List Char) : format "{}.pkl".toList [a] = .ok (a ++ ".pkl".toList) := by
  have h : format ".pkl".toList [] = .ok ".pkl".toList := by
    simp [format, prepend]
  show format ('{' :: '}' :: ".pkl".toList) [a] = _
  rw [format, if_pos rfl, if_neg (by decide), if_pos rfl]
  simp only [h, prepend]

theorem gen3_filename (p : Pickle V) (f) (dir : List Char) (hd : Plain dir) (game : Nat) :
    pklFilename (gen3Loader p f) dir [game] = .ok (gen3Path dir game) := by
  have e : dir ++ '/' :: (gen3Loader p f).filename = dir ++ ("/encounter_3_".toList ++ "{}.pkl".toList) := rfl
  simp only [pklFilename, e, List.map_cons, List.map_nil]
  rw [format_plain _ hd, format_plain _ (by decide)]
  show prepend _ (prepend _ (format _ [decimal game])) = _
  rw [format_tail]
  simp [prepend, gen3Path]

theorem la_filename (p : Pickle (Dict Nat (BitVec 64 × List Slot))) (f) (dir : List Char) (hd : Plain dir) (area : Nat) :
    pklFilename (laLoader p f) dir [area] = .ok (laPath dir area) := by
  have e : dir ++ '/' :: (laLoader p f).filename = dir ++ ("/encounter_tables_la_".toList ++ "{}.pkl".toList) := rfl
  simp only [pklFilename, e, List.map_cons, List.map_nil]
  rw [format_plain _ hd, format_plain _ (by decide)]
  show prepend _ (prepend _ (format _ [decimal area])) = _
  rw [format_tail]
  simp [prepend, laPath]

theorem gen3Path_injective (dir : List Char) : Function.Injective (gen3Path dir) := by
  intro a b h
  simp only [gen3Path, List.append_assoc, List.append_cancel_left_eq] at h
  exact decimal_injective (List.append_cancel_right h)

theorem laPath_injective (dir : List Char) : Function.Injective (laPath dir) := by
  intro a b h
  simp only [laPath, List.append_assoc, List.append_cancel_left_eq] at h
  exact decimal_injective (List.append_cancel_right h)

theorem gen3Path_ne_laPath (dir : List Char) (a b : Nat) : gen3Path dir a ≠ laPath dir b := by
  intro h
  simp only [gen3Path, laPath, List.append_assoc, List.append_cancel_left_eq] at h
  have := congrArg (fun l => l[11]?) h
  simp at this

/-! ### the Legends Arceus encoding -/

theorem Dict.insert_fresh [DecidableEq K] (d : Dict K V) (k : K) (v : V) (h : k ∉ d.map Prod.fst) :
    Dict.insert d k v = d ++ [(k, v)] := by
  induction d with
  | nil => rfl
  | cons e d ih =>
    obtain ⟨k', v'⟩ := e
    simp only [List.map_cons, List.mem_cons, not_or] at h
    rw [Dict.insert, if_neg (fun e => h.1 e.symm), ih h.2]
    rfl

/-- After `d[k] = v`, `d[k]` is `v` and the other entries are as before. -/
theorem C63_dict [DecidableEq K] (d : Dict K V) (k : K) (v : V) (k' : K) :
    Dict.get (Dict.insert d k v) k' = if k' = k then some v else Dict.get d k' := by
  induction d with
  | nil =>
    by_cases h : k' = k
    · simp [Dict.insert, Dict.get, h]
    · simp [Dict.insert, Dict.get, h, Ne.symm h]
  | cons e d ih =>
    obtain ⟨k1, v1⟩ := e
    by_cases h1 : k1 = k
    · subst h1
      by_cases h : k' = k1
      · simp [Dict.insert, Dict.get, h]
      · simp [Dict.insert, Dict.get, h, Ne.symm h]
    · simp only [Dict.insert, if_neg h1, Dict.get, ih]
      by_cases h2 : k1 = k'
      · subst h2; simp [h1]
      · simp [h2]

example : Dict.get (Dict.insert [(1, "a"), (2, "b")] 1 "c") 1 = some "c" := by decide

theorem Dict.get_mem [DecidableEq K] (d : Dict K V) (hd : (d.map Prod.fst).Nodup) (k : K) (v : V) (h : (k, v) ∈ d) :
    Dict.get d k = some v := by
  induction d with
  | nil => cases h
  | cons e d ih =>
    obtain ⟨k', v'⟩ := e
    simp only [List.map_cons, List.nodup_cons] at hd
    rcases List.mem_cons.mp h with h | h
    · cases h; simp [Dict.get]
    · rw [Dict.get, if_neg, ih hd.2 h]
      rintro rfl
      exact hd.1 (List.mem_map.mpr ⟨_, h, rfl⟩)

theorem encodeLoop_eq (full rest : Dict (BitVec 64) (AreaLA Slot)) (hf : (full.map Prod.fst).Nodup)
    (hsub : ∀ x ∈ rest, x ∈ full) (hr : (rest.map Prod.fst).Nodup) (acc : Dict Nat (BitVec 64 × List Slot))
    (hacc : ∀ x ∈ rest, x.1.toNat ∉ acc.map Prod.fst) :
    encodeLoop full rest acc = acc ++ rest.map (fun x => (x.1.toNat, x.2.tableId, x.2.slots)) := by
  induction rest generalizing acc with
  | nil => simp [encodeLoop]
  | cons e rest ih =>
    obtain ⟨k, v⟩ := e
    simp only [List.map_cons, List.nodup_cons] at hr
    rw [encodeLoop, Dict.get_mem full hf k v (hsub _ (by simp))]
    simp only
    rw [Dict.insert_fresh _ _ _ (hacc (k, v) (by simp))]
    rw [ih (fun x hx => hsub x (by simp [hx])) hr.2]
    · simp
    · intro x hx
      simp only [List.map_append, List.mem_append, not_or, List.map_cons, List.map_nil, List.mem_singleton]
      refine ⟨hacc x (by simp [hx]), fun h => hr.1 ?_⟩
      rw [← BitVec.eq_of_toNat_eq h]
      exact List.mem_map.mpr ⟨x, hx, rfl⟩

theorem decodeLoop_eq (rest : Dict (BitVec 64) (AreaLA Slot)) (hr : (rest.map Prod.fst).Nodup)
    (acc : Dict (BitVec 64) (AreaLA Slot)) (hacc : ∀ x ∈ rest, x.1 ∉ acc.map Prod.fst) :
    decodeLoop (rest.map (fun x => (x.1.toNat, x.2.tableId, x.2.slots))) acc = acc ++ rest := by
  induction rest generalizing acc with
  | nil => simp [decodeLoop]
  | cons e rest ih =>
    obtain ⟨k, v⟩ := e
    simp only [List.map_cons, List.nodup_cons] at hr
    simp only [List.map_cons, decodeLoop, BitVec.ofNat_toNat, BitVec.setWidth_eq]
    rw [Dict.insert_fresh _ _ _ (hacc (k, v) (by simp)), ih hr.2]
    · simp
    · intro x hx
      simp only [List.map_append, List.mem_append, not_or, List.map_cons, List.map_nil, List.mem_singleton]
      refine ⟨hacc x (by simp [hx]), fun h => hr.1 ?_⟩
      rw [← h]
      exact List.mem_map.mpr ⟨x, hx, rfl⟩

/-- Decoding an encoded table lookup gives it back, entry by entry and in order. -/
theorem C63_la_roundtrip (d : Dict (BitVec 64) (AreaLA Slot)) (hd : (d.map Prod.fst).Nodup) :
    decodeLA (encodeLA d) = d := by
  unfold decodeLA encodeLA
  rw [encodeLoop_eq d d hd (fun _ h => h) hd [] (by simp), List.nil_append, decodeLoop_eq d hd [] (by simp),
    List.nil_append]

example : decodeLA (encodeLA [(7, ⟨7, ["a", "b"]⟩), (0xFFFFFFFFFFFFFFFF, ⟨9, []⟩)]) =
    [((7 : BitVec 64), (⟨7, ["a", "b"]⟩ : AreaLA String)), (0xFFFFFFFFFFFFFFFF, ⟨9, []⟩)] :=
  C63_la_roundtrip _ (by decide)

/-! ### one loader -/

/-- The file holds nothing, or the complete dump of what the function returns. -/
def Good (L : Loader A S V) (a : A) (content : Option Bytes) : Prop :=
  content = none ∨ content = some [] ∨ ∃ r, L.function a = .ok r ∧ content = some (L.pickle.dumps (L.encode r))

theorem hit_of_ne {fs : FS} {path : Path} {b : Bytes} (h : fs path = some b) (hb : b ≠ []) : hit fs path = some b := by
  cases b with
  | nil => exact absurd rfl hb
  | cons x xs => simp [hit, h]

theorem wrapped_good (L : Loader A S V) (hp : L.pickle.Lawful) (dir : List Char) (a : A) (path : Path)
    (hpath : pklFilename L dir [a] = .ok path) (hdec : ∀ r, L.function a = .ok r → L.decode (L.encode r) = r) (fs : FS)
    (hg : Good L a (fs path)) :
    (wrapped L dir a fs).1 = L.function a ∧ Good L a ((wrapped L dir a fs).2 path) ∧
      ∀ q, q ≠ path → (wrapped L dir a fs).2 q = fs q := by
  unfold wrapped
  simp only [hpath]
  by_cases hm : hit fs path = none
  · simp only [hm]
    cases hf : L.function a with
    | error e => exact ⟨rfl, hg, fun _ _ => rfl⟩
    | ok r =>
      refine ⟨rfl, .inr (.inr ⟨r, hf, by simp⟩), fun q hq => by simp [Function.update_of_ne hq]⟩
  rcases hg with h | h | ⟨r, hr, h⟩
  · exact absurd (by simp [hit, h]) hm
  · exact absurd (by simp [hit, h]) hm
  · rw [hit_of_ne h (hp.nonempty _)]
    simp only [hp.loads_dumps, hdec r hr]
    exact ⟨hr.symm, .inr (.inr ⟨r, hr, h⟩), fun _ _ => trivial⟩

/-! ### histories -/

/-- A call of one of the two loaders, positional or by keyword, or a restart of the process. -/
inductive Event where
  | gen3 (game : Nat)
  | la (area : Nat)
  | gen3Keyword (game : Nat)
  | laKeyword (area : Nat)
  | restart

/-- the call passes its argument by position (or is no call) -/
def Event.positional : Event → Prop
  | .gen3Keyword _ | .laKeyword _ => False
  | _ => True

/-- what the caller sees -/
inductive Outcome (V3 VLa : Type) where
  | gen3 (r : Except PyErr V3)
  | la (r : Except PyErr VLa)
  | none

/-- the library: the two functions, the pickle module and the cache directory -/
structure Lib (V3 Slot : Type) where
  p3 : Pickle V3
  pLa : Pickle (Dict Nat (BitVec 64 × List Slot))
  f3 : Nat → Except PyErr V3
  fLa : Nat → Except PyErr (Dict (BitVec 64) (AreaLA Slot))
  dir : List Char

variable {V3 Slot : Type}

/-- one event with the cache; nothing of the cache lives in the process, so a restart changes nothing -/
def step (l : Lib V3 Slot) (fs : FS) : Event → Outcome V3 (Dict (BitVec 64) (AreaLA Slot)) × FS
  | .gen3 g => let x := wrapped (gen3Loader l.p3 l.f3) l.dir g fs; (.gen3 x.1, x.2)
  | .la a => let x := wrapped (laLoader l.pLa l.fLa) l.dir a fs; (.la x.1, x.2)
  | .gen3Keyword g => let x := wrappedKeyword (gen3Loader l.p3 l.f3) l.dir g fs; (.gen3 x.1, x.2)
  | .laKeyword a => let x := wrappedKeyword (laLoader l.pLa l.fLa) l.dir a fs; (.la x.1, x.2)
  | .restart => (.none, fs)

/-- a whole history -/
def run (l : Lib V3 Slot) : FS → List Event → List (Outcome V3 (Dict (BitVec 64) (AreaLA Slot)))
  | _, [] => []
  | fs, e :: es => (step l fs e).1 :: run l (step l fs e).2 es

/-- the same event without a cache -/
def direct (l : Lib V3 Slot) : Event → Outcome V3 (Dict (BitVec 64) (AreaLA Slot))
  | .gen3 g | .gen3Keyword g => .gen3 (l.f3 g)
  | .la a | .laKeyword a => .la (l.fLa a)
  | .restart => .none

/-- The assumptions on the library: `pickle` is lawful and the Legends Arceus loader returns dictionaries (no key
twice). -/
structure Lib.Sound (l : Lib V3 Slot) : Prop where
  p3 : l.p3.Lawful
  pLa : l.pLa.Lawful
  keys : ∀ a r, l.fLa a = .ok r → (r.map Prod.fst).Nodup

/-- a cache directory as left by completed calls (in particular an empty one) -/
def CacheOk (l : Lib V3 Slot) (fs : FS) : Prop :=
  (∀ g, Good (gen3Loader l.p3 l.f3) g (fs (gen3Path l.dir g))) ∧
    ∀ a, Good (laLoader l.pLa l.fLa) a (fs (laPath l.dir a))

theorem cacheOk_empty (l : Lib V3 Slot) : CacheOk l (fun _ => none) := ⟨fun _ => .inl rfl, fun _ => .inl rfl⟩

theorem step_ok (l : Lib V3 Slot) (hs : l.Sound) (hd : Plain l.dir) (fs : FS) (h : CacheOk l fs) (e : Event)
    (he : e.positional) : (step l fs e).1 = direct l e ∧ CacheOk l (step l fs e).2 := by
  obtain ⟨h3, hLa⟩ := h
  cases e with
  | restart => exact ⟨rfl, h3, hLa⟩
  | gen3Keyword g => exact he.elim
  | laKeyword a => exact he.elim
  | gen3 g =>
    obtain ⟨r, hg, ho⟩ := wrapped_good (gen3Loader l.p3 l.f3) hs.p3 l.dir g _ (gen3_filename _ _ _ hd g)
      (fun _ _ => rfl) fs (h3 g)
    refine ⟨congrArg Outcome.gen3 r, fun g' => ?_, fun a => ?_⟩
    · by_cases e : g' = g
      · subst e; exact hg
      · show Good _ _ ((wrapped _ _ _ _).2 _)
        rw [ho _ fun e' => e (gen3Path_injective _ e')]
        exact h3 g'
    · show Good _ _ ((wrapped _ _ _ _).2 _)
      rw [ho _ (gen3Path_ne_laPath _ _ _).symm]
      exact hLa a
  | la a =>
    obtain ⟨r, hg, ho⟩ := wrapped_good (laLoader l.pLa l.fLa) hs.pLa l.dir a _ (la_filename _ _ _ hd a)
      (fun r hr => C63_la_roundtrip r (hs.keys a r hr)) fs (hLa a)
    refine ⟨congrArg Outcome.la r, fun g => ?_, fun a' => ?_⟩
    · show Good _ _ ((wrapped _ _ _ _).2 _)
      rw [ho _ (gen3Path_ne_laPath _ _ _)]
      exact h3 g
    · by_cases e : a' = a
      · subst e; exact hg
      · show Good _ _ ((wrapped _ _ _ _).2 _)
        rw [ho _ fun e' => e (laPath_injective _ e')]
        exact hLa a'

/-- **C63** (partial: calls by position, and a cache directory whose name has no braces). In every history of calls of
the two loaders and restarts, each call returns what the uncached function returns. -/
theorem C63_partial (l : Lib V3 Slot) (hs : l.Sound) (hd : Plain l.dir) (fs : FS) (h : CacheOk l fs)
    (es : List Event) (hp : ∀ e ∈ es, e.positional) : run l fs es = es.map (direct l) := by
  induction es generalizing fs with
  | nil => rfl
  | cons e es ih =>
    obtain ⟨h1, h2⟩ := step_ok l hs hd fs h e (hp e (by simp))
    rw [run, List.map_cons, h1, ih _ h2 fun e he => hp e (by simp [he])]

/-! ### an example library -/

instance : Countable (BitVec w) := ⟨BitVec.toNat, fun _ _ h => BitVec.eq_of_toNat_eq h⟩

/-- a (toy) pickle module for any countable type: a unary code with an end mark -/
noncomputable def toyPickle (S : Type) [Countable S] [Nonempty S] : Pickle S where
  dumps s := List.replicate (Classical.choose (exists_injective_nat S) s) 1 ++ [0]
  loads b := if b = List.replicate (b.length - 1) 1 ++ [0] then
    .ok (Function.invFun (Classical.choose (exists_injective_nat S)) (b.length - 1)) else .error .unpickling

theorem toyPickle_lawful (S : Type) [Countable S] [Nonempty S] : (toyPickle S).Lawful where
  loads_dumps s := by
    have := Function.leftInverse_invFun (Classical.choose_spec (exists_injective_nat S)) s
    simp [toyPickle, this]
  nonempty s := by simp [toyPickle]
  truncated s n h0 h1 := by
    refine ⟨.unpickling, ?_⟩
    simp only [toyPickle, List.length_append, List.length_replicate, List.length_singleton] at h1 ⊢
    rw [if_neg]
    intro h
    have h2 := congrArg (fun l => l[n - 1]?) h
    rw [List.take_append_of_le_length (by simp; omega)] at h2
    simp only [List.take_replicate, List.length_replicate] at h2
    rw [show min n (Classical.choose (exists_injective_nat S) s) = n by omega] at h2
    rw [List.getElem?_append_right (by simp)] at h2
    rw [List.getElem?_replicate, if_pos (by omega)] at h2
    simp at h2

/-- an example: every game and every area has some value, game 0 raises -/
noncomputable def toyLib : Lib Nat Unit where
  p3 := toyPickle _
  pLa := toyPickle (List (Nat × BitVec 64 × List Unit))
  f3 g := if g = 0 then .error .keyError else .ok (g + 100)
  fLa a := .ok [(BitVec.ofNat 64 a, ⟨BitVec.ofNat 64 a, [(), ()]⟩)]
  dir := "/home/user/.cache/numba_pokemon_prngs".toList

theorem toyLib_sound : toyLib.Sound where
  p3 := toyPickle_lawful _
  pLa := toyPickle_lawful _
  keys a r h := by
    cases h
    simp

example : run toyLib (fun _ => none) [.gen3 1, .la 3, .gen3 1, .restart, .gen3 2, .gen3 1, .la 3, .gen3 0] =
    [.gen3 (.ok 101), .la (.ok [(3, ⟨3, [(), ()]⟩)]), .gen3 (.ok 101), .none, .gen3 (.ok 102), .gen3 (.ok 101),
      .la (.ok [(3, ⟨3, [(), ()]⟩)]), .gen3 (.error .keyError)] :=
  C63_partial toyLib toyLib_sound (by decide) _ (cacheOk_empty _) _ (by simp [Event.positional])

/-! ### calls by keyword -/

/-- The full claim: every history, including calls like `load_encounter_3(game=Game.RUBY)`. -/
def C63Statement : Prop :=
  ∀ (V3 Slot : Type) (l : Lib V3 Slot), l.Sound → Plain l.dir → ∀ fs, CacheOk l fs → ∀ es, run l fs es = es.map (direct l)

/-- A call by keyword always raises `IndexError`, whatever the function would return. -/
theorem C63_keyword_raises (l : Lib V3 Slot) (hd : Plain l.dir) (g : Nat) (fs : FS) :
    step l fs (.gen3Keyword g) = (.gen3 (.error .indexError), fs) ∧
      step l fs (.laKeyword g) = (.la (.error .indexError), fs) := by
  have h : ∀ s : List Char, Plain s → format (l.dir ++ (s ++ "{}.pkl".toList)) [] = .error .indexError := by
    intro s hs
    rw [format_plain _ hd, format_plain _ hs]
    have : format "{}.pkl".toList [] = .error .indexError := by
      show format ('{' :: '}' :: ".pkl".toList) [] = _
      rw [format, if_pos rfl, if_neg (by decide), if_pos rfl]
    rw [this]
    rfl
  constructor
  · have : pklFilename (gen3Loader l.p3 l.f3) l.dir [] = .error .indexError := h "/encounter_3_".toList (by decide)
    simp [step, wrappedKeyword, this]
  · have : pklFilename (laLoader l.pLa l.fLa) l.dir [] = .error .indexError :=
      h "/encounter_tables_la_".toList (by decide)
    simp [step, wrappedKeyword, this]

/-- **C63 is false as stated**: a call by keyword raises. -/
theorem C63_full_false : ¬ C63Statement := by
  intro h
  have := h _ _ toyLib toyLib_sound (by decide) _ (cacheOk_empty _) [.gen3Keyword 1]
  rw [run, (C63_keyword_raises toyLib (by decide) 1 _).1] at this
  simp [run, direct, toyLib] at this

/-- With `{}` in the name of the cache directory every positional call raises too. -/
theorem C63_brace_directory (l : Lib V3 Slot) (hd : l.dir = "/cache/{}".toList) (g : Nat) (fs : FS) :
    step l fs (.gen3 g) = (.gen3 (.error .indexError), fs) := by
  have : pklFilename (gen3Loader l.p3 l.f3) l.dir [g] = .error .indexError := by
    have e : l.dir ++ '/' :: (gen3Loader l.p3 l.f3).filename =
        "/cache/".toList ++ ('{' :: '}' :: ("/encounter_3_".toList ++ "{}.pkl".toList)) := by rw [hd]; rfl
    simp only [pklFilename, e, List.map_cons, List.map_nil]
    rw [format_plain _ (by decide), format, if_pos rfl, if_neg (by decide), if_pos rfl]
    rw [format_plain _ (by decide)]
    have : format "{}.pkl".toList [] = .error .indexError := by
      show format ('{' :: '}' :: ".pkl".toList) [] = _
      rw [format, if_pos rfl, if_neg (by decide), if_pos rfl]
    rw [this]
    rfl
  simp [step, wrapped, this]

example : ∃ l : Lib Nat Unit, l.dir = "/cache/{}".toList ∧ l.f3 1 = .ok 101 :=
  ⟨{ toyLib with dir := "/cache/{}".toList }, rfl, rfl⟩

/-! ### crashes (C64) -/

theorem hit_none {fs : FS} {path : Path} (h : fs path = none ∨ fs path = some []) : hit fs path = none := by
  rcases h with h | h <;> simp [hit, h]

theorem none_of_hit {fs : FS} {path : Path} (h : hit fs path = none) : fs path = none ∨ fs path = some [] := by
  unfold hit at h
  rcases hb : fs path with _ | (_ | ⟨b, bs⟩)
  · exact .inl rfl
  · exact .inr rfl
  · rw [hb] at h; cases h

/-- **C64**, exactly: after a crash at point `k` of a call that had to compute and store its result `r`, the next call
returns `r` if and only if nothing or everything had been written. -/
theorem C64_exact (L : Loader A S V) (hp : L.pickle.Lawful) (dir : List Char) (a : A) (path : Path) (r : V)
    (hpath : pklFilename L dir [a] = .ok path) (hr : L.function a = .ok r) (hdec : L.decode (L.encode r) = r) (fs : FS)
    (hmiss : fs path = none ∨ fs path = some []) (k : Nat) :
    (wrapped L dir a (crashed L dir a k fs)).1 = .ok r ↔ k ≤ 1 ∨ (L.pickle.dumps (L.encode r)).length < k := by
  have hmiss := hit_none hmiss
  cases k with
  | zero => simp [crashed, wrapped, hpath, hmiss, hr]
  | succ k =>
    have hc : crashed L dir a (k + 1) fs = Function.update fs path (some ((L.pickle.dumps (L.encode r)).take k)) := by
      simp [crashed, hpath, hmiss, hr]
    rw [hc]
    rcases Nat.eq_zero_or_pos k with rfl | hk
    · simp [wrapped, hpath, hr, hit]
    · rcases Nat.lt_or_ge k (L.pickle.dumps (L.encode r)).length with hlt | hge
      · obtain ⟨e, he⟩ := hp.truncated _ _ hk hlt
        have hh := hit_of_ne (fs := Function.update fs path (some ((L.pickle.dumps (L.encode r)).take k))) (path := path)
          (b := (L.pickle.dumps (L.encode r)).take k) (by simp) (by
            intro h
            rcases List.take_eq_nil_iff.mp h with h | h
            · omega
            · exact hp.nonempty _ h)
        simp only [wrapped, hpath, hh, he]
        constructor
        · intro h; cases h
        · rintro (h | h) <;> omega
      · rw [List.take_of_length_le hge]
        have hh := hit_of_ne (fs := Function.update fs path (some (L.pickle.dumps (L.encode r)))) (path := path)
          (b := L.pickle.dumps (L.encode r)) (by simp) (hp.nonempty _)
        simp only [wrapped, hpath, hh, hp.loads_dumps, hdec, true_iff]
        right; omega

/-- **C64** (partial: the crash happens before the first or after the last byte of the dump reaches the file). -/
theorem C64_partial (l : Lib V3 Slot) (hs : l.Sound) (hd : Plain l.dir) (g : Nat) (r : V3) (hr : l.f3 g = .ok r) (fs : FS)
    (h : CacheOk l fs) (k : Nat) (hk : k ≤ 1 ∨ (l.p3.dumps r).length < k) :
    (wrapped (gen3Loader l.p3 l.f3) l.dir g (crashed (gen3Loader l.p3 l.f3) l.dir g k fs)).1 = .ok r := by
  cases hh : hit fs (gen3Path l.dir g) with
  | none =>
    exact (C64_exact (gen3Loader l.p3 l.f3) hs.p3 l.dir g _ r (gen3_filename _ _ _ hd g) hr rfl fs (none_of_hit hh) k).mpr hk
  | some b =>
    have hc : crashed (gen3Loader l.p3 l.f3) l.dir g k fs = fs := by
      simp [crashed, gen3_filename _ _ _ hd g, hh]
    rw [hc]
    exact (wrapped_good (gen3Loader l.p3 l.f3) hs.p3 l.dir g _ (gen3_filename _ _ _ hd g) (fun _ _ => rfl) fs (h.1 g)).1.trans hr

/-- The file left by a crash in the middle of the dump stays: every later call raises, and no call repairs it. -/
theorem C64_permanent (L : Loader A S V) (hp : L.pickle.Lawful) (dir : List Char) (a : A) (path : Path) (r : V)
    (hpath : pklFilename L dir [a] = .ok path) (hr : L.function a = .ok r) (fs : FS)
    (hmiss : fs path = none ∨ fs path = some []) (k : Nat) (h1 : 1 < k) (h2 : k ≤ (L.pickle.dumps (L.encode r)).length) :
    ∃ e, wrapped L dir a (crashed L dir a k fs) = (.error e, crashed L dir a k fs) := by
  have hmiss := hit_none hmiss
  obtain ⟨k, rfl⟩ : ∃ n, k = n + 1 := ⟨k - 1, by omega⟩
  have hc : crashed L dir a (k + 1) fs = Function.update fs path (some ((L.pickle.dumps (L.encode r)).take k)) := by
    simp [crashed, hpath, hmiss, hr]
  rw [hc]
  obtain ⟨e, he⟩ := hp.truncated (L.encode r) k (by omega) (by omega)
  have hh := hit_of_ne (fs := Function.update fs path (some ((L.pickle.dumps (L.encode r)).take k))) (path := path)
    (b := (L.pickle.dumps (L.encode r)).take k) (by simp) (by
      intro h
      rcases List.take_eq_nil_iff.mp h with h | h
      · omega
      · exact hp.nonempty _ h)
  exact ⟨e, by simp only [wrapped, hpath, hh, he]⟩

/-- a file system holding nothing -/
def emptyFS : FS := fun _ => none

/-- The full claim: the next call returns the right value whatever the crash point. -/
def C64Statement : Prop :=
  ∀ (V3 Slot : Type) (l : Lib V3 Slot), l.Sound → Plain l.dir → ∀ g r, l.f3 g = .ok r → ∀ fs, CacheOk l fs → ∀ k,
    (wrapped (gen3Loader l.p3 l.f3) l.dir g (crashed (gen3Loader l.p3 l.f3) l.dir g k fs)).1 = .ok r

/-- two values cannot both have a one-byte dump starting alike, so some dump of `toyLib` has two bytes or more -/
theorem toy_long : ∃ g, 1 ≤ g ∧ 2 ≤ (toyLib.p3.dumps (g + 100)).length := by
  by_contra h
  push Not at h
  have h1 := h 1 (by omega)
  have h2 := h 2 (by omega)
  have l1 := toyLib_sound.p3.loads_dumps (1 + 100)
  have l2 := toyLib_sound.p3.loads_dumps (2 + 100)
  have e : toyLib.p3.dumps (1 + 100) = toyLib.p3.dumps (2 + 100) := by
    simp only [toyLib, toyPickle, List.length_append, List.length_replicate, List.length_singleton] at h1 h2 ⊢
    congr 2
    omega
  rw [e, l2] at l1
  cases l1

/-- **C64 is false as stated**: a crash after the first byte of a longer dump makes the next call raise. -/
theorem C64_full_false : ¬ C64Statement := by
  intro h
  obtain ⟨g, hg, hl⟩ := toy_long
  have hr : toyLib.f3 g = .ok (g + 100) := by
    show (if g = 0 then _ else _) = _
    rw [if_neg (by omega)]
  have h2 := h _ _ toyLib toyLib_sound (by decide) g _ hr emptyFS (cacheOk_empty _) 2
  have := (C64_exact (gen3Loader toyLib.p3 toyLib.f3) toyLib_sound.p3 toyLib.dir g _ _
    (gen3_filename _ _ _ (by decide) g) hr rfl emptyFS (.inl rfl) 2).mp h2
  rcases this with h | h
  · omega
  · change (toyLib.p3.dumps (g + 100)).length < 2 at h; omega

example : (wrapped (gen3Loader toyLib.p3 toyLib.f3) toyLib.dir 1
    (crashed (gen3Loader toyLib.p3 toyLib.f3) toyLib.dir 1 1 emptyFS)).1 = .ok 101 :=
  C64_partial toyLib toyLib_sound (by decide) 1 101 rfl emptyFS (cacheOk_empty _) 1 (.inl (by omega))

/-! ### a new version of the library (C78) -/

/-- What the cache returns once the library (its functions or data files) has been replaced: the value of the version
that filled the cache. -/
theorem C78_stale (l new : Lib V3 Slot) (hs : l.Sound) (hd : Plain l.dir) (hdir : new.dir = l.dir)
    (hp : new.p3 = l.p3) (g : Nat) (r : V3) (hr : l.f3 g = .ok r) (fs : FS) (h : CacheOk l fs) :
    (step new (step l fs (.gen3 g)).2 (.gen3 g)).1 = .gen3 (l.f3 g) := by
  obtain ⟨_, hg, _⟩ := wrapped_good (gen3Loader l.p3 l.f3) hs.p3 l.dir g _ (gen3_filename _ _ _ hd g)
    (fun _ _ => rfl) fs (h.1 g)
  have hfull : (wrapped (gen3Loader l.p3 l.f3) l.dir g fs).2 (gen3Path l.dir g) = some (l.p3.dumps r) := by
    unfold wrapped
    rw [gen3_filename _ _ _ hd g]
    simp only
    cases hh : hit fs (gen3Path l.dir g) with
    | none =>
      have : (gen3Loader l.p3 l.f3).function g = .ok r := hr
      simp only [this, Function.update_self]
      rfl
    | some b =>
      have hc : fs (gen3Path l.dir g) = some (l.p3.dumps r) := by
        rcases h.1 g with h | h | ⟨r', hr', h⟩
        · simp [hit, h] at hh
        · simp [hit, h] at hh
        · rw [h]
          have : r' = r := by
            have : l.f3 g = .ok r' := hr'
            rw [hr] at this
            cases this; rfl
          rw [this]; rfl
      cases hl : (gen3Loader l.p3 l.f3).pickle.loads b <;> simp only [hl] <;> exact hc
  have hpath : pklFilename (gen3Loader new.p3 new.f3) new.dir [g] = .ok (gen3Path l.dir g) := by
    rw [gen3_filename _ _ _ (by rw [hdir]; exact hd) g, hdir]
  have hh := hit_of_ne hfull (hs.p3.nonempty r)
  have hload : (gen3Loader new.p3 new.f3).pickle.loads (l.p3.dumps r) = .ok r := by
    show new.p3.loads _ = _
    rw [hp, hs.p3.loads_dumps]
  simp only [step]
  unfold wrapped at hh ⊢
  rw [hpath]
  simp only
  rw [hh]
  simp only [hload, hr]
  rfl

/-- The claim: a call returns what the installed version's function returns, whatever version filled the cache. -/
def C78Statement : Prop :=
  ∀ (V3 Slot : Type) (old new : Lib V3 Slot), old.Sound → new.Sound → Plain old.dir → new.dir = old.dir →
    new.p3 = old.p3 → ∀ g, (step new (step old emptyFS (.gen3 g)).2 (.gen3 g)).1 = .gen3 (new.f3 g)

/-- **C78 is false**: after an upgrade the old data is returned. -/
theorem C78_full_false : ¬ C78Statement := by
  intro h
  have hs : ({ toyLib with f3 := fun _ => .ok 5 } : Lib Nat Unit).Sound := ⟨toyLib_sound.p3, toyLib_sound.pLa, toyLib_sound.keys⟩
  have h1 := h _ _ toyLib { toyLib with f3 := fun _ => .ok 5 } toyLib_sound hs (by decide) rfl rfl 1
  rw [C78_stale toyLib { toyLib with f3 := fun _ => .ok 5 } toyLib_sound (by decide) rfl rfl 1 101 rfl emptyFS (cacheOk_empty _)] at h1
  simp [toyLib] at h1

/-- **C78** (partial: the new version computes the same values as the one that filled the cache). -/
theorem C78_partial (l new : Lib V3 Slot) (hs : l.Sound) (hd : Plain l.dir) (hdir : new.dir = l.dir)
    (hp : new.p3 = l.p3) (g : Nat) (r : V3) (hr : l.f3 g = .ok r) (hsame : new.f3 g = l.f3 g) (fs : FS) (h : CacheOk l fs) :
    (step new (step l fs (.gen3 g)).2 (.gen3 g)).1 = .gen3 (new.f3 g) := by
  rw [C78_stale l new hs hd hdir hp g r hr fs h, hsame]

example : (step toyLib (step toyLib emptyFS (.gen3 1)).2 (.gen3 1)).1 = .gen3 (.ok 101) :=
  C78_partial toyLib toyLib toyLib_sound (by decide) rfl rfl 1 101 rfl rfl emptyFS (cacheOk_empty _)

end Verif.Cache
