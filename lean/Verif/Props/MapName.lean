import Verif.Model.MapName
import Mathlib.Tactic.Common
import Mathlib.Data.List.Infix
/-
C86: clean_map_string.
-/
namespace Verif.MapName
open EncLoad3 (Str)

/-! ### characters -/

theorem ascii (P : Char → Prop) (h : ∀ n < 128, P (Char.ofNat n)) (h2 : ∀ c : Char, 128 ≤ c.toNat → P c) (c : Char) : P c := by
  by_cases hc : c.toNat < 128
  · have := h c.toNat hc
    rwa [Char.ofNat_toNat] at this
  · exact h2 c (by omega)

theorem toLower_high {c : Char} (h : 128 ≤ c.toNat) : c.toLower = c := by
  unfold Char.toLower
  split
  · rename_i h1
    have : c.val.toNat ≤ 90 := UInt32.le_iff_toNat_le.mp h1.2
    have : c.toNat = c.val.toNat := rfl
    omega
  · rfl

theorem toUpper_high {c : Char} (h : 128 ≤ c.toNat) : c.toUpper = c := by
  unfold Char.toUpper
  split
  · rename_i h1
    have : c.val.toNat ≤ 122 := UInt32.le_iff_toNat_le.mp h1.2
    have : c.toNat = c.val.toNat := rfl
    omega
  · rfl

theorem lower_lower (c : Char) : c.toLower.toLower = c.toLower :=
  ascii (fun c => c.toLower.toLower = c.toLower) (by decide) (fun c h => by rw [toLower_high h, toLower_high h]) c

theorem lower_upper (c : Char) : c.toUpper.toLower = c.toLower :=
  ascii (fun c => c.toUpper.toLower = c.toLower) (by decide) (fun c h => by rw [toUpper_high h]) c

theorem upper_upper (c : Char) : c.toUpper.toUpper = c.toUpper :=
  ascii (fun c => c.toUpper.toUpper = c.toUpper) (by decide) (fun c h => by rw [toUpper_high h, toUpper_high h]) c

theorem isDigit_lower (c : Char) : c.toLower.isDigit = c.isDigit :=
  ascii (fun c => c.toLower.isDigit = c.isDigit) (by decide) (fun c h => by rw [toLower_high h]) c

theorem isDigit_upper (c : Char) : c.toUpper.isDigit = c.isDigit :=
  ascii (fun c => c.toUpper.isDigit = c.isDigit) (by decide) (fun c h => by rw [toUpper_high h]) c

/-- white space (the ASCII characters at which Python's `str.split()` splits) or underscore -/
def Sep (c : Char) : Prop :=
  c ∈ ['\t', '\n', '\x0b', '\x0c', '\r', '\x1c', '\x1d', '\x1e', '\x1f', ' ', '_']

instance : DecidablePred Sep := fun c => inferInstanceAs (Decidable (c ∈ _))

theorem sep_iff (c : Char) : Sep c ↔ isSpace c = true ∨ c = '_' := by
  refine ascii (fun c => Sep c ↔ isSpace c = true ∨ c = '_') (by decide) (fun c h => ?_) c
  have h1 : ¬ Sep c := by
    intro hs
    simp only [Sep, List.mem_cons, List.not_mem_nil, or_false] at hs
    rcases hs with rfl | rfl | rfl | rfl | rfl | rfl | rfl | rfl | rfl | rfl | rfl <;> revert h <;> decide
  refine ⟨fun hs => absurd hs h1, ?_⟩
  rintro (hs | rfl)
  · simp only [isSpace, Bool.or_eq_true, Bool.and_eq_true, decide_eq_true_eq] at hs
    omega
  · revert h; decide

theorem Sep.inl {c : Char} (h : isSpace c = true) : Sep c := (sep_iff c).2 (.inl h)

theorem Sep.inr {c : Char} (h : c = '_') : Sep c := (sep_iff c).2 (.inr h)

theorem sep_lower (c : Char) : Sep c.toLower ↔ Sep c :=
  ascii (fun c => Sep c.toLower ↔ Sep c) (by decide) (fun c h => by rw [toLower_high h]) c

theorem sep_upper (c : Char) : Sep c.toUpper ↔ Sep c :=
  ascii (fun c => Sep c.toUpper ↔ Sep c) (by decide) (fun c h => by rw [toUpper_high h]) c

theorem not_isDigit_high {c : Char} (h : 128 ≤ c.toNat) : c.isDigit = false := by
  unfold Char.isDigit
  rw [Bool.and_eq_false_iff]
  right
  have : ¬ c.val ≤ '9'.val := fun h1 => by
    have : c.val.toNat ≤ 57 := UInt32.le_iff_toNat_le.mp h1
    have : c.toNat = c.val.toNat := rfl
    omega
  simpa using this

theorem digit_not_sep (c : Char) (h : c.isDigit = true) : ¬ Sep c := by
  revert h
  exact ascii (fun c => c.isDigit = true → ¬ Sep c) (by decide) (fun c h h2 => by rw [not_isDigit_high h] at h2; cases h2) c

theorem digit_upper (c : Char) (h : c.isDigit = true) : c.toUpper = c := by
  revert h
  exact ascii (fun c => c.isDigit = true → c.toUpper = c) (by decide) (fun c h _ => toUpper_high h) c

theorem digit_lower (c : Char) (h : c.isDigit = true) : c.toLower = c := by
  revert h
  exact ascii (fun c => c.isDigit = true → c.toLower = c) (by decide) (fun c h _ => toLower_high h) c

theorem lower_ne_F (c : Char) : c.toLower ≠ 'F' ∧ c.toLower ≠ 'R' :=
  ascii (fun c => c.toLower ≠ 'F' ∧ c.toLower ≠ 'R') (by decide)
    (fun c h => by rw [toLower_high h]; exact ⟨fun e => by rw [e] at h; revert h; decide, fun e => by rw [e] at h; revert h; decide⟩) c

/-! ### words -/

theorem splitAux_append (a b : Str) (w : Str) : splitAux w (a ++ ' ' :: b) = splitAux w a ++ splitAux [] b := by
  induction a generalizing w with
  | nil =>
    simp only [List.nil_append, splitAux, show isSpace ' ' = true by decide, if_true]
    split <;> rfl
  | cons c a ih =>
    simp only [List.cons_append, splitAux]
    split
    · split <;> rw [ih] <;> rfl
    · exact ih _

theorem split_append (a b : Str) : split (a ++ ' ' :: b) = split a ++ split b := splitAux_append a b []

theorem splitAux_word (s w : Str) (h : ∀ c ∈ s, isSpace c = false) : splitAux w s = if (w ++ s).isEmpty then [] else [w ++ s] := by
  induction s generalizing w with
  | nil => simp [splitAux]
  | cons c s ih =>
    rw [splitAux, if_neg (by rw [h c List.mem_cons_self]; decide), ih _ (fun d hd => h d (List.mem_cons_of_mem _ hd))]
    simp

theorem split_word (s : Str) (h0 : s ≠ []) (h : ∀ c ∈ s, isSpace c = false) : split s = [s] := by
  rw [split, splitAux_word s [] h]
  simp [h0]

theorem join_cons (w : Str) (ws : List Str) (h : ws ≠ []) : join (w :: ws) = w ++ ' ' :: join ws := by
  cases ws with
  | nil => exact absurd rfl h
  | cons _ _ => rfl

theorem split_join (ws : List Str) : split (join ws) = ws.flatMap split := by
  induction ws with
  | nil => rfl
  | cons w ws ih =>
    by_cases h : ws = []
    · subst h; simp [join]
    · rw [join_cons w ws h, split_append, ih, List.flatMap_cons]

theorem join_append (a b : List Str) (ha : a ≠ []) (hb : b ≠ []) : join (a ++ b) = join a ++ ' ' :: join b := by
  induction a with
  | nil => exact absurd rfl ha
  | cons w a ih =>
    by_cases h : a = []
    · subst h; exact join_cons w b hb
    · rw [List.cons_append, join_cons w _ (by simp [h]), join_cons w a h, ih h]
      simp

theorem join_flatMap (L : List Str) (g : Str → List Str) (h : ∀ w ∈ L, g w ≠ []) :
    join (L.flatMap g) = join (L.map fun w => join (g w)) := by
  induction L with
  | nil => rfl
  | cons w L ih =>
    by_cases hL : L = []
    · subst hL; simp [join]
    · have h1 : L.flatMap g ≠ [] := by
        obtain ⟨v, L', rfl⟩ := List.exists_cons_of_ne_nil hL
        rw [List.flatMap_cons]
        exact fun h' => h v (by simp) (List.append_eq_nil_iff.mp h').1
      rw [List.flatMap_cons, join_append _ _ (h w (by simp)) h1, List.map_cons,
        join_cons _ _ (by simp [hL]), ih (fun v hv => h v (List.mem_cons_of_mem _ hv))]

/-- the words of a string: not empty, no white space -/
theorem splitAux_mem (s w : Str) (hw : ∀ c ∈ w, isSpace c = false) (v : Str) (hv : v ∈ splitAux w s) :
    v ≠ [] ∧ (∀ c ∈ v, isSpace c = false) ∧ ∀ c ∈ v, c ∈ w ∨ c ∈ s := by
  induction s generalizing w with
  | nil =>
    rw [splitAux] at hv
    split at hv
    · cases hv
    · rename_i h
      rw [List.mem_singleton] at hv
      subst hv
      exact ⟨by simpa using h, hw, fun c hc => .inl hc⟩
  | cons c s ih =>
    rw [splitAux] at hv
    split at hv
    · split at hv
      · obtain ⟨h1, h2, h3⟩ := ih [] (by simp) hv
        exact ⟨h1, h2, fun d hd => .inr (List.mem_cons_of_mem _ ((h3 d hd).resolve_left (by simp)))⟩
      · rename_i h
        rcases List.mem_cons.mp hv with rfl | hv
        · exact ⟨by simpa using h, hw, fun d hd => .inl hd⟩
        · obtain ⟨h1, h2, h3⟩ := ih [] (by simp) hv
          exact ⟨h1, h2, fun d hd => .inr (List.mem_cons_of_mem _ ((h3 d hd).resolve_left (by simp)))⟩
    · rename_i hc
      obtain ⟨h1, h2, h3⟩ := ih (w ++ [c]) (by
        intro d hd
        rcases List.mem_append.mp hd with hd | hd
        · exact hw d hd
        · rw [List.mem_singleton.mp hd]; simpa using hc) hv
      refine ⟨h1, h2, fun d hd => ?_⟩
      rcases h3 d hd with hd | hd
      · rcases List.mem_append.mp hd with hd | hd
        · exact .inl hd
        · exact .inr (by rw [List.mem_singleton.mp hd]; exact List.mem_cons_self)
      · exact .inr (List.mem_cons_of_mem _ hd)

theorem words_no_sep (t : Str) (v : Str) (hv : v ∈ split (spaces t)) : v ≠ [] ∧ ∀ c ∈ v, ¬ Sep c := by
  obtain ⟨h1, h2, h3⟩ := splitAux_mem (spaces t) [] (by simp) v hv
  refine ⟨h1, fun c hc hs => ?_⟩
  rcases (sep_iff c).1 hs with hs | hs
  · rw [h2 c hc] at hs; cases hs
  · have := (h3 c hc).resolve_left (by simp)
    obtain ⟨d, -, hd⟩ := List.mem_map.mp this
    subst hs
    split at hd
    · cases hd
    · rename_i h; exact h hd

/-! ### one word -/

theorem capitalize_lower (s : Str) : (capitalize s).map Char.toLower = s.map Char.toLower := by
  cases s with
  | nil => rfl
  | cons c s =>
    simp only [capitalize, List.map_cons, lower_upper, List.map_map, List.cons.injEq, true_and]
    exact List.map_congr_left fun d _ => lower_lower d

theorem capitalize_capitalize (s : Str) : capitalize (capitalize s) = capitalize s := by
  cases s with
  | nil => rfl
  | cons c s =>
    simp only [capitalize, upper_upper, List.map_map, List.cons.injEq, true_and]
    exact List.map_congr_left fun d _ => lower_lower d

theorem takeWhile_digit_lower (s : Str) : (s.map Char.toLower).takeWhile Char.isDigit = s.takeWhile Char.isDigit := by
  induction s with
  | nil => rfl
  | cons c s ih =>
    simp only [List.map_cons, List.takeWhile_cons, isDigit_lower, ih]
    split
    · rename_i h; rw [digit_lower c h]
    · rfl

theorem dropPrefixCI_lower (p s : Str) : dropPrefixCI p (s.map Char.toLower) = (dropPrefixCI p s).map (·.map Char.toLower) := by
  induction p generalizing s with
  | nil => rfl
  | cons c p ih =>
    cases s with
    | nil => rfl
    | cons d s =>
      simp only [List.map_cons, dropPrefixCI, lower_lower]
      split
      · exact ih s
      · rfl

theorem numberAfter_lower (p s : Str) : numberAfter p (s.map Char.toLower) = numberAfter p s := by
  unfold numberAfter
  rw [dropPrefixCI_lower]
  cases dropPrefixCI p s with
  | none => rfl
  | some r => simp only [Option.map_some, takeWhile_digit_lower]

theorem numberAfter_capitalize (p s : Str) : numberAfter p (capitalize s) = numberAfter p s := by
  rw [← numberAfter_lower p (capitalize s), capitalize_lower, numberAfter_lower]

theorem digitsThen_mem (c : Char) (s : Str) (hc : c.isDigit = false) (h : digitsThen c s = true) : c ∈ s.tail := by
  unfold digitsThen at h
  rw [Bool.and_eq_true] at h
  obtain ⟨h1, h2⟩ := h
  have h2 : (s.dropWhile Char.isDigit).head? = some c := by simpa using h2
  cases s with
  | nil => simp at h1
  | cons d s =>
    rw [List.takeWhile_cons] at h1
    by_cases hd : d.isDigit = true
    · rw [List.dropWhile_cons, if_pos hd] at h2
      exact (List.dropWhile_suffix _).subset (List.mem_of_mem_head? h2)
    · simp [hd] at h1

theorem not_digitsThen_capitalize (s : Str) : digitsThen 'F' (capitalize s) = false ∧ digitsThen 'R' (capitalize s) = false ∧
    basement (capitalize s) = false := by
  have key : ∀ c, c ∈ (capitalize s).tail → c ≠ 'F' ∧ c ≠ 'R' := by
    intro c hc
    cases s with
    | nil => cases hc
    | cons d s =>
      obtain ⟨e, -, rfl⟩ := List.mem_map.mp (show c ∈ s.map Char.toLower from hc)
      exact lower_ne_F e
  refine ⟨?_, ?_, ?_⟩
  · by_contra h
    exact (key 'F' (digitsThen_mem 'F' _ (by decide) (by simpa using h))).1 rfl
  · by_contra h
    exact (key 'R' (digitsThen_mem 'R' _ (by decide) (by simpa using h))).2 rfl
  · by_contra h
    have h : basement (capitalize s) = true := by simpa using h
    unfold basement at h
    split at h
    · rename_i s' e
      have := digitsThen_mem 'F' _ (by decide) h
      exact (key 'F' (by rw [e]; exact List.mem_of_mem_tail this)).1 rfl
    · cases h

theorem takeWhile_digits (s : Str) : ∀ c ∈ s.takeWhile Char.isDigit, c.isDigit = true := by
  induction s with
  | nil => simp
  | cons d s ih =>
    intro c hc
    rw [List.takeWhile_cons] at hc
    split at hc
    · rename_i h
      rcases List.mem_cons.mp hc with rfl | hc
      · exact h
      · exact ih c hc
    · cases hc

theorem dropWhile_digits (s : Str) (h : ∀ c ∈ s, c.isDigit = true) : s.dropWhile Char.isDigit = [] := by
  induction s with
  | nil => rfl
  | cons d s ih =>
    rw [List.dropWhile_cons, if_pos (h d List.mem_cons_self)]
    exact ih fun c hc => h c (List.mem_cons_of_mem _ hc)

theorem numberAfter_digits {p s d : Str} (h : numberAfter p s = some d) : d ≠ [] ∧ ∀ c ∈ d, c.isDigit = true := by
  unfold numberAfter at h
  split at h
  · cases h
  · split at h
    · cases h
    · rename_i hne
      cases h
      refine ⟨by simpa using hne, fun c hc => ?_⟩
      exact takeWhile_digits _ c hc

/-- a number is left alone -/
theorem cleanWord_digits (d : Str) (h0 : d ≠ []) (h : ∀ c ∈ d, c.isDigit = true) : cleanWord d = d := by
  have hp : ∀ (q : Char) (p : Str), q.toLower.isDigit = false → numberAfter (q :: p) d = none := by
    intro q p hq
    cases d with
    | nil => exact absurd rfl h0
    | cons c d =>
      rw [numberAfter, dropPrefixCI, if_neg]
      intro e
      rw [e, isDigit_lower, h c List.mem_cons_self] at hq
      cases hq
  have hd : ∀ c, digitsThen c d = false := by
    intro c
    unfold digitsThen
    rw [show d.dropWhile Char.isDigit = [] from dropWhile_digits d h]
    simp
  have hb : basement d = false := by
    unfold basement
    split
    · exact absurd (h 'B' List.mem_cons_self) (by decide)
    · rfl
  have hcap : capitalize d = d := by
    cases d with
    | nil => rfl
    | cons c d =>
      rw [capitalize, digit_upper c (h c List.mem_cons_self)]
      congr 1
      exact (List.map_congr_left fun e he => digit_lower e (h e (List.mem_cons_of_mem _ he))).trans (List.map_id _)
  have e1 : numberAfter "Route".toList d = none := hp 'R' _ (by decide)
  have e2 : numberAfter "Room".toList d = none := hp 'R' _ (by decide)
  simp only [cleanWord, e1, e2, hb, hd, hcap, Bool.false_eq_true, if_false]

theorem not_space {c : Char} (h : ¬ Sep c) : isSpace c = false := by
  cases hs : isSpace c
  · rfl
  · exact absurd (.inl hs) h

theorem capitalize_ne (w : Str) (h : w ≠ []) : capitalize w ≠ [] := by
  cases w with
  | nil => exact absurd rfl h
  | cons _ _ => exact List.cons_ne_nil _ _

theorem capitalize_no_sep (w : Str) (h : ∀ c ∈ w, ¬ Sep c) : ∀ c ∈ capitalize w, ¬ Sep c := by
  cases w with
  | nil => exact h
  | cons d w =>
    intro c hc
    rcases List.mem_cons.mp hc with rfl | hc
    · rw [sep_upper]; exact h d List.mem_cons_self
    · obtain ⟨e, he, rfl⟩ := List.mem_map.mp hc
      rw [sep_lower]; exact h e (List.mem_cons_of_mem _ he)

/-- the three shapes of a cleaned word -/
theorem cleanWord_cases (w : Str) :
    (∃ d, numberAfter "Route".toList w = some d ∧ cleanWord w = "Route ".toList ++ d) ∨
    (∃ d, numberAfter "Room".toList w = some d ∧ cleanWord w = "Room ".toList ++ d) ∨
    (cleanWord w = w ∧ cleanWord (cleanWord w) = cleanWord w) ∨
    (cleanWord w = capitalize w ∧ cleanWord (cleanWord w) = cleanWord w) := by
  cases h1 : numberAfter "Route".toList w with
  | some d => exact .inl ⟨d, rfl, by simp only [cleanWord, h1]⟩
  | none =>
    cases h2 : numberAfter "Room".toList w with
    | some d => exact .inr (.inl ⟨d, rfl, by simp only [cleanWord, h1, h2]⟩)
    | none =>
      right; right
      have e : cleanWord w = if basement w then w else if digitsThen 'F' w then w else if digitsThen 'R' w then w else capitalize w := by
        simp only [cleanWord, h1, h2]
      by_cases hs : basement w = true ∨ digitsThen 'F' w = true ∨ digitsThen 'R' w = true
      · have : cleanWord w = w := by
          rw [e]
          rcases hs with h | h | h <;> simp [h]
        exact .inl ⟨this, by rw [this, this]⟩
      · push Not at hs
        have : cleanWord w = capitalize w := by
          rw [e]; simp [hs]
        refine .inr ⟨this, ?_⟩
        rw [this]
        obtain ⟨a, b, c⟩ := not_digitsThen_capitalize w
        simp only [cleanWord, numberAfter_capitalize, h1, h2, a, b, c, capitalize_capitalize, Bool.false_eq_true, if_false]

theorem cleanWord_words (w : Str) (h0 : w ≠ []) (h : ∀ c ∈ w, ¬ Sep c) :
    split (cleanWord w) ≠ [] ∧ (split (cleanWord w)).map cleanWord = split (cleanWord w) ∧ join (split (cleanWord w)) = cleanWord w ∧ '_' ∉ cleanWord w := by
  have num : ∀ (r : Str) (d : Str), r ≠ [] → (∀ c ∈ r, ¬ Sep c) → cleanWord r = r → d ≠ [] → (∀ c ∈ d, c.isDigit = true) →
      cleanWord w = r ++ ' ' :: d →
      split (cleanWord w) ≠ [] ∧ (split (cleanWord w)).map cleanWord = split (cleanWord w) ∧ join (split (cleanWord w)) = cleanWord w ∧ '_' ∉ cleanWord w := by
    intro r d hr0 hr hr1 hd0 hd e
    have hs : split (cleanWord w) = [r, d] := by
      rw [e, split_append, split_word r hr0 fun c hc => not_space (hr c hc),
        split_word d hd0 fun c hc => not_space (digit_not_sep c (hd c hc))]
      rfl
    refine ⟨by rw [hs]; simp, ?_, ?_, ?_⟩
    · rw [hs, List.map_cons, List.map_cons, List.map_nil, hr1, cleanWord_digits d hd0 hd]
    · rw [hs, e]; rfl
    · rw [e]
      intro hm
      rcases List.mem_append.mp hm with hm | hm
      · exact hr _ hm (.inr rfl)
      · rcases List.mem_cons.mp hm with hm | hm
        · revert hm; decide
        · exact digit_not_sep _ (hd _ hm) (.inr rfl)
  have word : ∀ v : Str, v ≠ [] → (∀ c ∈ v, ¬ Sep c) → cleanWord w = v → cleanWord (cleanWord w) = cleanWord w →
      split (cleanWord w) ≠ [] ∧ (split (cleanWord w)).map cleanWord = split (cleanWord w) ∧ join (split (cleanWord w)) = cleanWord w ∧ '_' ∉ cleanWord w := by
    intro v hv0 hv e e2
    have hs : split (cleanWord w) = [cleanWord w] := by
      rw [e]; exact split_word v hv0 fun c hc => not_space (hv c hc)
    refine ⟨by rw [hs]; simp, ?_, ?_, ?_⟩
    · rw [hs, List.map_singleton, e2]
    · rw [hs]; rfl
    · rw [e]; exact fun hm => hv _ hm (.inr rfl)
  rcases cleanWord_cases w with ⟨d, hd, e⟩ | ⟨d, hd, e⟩ | ⟨e, e2⟩ | ⟨e, e2⟩
  · obtain ⟨hd0, hd⟩ := numberAfter_digits hd
    exact num "Route".toList d (by decide) (by decide) (by decide) hd0 hd e
  · obtain ⟨hd0, hd⟩ := numberAfter_digits hd
    exact num "Room".toList d (by decide) (by decide) (by decide) hd0 hd e
  · exact word w h0 h e e2
  · exact word _ (capitalize_ne w h0) (capitalize_no_sep w h) e e2

theorem removeMap_id (s : Str) (h : '_' ∉ s) : removeMap s = s := by
  induction s with
  | nil => rfl
  | cons c s ih =>
    have h1 : removeMap s = s := ih fun hm => h (List.mem_cons_of_mem _ hm)
    rw [removeMap.eq_def]
    split
    · rename_i e; rw [e] at h; simp at h
    · rename_i e; cases e; rw [h1]
    · rename_i e; cases e

theorem spaces_id (s : Str) (h : '_' ∉ s) : spaces s = s := by
  unfold spaces
  refine (List.map_congr_left fun c hc => ?_).trans (List.map_id _)
  rw [if_neg (fun e : c = '_' => h (e ▸ hc))]; rfl

theorem not_mem_join (ws : List Str) (h : ∀ w ∈ ws, '_' ∉ w) : '_' ∉ join ws := by
  induction ws with
  | nil => simp [join]
  | cons w ws ih =>
    by_cases hw : ws = []
    · subst hw; exact h w (by simp)
    · rw [join_cons w ws hw]
      intro hm
      rcases List.mem_append.mp hm with hm | hm
      · exact h w (by simp) hm
      · rcases List.mem_cons.mp hm with hm | hm
        · revert hm; decide
        · exact ih (fun v hv => h v (List.mem_cons_of_mem _ hv)) hm

theorem no_underscore (s : Str) : '_' ∉ clean s := by
  have hw := words_no_sep (removeMap s)
  apply not_mem_join
  intro v hv
  obtain ⟨w, hw', rfl⟩ := List.mem_map.mp hv
  exact (cleanWord_words w (hw w hw').1 (hw w hw').2).2.2.2

theorem words_clean (s : Str) : (split (clean s)).map cleanWord = split (clean s) ∧ join (split (clean s)) = clean s := by
  have hw := words_no_sep (removeMap s)
  unfold clean
  generalize split (spaces (removeMap s)) = W at hw
  rw [split_join, List.flatMap_map]
  constructor
  · rw [List.map_flatMap, List.flatMap_def, List.flatMap_def]
    congr 1
    exact List.map_congr_left fun w hm => (cleanWord_words w (hw w hm).1 (hw w hm).2).2.1
  · rw [join_flatMap]
    · congr 1
      exact List.map_congr_left fun w hm => (cleanWord_words w (hw w hm).1 (hw w hm).2).2.2.1
    · intro w hm
      exact (cleanWord_words w (hw w hm).1 (hw w hm).2).1

/-- C86: cleaning a cleaned name changes nothing. -/
theorem C86_idempotent (s : Str) : clean (clean s) = clean s := by
  obtain ⟨h1, h2⟩ := words_clean s
  conv => lhs; rw [clean, removeMap_id _ (no_underscore s), spaces_id _ (no_underscore s), h1, h2]

theorem join_eq (ws : List Str) : join ws = [' '].intercalate ws := by
  induction ws with
  | nil => rfl
  | cons w ws ih =>
    by_cases h : ws = []
    · subst h; simp [join]
    · rw [join_cons w ws h, ih, List.intercalate_cons_of_ne_nil h]
      simp

/-- C86: a name consists of words, without white space or underscores, separated by single blanks. -/
theorem C86_shape (s : Str) : ∃ ws : List Str, clean s = [' '].intercalate ws ∧ ∀ w ∈ ws, w ≠ [] ∧ ∀ c ∈ w, ¬ Sep c := by
  refine ⟨split (clean s), by rw [← join_eq, (words_clean s).2], fun w hw => ?_⟩
  apply words_no_sep (clean s)
  rwa [spaces_id _ (no_underscore s)]

/-! ### letters -/

/-- a string without separators and case -/
def norm (s : Str) : Str := (s.filter fun c => !decide (Sep c)).map Char.toLower

theorem norm_append (a b : Str) : norm (a ++ b) = norm a ++ norm b := by simp [norm]

theorem norm_word (s : Str) (h : ∀ c ∈ s, ¬ Sep c) : norm s = s.map Char.toLower := by
  rw [norm, List.filter_eq_self.mpr]
  intro c hc
  simpa using h c hc

theorem norm_join (ws : List Str) : norm (join ws) = ws.flatMap norm := by
  induction ws with
  | nil => rfl
  | cons w ws ih =>
    by_cases h : ws = []
    · subst h; simp [join]
    · rw [join_cons w ws h, norm_append, List.flatMap_cons, ← ih]
      rfl

theorem norm_splitAux (w s : Str) : (splitAux w s).flatMap norm = norm (w ++ s) := by
  induction s generalizing w with
  | nil =>
    rw [splitAux]
    split
    · rename_i h
      rw [List.isEmpty_iff.mp h]; rfl
    · simp
  | cons c s ih =>
    rw [splitAux]
    split
    · rename_i h
      have hn : norm (c :: s) = norm s := by simp [norm, sep_iff, h]
      split
      · rename_i h2
        rw [ih, List.isEmpty_iff.mp h2]
        exact hn.symm
      · rw [List.flatMap_cons, ih, norm_append w, hn]; rfl
    · rw [ih]; simp

theorem norm_spaces (t : Str) : norm (spaces t) = norm t := by
  induction t with
  | nil => rfl
  | cons c t ih =>
    by_cases h : c = '_'
    · subst h
      exact ih
    · have e : spaces (c :: t) = c :: spaces t := by simp [spaces, h]
      rw [e]
      have : ∀ u, norm (c :: u) = norm [c] ++ norm u := fun u => norm_append [c] u
      rw [this, this t, ih]

theorem dropPrefixCI_some {p s r : Str} (h : dropPrefixCI p s = some r) :
    ∃ q, s = q ++ r ∧ q.map Char.toLower = p.map Char.toLower := by
  induction p generalizing s with
  | nil => cases h; exact ⟨[], rfl, rfl⟩
  | cons c p ih =>
    cases s with
    | nil => cases h
    | cons d s =>
      rw [dropPrefixCI] at h
      split at h
      · rename_i e
        obtain ⟨q, rfl, hq⟩ := ih h
        exact ⟨d :: q, rfl, by rw [List.map_cons, List.map_cons, hq, e]⟩
      · cases h

/-- what a number after `p` means -/
theorem numberAfter_some {p s d : Str} (h : numberAfter p s = some d) :
    ∃ q r, s = q ++ d ++ r ∧ q.map Char.toLower = p.map Char.toLower ∧ ∀ c ∈ r.head?, c.isDigit = false := by
  unfold numberAfter at h
  split at h
  · cases h
  · rename_i r hr
    split at h
    · cases h
    · cases h
      obtain ⟨q, rfl, hq⟩ := dropPrefixCI_some hr
      refine ⟨q, r.dropWhile Char.isDigit, by rw [List.append_assoc, List.takeWhile_append_dropWhile], hq, fun c hc => ?_⟩
      have := List.head?_dropWhile_not Char.isDigit r
      rw [Option.mem_def] at hc
      rw [hc] at this
      simpa using this

/-- where a word comes from: it follows the beginning of the string or a blank -/
theorem splitAux_where (s w v : Str) (hv : v ∈ splitAux w s) :
    ∃ a b, w ++ s = a ++ v ++ b ∧ (a = [] ∨ ∃ a' e, a = a' ++ [e] ∧ isSpace e = true) := by
  induction s generalizing w with
  | nil =>
    rw [splitAux] at hv
    split at hv
    · cases hv
    · rw [List.mem_singleton.mp hv]
      exact ⟨[], [], by simp, .inl rfl⟩
  | cons c s ih =>
    rw [splitAux] at hv
    split at hv
    · rename_i hc
      have rest : v ∈ splitAux [] s →
          ∃ a b, w ++ c :: s = a ++ v ++ b ∧ (a = [] ∨ ∃ a' e, a = a' ++ [e] ∧ isSpace e = true) := by
        intro hv
        obtain ⟨a, b, h1, h2⟩ := ih [] hv
        refine ⟨w ++ c :: a, b, ?_, .inr ?_⟩
        · rw [List.nil_append] at h1; rw [h1]; simp
        · rcases h2 with rfl | ⟨a', e, rfl, he⟩
          · exact ⟨w, c, rfl, hc⟩
          · exact ⟨w ++ c :: a', e, by simp, he⟩
      split at hv
      · exact rest hv
      · rcases List.mem_cons.mp hv with rfl | hv
        · exact ⟨[], c :: s, rfl, .inl rfl⟩
        · exact rest hv
    · obtain ⟨a, b, h1, h2⟩ := ih _ hv
      exact ⟨a, b, by rw [← h1]; simp, h2⟩

theorem word_where (t v : Str) (hv : v ∈ split (spaces t)) :
    ∃ a b, t = a ++ v ++ b ∧ (a = [] ∨ ∃ a' e, a = a' ++ [e] ∧ Sep e) := by
  obtain ⟨a, b, h1, h2⟩ := splitAux_where _ _ _ hv
  have hns := (words_no_sep t v hv).2
  rw [List.nil_append, spaces, List.map_eq_append_iff] at h1
  obtain ⟨u, b', rfl, hu, -⟩ := h1
  rw [List.map_eq_append_iff] at hu
  obtain ⟨a', v', rfl, ha, hv'⟩ := hu
  have hvv : v' = v := by
    rw [← hv']
    symm
    refine (List.map_congr_left fun c hc => ?_).trans (List.map_id _)
    split
    · exfalso
      refine hns ' ' ?_ (.inl (by decide))
      rw [← hv']
      exact List.mem_map.mpr ⟨c, hc, by rw [if_pos ‹_›]⟩
    · rfl
  refine ⟨a', b', by rw [hvv], ?_⟩
  rcases h2 with rfl | ⟨x, e, rfl, he⟩
  · left
    exact List.map_eq_nil_iff.mp ha
  · right
    rw [List.map_eq_append_iff] at ha
    obtain ⟨x', y, rfl, -, hy⟩ := ha
    obtain ⟨z, rfl, hz⟩ := List.map_eq_singleton_iff.mp hy
    refine ⟨x', z, rfl, ?_⟩
    split at hz
    · exact .inr ‹_›
    · exact .inl (hz ▸ he)

/-- The numbers following `route` or `room` at the beginning of a word end the word. -/
def NumbersEndWords (t : Str) : Prop :=
  ∀ a p d c b, t = a ++ p ++ d ++ c :: b → (a = [] ∨ ∃ a' e, a = a' ++ [e] ∧ Sep e) →
    (p.map Char.toLower = "route".toList ∨ p.map Char.toLower = "room".toList) → d ≠ [] → (∀ x ∈ d, x.isDigit = true) →
    c.isDigit = true ∨ Sep c

theorem norm_cleanWord (t w : Str) (ht : NumbersEndWords t) (hw : w ∈ split (spaces t)) : norm (cleanWord w) = norm w := by
  obtain ⟨h0, hns⟩ := words_no_sep t w hw
  have num : ∀ (r p d : Str), numberAfter p w = some d → r = p ++ [' '] → (∀ c ∈ p, ¬ Sep c) →
      (p.map Char.toLower = "route".toList ∨ p.map Char.toLower = "room".toList) → cleanWord w = r ++ d →
      norm (cleanWord w) = norm w := by
    intro r p d hd hr hp hp2 e
    obtain ⟨hd0, hdd⟩ := numberAfter_digits hd
    obtain ⟨q, x, hx, hq, hx2⟩ := numberAfter_some hd
    have hx0 : x = [] := by
      obtain ⟨a, b, hab, ha⟩ := word_where t w hw
      cases x with
      | nil => rfl
      | cons c x =>
        exfalso
        rcases ht a q d c (x ++ b) (by rw [hab, hx]; simp) ha (by rw [hq]; exact hp2) hd0 hdd with h | h
        · rw [hx2 c rfl] at h; cases h
        · exact hns c (by rw [hx]; simp) h
    subst hx0
    rw [norm_word w hns, e, hr, hx, norm_append, norm_append, norm_word p hp,
      norm_word d fun c hc => digit_not_sep c (hdd c hc)]
    simp [hq, norm, show Sep ' ' from .inl (by decide)]
  rcases cleanWord_cases w with ⟨d, hd, e⟩ | ⟨d, hd, e⟩ | ⟨e, -⟩ | ⟨e, -⟩
  · exact num _ _ d hd (by decide) (by decide) (by decide) e
  · exact num _ _ d hd (by decide) (by decide) (by decide) e
  · rw [e]
  · rw [e, norm_word _ (capitalize_no_sep w hns), capitalize_lower, norm_word w hns]

theorem removeMap_of_not_infix (t : Str) (h : ¬ "MAP_".toList <:+: t) : removeMap t = t := by
  induction t with
  | nil => rfl
  | cons c t ih =>
    rw [removeMap.eq_def]
    split
    · rename_i s e
      rw [e] at h
      exact absurd ⟨[], s, rfl⟩ h
    · rename_i e
      cases e
      rw [ih fun h' => h (h'.trans (List.suffix_cons _ _).isInfix)]
    · rename_i e; cases e

/-- C86 in full: the name has every letter and digit of the map string without its prefix, in order, up to case. -/
def C86_full : Prop := ∀ t : Str, ¬ "MAP_".toList <:+: t → norm (clean ("MAP_".toList ++ t)) = norm t

/-- C86 is false: what follows the number of a route (or room) in the same word is dropped. -/
theorem C86_full_false : ¬ C86_full := fun h =>
  absurd (h "ROUTE101A".toList (by decide)) (by decide)

/-- C86 (partial): true when no word continues after the number of a route or room. -/
theorem C86_letters_partial (t : Str) (h1 : ¬ "MAP_".toList <:+: t) (h2 : NumbersEndWords t) :
    norm (clean ("MAP_".toList ++ t)) = norm t := by
  have e : removeMap ("MAP_".toList ++ t) = t := removeMap_of_not_infix t h1
  rw [clean, e, norm_join, List.flatMap_map]
  rw [show norm t = (split (spaces t)).flatMap norm by
    rw [split, norm_splitAux, List.nil_append, norm_spaces]]
  rw [List.flatMap_def, List.flatMap_def]
  congr 1
  exact List.map_congr_left fun w hw => norm_cleanWord t w h2 hw

example : clean "MAP_UNDERWATER_ROUTE126".toList = "Underwater Route 126".toList ∧
    clean "MAP_FIVE_ISLAND_LOST_CAVE_ROOM10".toList = "Five Island Lost Cave Room 10".toList ∧
    clean "MAP_MT_MOON_B1F".toList = "Mt Moon B1F".toList ∧ clean "MAP_ROUTE101A".toList = "Route 101".toList := by decide

example : ¬ "MAP_".toList <:+: "MT_MOON_1F".toList ∧ NumbersEndWords "MT_MOON_1F".toList := by
  refine ⟨by decide, fun a p d c b h _ hp => ?_⟩
  exfalso
  have key : ∀ x ∈ "MT_MOON_1F".toList, x.toLower ≠ 'r' := by decide
  have hr : 'r' ∈ p.map Char.toLower := by rcases hp with h | h <;> rw [h] <;> decide
  obtain ⟨x, hx, hx2⟩ := List.mem_map.mp hr
  exact key x (by rw [h]; simp [hx]) hx2

end Verif.MapName
