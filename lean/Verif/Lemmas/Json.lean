import Verif.Spec.Json
import Mathlib.Data.Nat.Digits.Lemmas
import Mathlib.Tactic.Linarith
/-
Reading the text of a value gives the value.
-/
namespace Verif.Json
open JsonSpec

theorem scanString_append {s : Str} (h : s.all plainChar = true) (t : Str) : scanString (s ++ 34 :: t) = some (s, t) := by
  induction s with
  | nil => simp [scanString]
  | cons c s ih =>
    simp only [List.all_cons, Bool.and_eq_true] at h
    have hc := h.1
    simp only [plainChar, Bool.and_eq_true, decide_eq_true_eq, bne_iff_ne] at hc
    rw [List.cons_append, scanString, if_neg hc.1.2, if_neg (by omega), ih h.2]
    rfl

theorem setItem_new [DecidableEq α] {d : List (α × β)} {k : α} {v : β} (h : k ∉ d.map (·.1)) :
    setItem d k v = d ++ [(k, v)] := by
  induction d with
  | nil => rfl
  | cons m d ih =>
    simp only [List.map_cons, List.mem_cons, not_or] at h
    rw [setItem, if_neg (fun e => h.1 e.symm), ih h.2]
    rfl

theorem dictOf_nodup [DecidableEq α] {l : List (α × β)} (h : (l.map (·.1)).Nodup) : dictOf l = l := by
  have key : ∀ (l d : List (α × β)), ((d ++ l).map (·.1)).Nodup → l.foldl (fun d m => setItem d m.1 m.2) d = d ++ l := by
    intro l
    induction l with
    | nil => simp
    | cons m l ih =>
      intro d hd
      have hm : m.1 ∉ d.map (·.1) := by
        simp only [List.map_append, List.map_cons, List.nodup_append] at hd
        intro hmem
        exact hd.2.2 _ hmem _ List.mem_cons_self rfl
      rw [List.foldl_cons, setItem_new hm, ih _ (by simpa using hd)]
      simp
  simpa [dictOf] using key l [] (by simpa using h)

theorem lookup_nodup [DecidableEq α] {d : List (α × β)} (h : (d.map (·.1)).Nodup) (k : α) (v : β) :
    lookup d k = some v ↔ (k, v) ∈ d := by
  induction d with
  | nil => simp [lookup]
  | cons m d ih =>
    simp only [List.map_cons, List.nodup_cons] at h
    by_cases e : m.1 = k
    · subst e
      have : (m.1, v) ∉ d := fun hm => h.1 (List.mem_map.2 ⟨_, hm, rfl⟩)
      simp only [lookup, List.find?_cons, decide_true, Option.map_some, Option.some.injEq, List.mem_cons, this, or_false]
      constructor
      · rintro rfl; rfl
      · intro h; rw [← h]
    · have e' : ¬ (k, v) = m := fun h => e (by rw [← h])
      have := ih h.2
      simp only [lookup, List.find?_cons, e, decide_false] at this ⊢
      simp [this, e']

/-! ### numbers -/

/-- what may follow a number -/
def Stop (t : Str) : Prop := ∀ c s, t = c :: s → isDigit c = false ∧ c ≠ 46 ∧ c ≠ 69 ∧ c ≠ 101

theorem ofDecimal_append (a b : Str) : ofDecimal (a ++ b) = b.foldl (fun a c => 10 * a + (c - 48)) (ofDecimal a) := by
  rw [ofDecimal, List.foldl_append]
  rfl

theorem decimal_digits (n : Nat) : ∀ c ∈ decimal n, isDigit c = true := by
  intro c hc
  rw [decimal] at hc
  split at hc
  · rw [List.mem_singleton.1 hc]
    rfl
  · obtain ⟨d, hd, rfl⟩ := List.mem_map.1 hc
    have := Nat.digits_lt_base (by norm_num) (List.mem_reverse.1 hd)
    simp only [isDigit, Bool.and_eq_true, decide_eq_true_eq]
    omega

theorem ofDecimal_decimal (n : Nat) : ofDecimal (decimal n) = n := by
  rw [decimal]
  split
  · rename_i h; rw [h]; rfl
  · have : ∀ l : List Nat, ofDecimal (l.reverse.map (48 + ·)) = Nat.ofDigits 10 l := by
      intro l
      induction l with
      | nil => rfl
      | cons d l ih =>
        rw [List.reverse_cons, List.map_append, ofDecimal_append, ih, Nat.ofDigits_cons]
        simp
        omega
    rw [this, Nat.ofDigits_digits]

theorem decimal_head (n : Nat) (h : n ≠ 0) : ∃ c s, decimal n = c :: s ∧ c ≠ 48 := by
  rw [decimal, if_neg h]
  have hl : Nat.digits 10 n ≠ [] := Nat.digits_ne_nil_iff_ne_zero.2 h
  have h0 := Nat.getLast_digit_ne_zero 10 h
  obtain ⟨l, d, e⟩ : ∃ l d, Nat.digits 10 n = l ++ [d] := ⟨_, _, (List.dropLast_append_getLast hl).symm⟩
  have : (Nat.digits 10 n).getLast hl = d := by simp [e]
  rw [this] at h0
  refine ⟨48 + d, l.reverse.map (48 + ·), by rw [e]; simp, by omega⟩

theorem takeWhile_digits {s t : Str} (hs : ∀ c ∈ s, isDigit c = true) (ht : Stop t) : (s ++ t).takeWhile isDigit = s := by
  rw [List.takeWhile_append_of_pos hs]
  cases t with
  | nil => simp
  | cons c t => rw [List.takeWhile_cons, (ht c t rfl).1]; simp

theorem scanNumber_decimal (n : Nat) {t : Str} (ht : Stop t) : scanNumber (decimal n ++ t) = some (.num n, t) := by
  have hd : numberOf (decimal n ++ t) = decimal n := by
    by_cases h : n = 0
    · subst h; rfl
    · obtain ⟨c, s, e, hc⟩ := decimal_head n h
      have := takeWhile_digits (decimal_digits n) ht
      rw [e] at this ⊢
      rw [List.cons_append] at this ⊢
      rw [numberOf.eq_def]
      split
      · rename_i heq
        exact absurd (List.cons.inj heq).1 hc
      · exact this
  have hne : decimal n ≠ [] := by
    by_cases h : n = 0
    · subst h; simp [decimal]
    · obtain ⟨c, s, e, hc⟩ := decimal_head n h
      simp [e]
  rw [scanNumber, hd]
  simp only [List.drop_left, if_neg hne, ofDecimal_decimal]
  cases t with
  | nil => rfl
  | cons c t =>
    have := ht c t rfl
    simp [this]

/-! ### values -/

theorem skipWs_cons {c : Nat} (s : Str) (h : c ≠ 32 ∧ c ≠ 9 ∧ c ≠ 10 ∧ c ≠ 13) : skipWs (c :: s) = c :: s := by
  simp [skipWs, h]

theorem skipWs_blank (s : Str) : skipWs (32 :: s) = skipWs s := by simp [skipWs]

/-- a text starts with a character that is neither white space nor a closing bracket -/
theorem text_head (v : Json) : ∃ c s, text v = c :: s ∧ (c ≠ 32 ∧ c ≠ 9 ∧ c ≠ 10 ∧ c ≠ 13) ∧ c ≠ 93 := by
  cases v with
  | null => exact ⟨_, _, rfl, by decide, by decide⟩
  | bool b => cases b <;> exact ⟨_, _, rfl, by decide, by decide⟩
  | num n =>
    have hd : ∀ c s, decimal n = c :: s → isDigit c = true := fun c s e => decimal_digits n c (by rw [e]; exact List.mem_cons_self)
    obtain ⟨c, s, e⟩ : ∃ c s, decimal n = c :: s := by
      by_cases h : n = 0
      · subst h; exact ⟨_, _, rfl⟩
      · obtain ⟨c, s, e, -⟩ := decimal_head n h
        exact ⟨c, s, e⟩
    have := hd c s e
    simp only [isDigit, Bool.and_eq_true, decide_eq_true_eq] at this
    exact ⟨c, s, by rw [text, e], by omega, by omega⟩
  | str s => exact ⟨_, _, by rw [text, quoted], by decide, by decide⟩
  | arr l => exact ⟨_, _, by rw [text], by decide, by decide⟩
  | obj d => exact ⟨_, _, by rw [text], by decide, by decide⟩

theorem skipWs_text (v : Json) (t : Str) : skipWs (text v ++ t) = text v ++ t := by
  obtain ⟨c, s, e, h, -⟩ := text_head v
  rw [e, List.cons_append, skipWs_cons _ h]

theorem text_length (v : Json) : 0 < (text v).length := by
  obtain ⟨c, s, e, -⟩ := text_head v
  simp [e]

theorem stop_cons {c : Nat} (t : Str) (h : isDigit c = false ∧ c ≠ 46 ∧ c ≠ 69 ∧ c ≠ 101) : Stop (c :: t) := by
  rintro c' s' e
  cases e
  exact h

theorem scanValue_number (n : Nat) {t : Str} (ht : Stop t) (fuel : Nat) :
    scanValue (fuel + 1) (decimal n ++ t) = some (.num n, t) := by
  have hd : ∀ c s, decimal n = c :: s → isDigit c = true := fun c s e => decimal_digits n c (by rw [e]; exact List.mem_cons_self)
  have hs := scanNumber_decimal n ht
  obtain ⟨c, s, e⟩ : ∃ c s, decimal n = c :: s := by
    by_cases h : n = 0
    · subst h; exact ⟨_, _, rfl⟩
    · obtain ⟨c, s, e, -⟩ := decimal_head n h
      exact ⟨c, s, e⟩
  have hc := hd c s e
  rw [e, List.cons_append] at hs ⊢
  rw [scanValue.eq_def]
  simp only [isDigit, Bool.and_eq_true, decide_eq_true_eq] at hc
  split
  · rename_i heq; cases heq
  · rename_i f heq
    cases heq
    split
    all_goals first
      | (rename_i heq; have := (List.cons.inj heq).1; omega)
      | exact hs

mutual
theorem scanValue_text : (v : Json) → Plain v → (fuel : Nat) → (text v).length ≤ fuel → (t : Str) → Stop t →
    scanValue fuel (text v ++ t) = some (v, t)
  | v, hv, 0, hf, _, _ => by
    have := text_length v
    omega
  | .null, _, fuel + 1, _, t, _ => by simp [text, scanValue]
  | .bool true, _, fuel + 1, _, t, _ => by simp [text, scanValue]
  | .bool false, _, fuel + 1, _, t, _ => by simp [text, scanValue]
  | .num n, _, fuel + 1, _, t, ht => by
    rw [text]
    exact scanValue_number n ht fuel
  | .str s, hv, fuel + 1, _, t, _ => by
    rw [Plain] at hv
    simp [text, quoted, scanValue, scanString_append hv]
  | .arr [], _, fuel + 1, _, t, _ => by simp [text, elements, scanValue, skipWs]
  | .arr (v :: l), hv, fuel + 1, hf, t, _ => by
    rw [Plain, PlainList] at hv
    rw [text, elements] at hf
    have := scanElements_text v l hv.1 hv.2 fuel (by simp at hf ⊢; omega) t
    obtain ⟨c, s, e, hw, hb⟩ := text_head v
    rw [text, elements, List.cons_append, scanValue]
    rw [e] at this ⊢
    simp only [List.cons_append, List.append_assoc, List.nil_append] at this ⊢
    rw [skipWs_cons _ hw]
    split
    · rename_i heq; cases heq; exact absurd rfl hb
    · rw [this]; rfl
  | .obj [], _, fuel + 1, _, t, _ => by simp [text, members, scanValue, skipWs]
  | .obj (m :: d), hv, fuel + 1, hf, t, _ => by
    rw [Plain, PlainItems] at hv
    rw [text, members] at hf
    have := scanMembers_text m d hv.1.1 hv.1.2 fuel (by simp at hf ⊢; omega) t
    obtain ⟨k, v⟩ := m
    rw [text, members, List.cons_append, scanValue]
    simp only [member, quoted, List.cons_append, List.append_assoc, List.nil_append] at this ⊢
    rw [skipWs_cons _ (by decide)]
    simp only [this, dictOf_nodup hv.2, Option.map_some]
theorem scanElements_text : (v : Json) → (l : List Json) → Plain v → PlainList l → (fuel : Nat) →
    (text v ++ moreElements l).length < fuel → (t : Str) →
    scanElements fuel (text v ++ moreElements l ++ 93 :: t) = some (v :: l, t)
  | _, _, _, _, 0, hf, _ => by omega
  | v, [], hv, _, fuel + 1, hf, t => by
    have := scanValue_text v hv fuel (by simp at hf; omega) (93 :: t) (stop_cons _ (by decide))
    rw [moreElements, List.append_nil, scanElements, this]
    simp [skipWs]
  | v, w :: l, hv, hl, fuel + 1, hf, t => by
    rw [PlainList] at hl
    have h1 := scanValue_text v hv fuel (by simp at hf; omega) (44 :: 32 :: (text w ++ moreElements l ++ 93 :: t))
      (stop_cons _ (by decide))
    have h2 := scanElements_text w l hl.1 hl.2 fuel (by rw [moreElements] at hf; simp at hf ⊢; omega) t
    have e : text v ++ moreElements (w :: l) ++ 93 :: t = text v ++ 44 :: 32 :: (text w ++ moreElements l ++ 93 :: t) := by
      simp [moreElements]
    rw [e, scanElements, h1]
    have h3 : skipWs (32 :: (text w ++ moreElements l ++ 93 :: t)) = text w ++ moreElements l ++ 93 :: t := by
      rw [skipWs_blank, List.append_assoc, skipWs_text]
    simp only [skipWs_cons (c := 44) _ (by decide), h3, h2, Option.map_some]
theorem scanMembers_text : (m : Str × Json) → (d : List (Str × Json)) → PlainItem m → PlainItems d → (fuel : Nat) →
    (member m ++ moreMembers d).length < fuel → (t : Str) →
    scanMembers fuel (member m ++ moreMembers d ++ 125 :: t) = some (m :: d, t)
  | _, _, _, _, 0, hf, _ => by omega
  | (k, v), [], hv, _, fuel + 1, hf, t => by
    rw [PlainItem] at hv
    have := scanValue_text v hv.2 fuel (by rw [member] at hf; simp at hf; omega) (125 :: t) (stop_cons _ (by decide))
    have e : member (k, v) ++ moreMembers [] ++ 125 :: t = 34 :: (k ++ 34 :: 58 :: 32 :: (text v ++ 125 :: t)) := by
      simp [moreMembers, member, quoted]
    rw [e, scanMembers]
    simp only [scanString_append hv.1, skipWs_cons (c := 58) _ (by decide), skipWs_blank, skipWs_text, this,
      skipWs_cons (c := 125) _ (by decide)]
  | (k, v), (k', v') :: d, hv, hd, fuel + 1, hf, t => by
    rw [PlainItem] at hv
    rw [PlainItems] at hd
    have h1 := scanValue_text v hv.2 fuel (by rw [member] at hf; simp at hf; omega)
      (44 :: 32 :: (member (k', v') ++ moreMembers d ++ 125 :: t)) (stop_cons _ (by decide))
    have h2 := scanMembers_text (k', v') d hd.1 hd.2 fuel (by rw [moreMembers] at hf; simp at hf ⊢; omega) t
    have e : member (k, v) ++ moreMembers ((k', v') :: d) ++ 125 :: t =
        34 :: (k ++ 34 :: 58 :: 32 :: (text v ++ 44 :: 32 :: (member (k', v') ++ moreMembers d ++ 125 :: t))) := by
      simp [moreMembers, member, quoted]
    have h3 : skipWs (32 :: (member (k', v') ++ moreMembers d ++ 125 :: t)) = member (k', v') ++ moreMembers d ++ 125 :: t := by
      rw [skipWs_blank, member, quoted]
      simp only [List.cons_append]
      rw [skipWs_cons _ (by decide)]
    rw [e, scanMembers]
    simp only [scanString_append hv.1, skipWs_cons (c := 58) _ (by decide), skipWs_blank, skipWs_text, h1,
      skipWs_cons (c := 44) _ (by decide)]
    rw [skipWs_blank] at h3
    rw [h3, h2]
    rfl
end

theorem loads_text (v : Json) (hv : Plain v) : loads (text v) = some v := by
  have h := scanValue_text v hv ((text v).length + 1) (by omega) [] (by rintro c s e; cases e)
  have h' := skipWs_text v []
  rw [List.append_nil] at h h'
  rw [loads, h', h]
  rfl

end Verif.Json
