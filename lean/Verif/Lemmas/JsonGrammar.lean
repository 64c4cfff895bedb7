import Verif.Spec.JsonGrammar
import Verif.Lemmas.Json
/-
The parser reads exactly the texts of the grammar.
-/
namespace Verif.Json
open JsonSpec

/-! ### white space and strings -/

theorem ws_nil : Ws [] := by
  intro c h
  cases h

theorem ws_append {a b : Str} (ha : Ws a) (hb : Ws b) : Ws (a ++ b) := by
  intro c h
  rcases List.mem_append.1 h with h | h
  · exact ha c h
  · exact hb c h

theorem skipWs_ws {w : Str} (hw : Ws w) (t : Str) : skipWs (w ++ t) = skipWs t := by
  induction w with
  | nil => rfl
  | cons c w ih =>
    have hc := hw c List.mem_cons_self
    rw [← ih fun c h => hw c (List.mem_cons_of_mem _ h)]
    simp [skipWs, hc]

theorem skipWs_only {w : Str} (hw : Ws w) : skipWs w = [] := by
  have := skipWs_ws hw []
  rwa [List.append_nil] at this

theorem skipWs_split (t : Str) : ∃ w, Ws w ∧ t = w ++ skipWs t := by
  refine ⟨t.takeWhile fun c => c = 32 ∨ c = 9 ∨ c = 10 ∨ c = 13, ?_, ?_⟩
  · intro c h
    have := List.all_eq_true.1 (List.all_takeWhile (p := fun c : Nat => decide (c = 32 ∨ c = 9 ∨ c = 10 ∨ c = 13)) (l := t)) c h
    simpa using this
  · rw [skipWs, List.takeWhile_append_dropWhile]

theorem scanString_contents {s : Str} (h : Contents s) (t : Str) : scanString (s ++ 34 :: t) = some (s, t) := by
  induction s with
  | nil => simp [scanString]
  | cons c s ih =>
    have hc := h c List.mem_cons_self
    rw [List.cons_append, scanString, if_neg hc.2.1, if_neg (by omega), ih fun c h' => h c (List.mem_cons_of_mem _ h')]
    rfl

theorem scanString_split {t s r : Str} (h : scanString t = some (s, r)) : Contents s ∧ t = s ++ 34 :: r := by
  induction t generalizing s with
  | nil => simp [scanString] at h
  | cons c t ih =>
    rw [scanString] at h
    split at h
    · rename_i hc
      cases h
      refine ⟨?_, by rw [hc]; rfl⟩
      intro c h
      cases h
    · rename_i hc
      split at h
      · cases h
      · rename_i hc'
        rw [Option.map_eq_some_iff] at h
        obtain ⟨⟨s', r'⟩, h1, h2⟩ := h
        cases h2
        obtain ⟨h3, h4⟩ := ih h1
        refine ⟨?_, by rw [h4]; rfl⟩
        intro d hd
        rcases List.mem_cons.1 hd with rfl | hd
        · omega
        · exact h3 d hd

/-! ### dicts -/

theorem setItem_old [DecidableEq α] {d : List (α × β)} {k : α} {v : β} (h : k ∈ d.map (·.1)) (hd : (d.map (·.1)).Nodup) :
    setItem d k v = d.map fun m => if m.1 = k then (k, v) else m := by
  induction d with
  | nil => cases h
  | cons m d ih =>
    simp only [List.map_cons, List.nodup_cons] at hd
    rw [setItem, List.map_cons]
    by_cases e : m.1 = k
    · rw [if_pos e, if_pos e]
      have : d.map (fun m => if m.1 = k then (k, v) else m) = d.map id := by
        refine List.map_congr_left fun x hx => ?_
        have : x.1 ≠ k := fun hk => hd.1 (e ▸ hk ▸ List.mem_map.2 ⟨x, hx, rfl⟩)
        rw [if_neg this]
        rfl
      rw [this, List.map_id, e]
    · rw [if_neg e, if_neg e, ih _ hd.2]
      rcases List.mem_cons.1 h with h | h
      · exact absurd h.symm e
      · exact h

theorem find_key [DecidableEq α] {l : List (α × β)} {k : α} (h : k ∈ l.map (·.1)) : ∃ v, l.find? (fun m => m.1 = k) = some (k, v) := by
  cases hf : l.find? fun m => m.1 = k with
  | none =>
    obtain ⟨m, hm, rfl⟩ := List.mem_map.1 h
    have := List.find?_eq_none.1 hf m hm
    simp at this
  | some m =>
    have := List.find?_some hf
    simp only [decide_eq_true_eq] at this
    exact ⟨m.2, by rw [← this]⟩

theorem dictFor_keys (l : List (Str × Json)) : (dictFor l).map (·.1) = (l.map (·.1)).eraseDups := by
  have : ∀ ks : List Str, (∀ k ∈ ks, k ∈ l.map (·.1)) → (ks.filterMap fun k => l.reverse.find? fun m => m.1 = k).map (·.1) = ks := by
    intro ks
    induction ks with
    | nil => intro _; rfl
    | cons k ks ih =>
      intro h
      obtain ⟨v, hv⟩ := find_key (l := l.reverse) (k := k) (by simpa using h k List.mem_cons_self)
      rw [List.filterMap_cons_some (f := fun k => l.reverse.find? fun m => m.1 = k) hv, List.map_cons, ih fun k hk => h k (List.mem_cons_of_mem _ hk)]
  exact this _ fun k hk => List.mem_eraseDups.1 hk

theorem nodup_eraseDups [BEq α] [LawfulBEq α] (l : List α) : l.eraseDups.Nodup := by
  match l with
  | [] => simp
  | a :: l =>
    rw [List.eraseDups_cons, List.nodup_cons]
    refine ⟨?_, nodup_eraseDups _⟩
    rw [List.mem_eraseDups]
    simp
termination_by l.length
decreasing_by
  simp only [List.length_cons]
  exact Nat.lt_succ_of_le (List.length_filter_le _ _)

theorem dictOf_eq (l : List (Str × Json)) : dictOf l = dictFor l := by
  induction l using List.reverseRecOn with
  | nil => rfl
  | append_singleton l m ih =>
    have e : dictOf (l ++ [m]) = setItem (dictOf l) m.1 m.2 := by rw [dictOf, List.foldl_append]; rfl
    have hk := dictFor_keys l
    have hn : ((dictFor l).map (·.1)).Nodup := by rw [hk]; exact nodup_eraseDups _
    rw [e, ih]
    obtain ⟨k, v⟩ := m
    by_cases h : k ∈ l.map (·.1)
    · rw [setItem_old (by rw [hk]; exact List.mem_eraseDups.2 h) hn]
      have h0 : ((l ++ [(k, v)]).map (·.1)).eraseDups = (l.map (·.1)).eraseDups := by
        rw [List.map_append, List.eraseDups_append]
        have : List.removeAll (List.map (·.1) [(k, v)]) (l.map (·.1)) = [] := by
          simp only [List.removeAll, List.map_cons, List.map_nil, List.filter_cons]
          simp [h]
        rw [this]
        simp
      rw [dictFor, dictFor, h0]
      have : ∀ ks : List Str, (ks.filterMap fun k => l.reverse.find? fun m => m.1 = k).map (fun m => if m.1 = k then (k, v) else m) =
          ks.filterMap fun x => ((l.reverse.find? fun m => m.1 = x).map fun m => if m.1 = k then (k, v) else m) := by
        intro ks
        rw [List.map_filterMap]
      rw [this]
      refine List.filterMap_congr fun x hx => ?_
      rw [List.reverse_append, List.reverse_singleton, List.singleton_append, List.find?_cons]
      obtain ⟨w, hw⟩ := find_key (l := l.reverse) (k := x) (by simpa using List.mem_eraseDups.1 hx)
      rw [hw, Option.map_some]
      by_cases hx : k = x
      · simp [hx]
      · have hx' : ¬ x = k := fun h => hx h.symm
        simp [hx, hx']
    · rw [setItem_new (by rw [hk]; exact fun h' => h (List.mem_eraseDups.1 h'))]
      have h0 : ((l ++ [(k, v)]).map (·.1)).eraseDups = (l.map (·.1)).eraseDups ++ [k] := by
        rw [List.map_append, List.eraseDups_append]
        have : List.removeAll (List.map (·.1) [(k, v)]) (l.map (·.1)) = [k] := by
          simp only [List.removeAll, List.map_cons, List.map_nil, List.filter_cons]
          simp only [List.filter_nil]
          simp [h]
        rw [this, List.eraseDups_cons]
        simp
      rw [dictFor, dictFor, h0, List.filterMap_append]
      congr 1
      · refine List.filterMap_congr fun x hx => ?_
        rw [List.reverse_append, List.reverse_singleton, List.singleton_append, List.find?_cons]
        have : k ≠ x := by
          rintro rfl
          exact h (List.mem_eraseDups.1 hx)
        simp [this]
      · simp

/-! ### from the grammar to the parser -/

/-- a value starts with a character that is neither white space nor a closing bracket -/
theorem value_head {P : Str → Json → Prop} {t : Str} {v : Json} (h : Value P t v) :
    ∃ c s, t = c :: s ∧ (c ≠ 32 ∧ c ≠ 9 ∧ c ≠ 10 ∧ c ≠ 13) ∧ c ≠ 93 := by
  cases h with
  | num n =>
    obtain ⟨c, s, e, h⟩ := text_head (.num n)
    rw [text] at e
    exact ⟨c, s, e, h⟩
  | _ => exact ⟨_, _, rfl, by decide, by decide⟩

theorem levels_head {n : Nat} {t : Str} {v : Json} (h : Levels n t v) :
    ∃ c s, t = c :: s ∧ (c ≠ 32 ∧ c ≠ 9 ∧ c ≠ 10 ∧ c ≠ 13) ∧ c ≠ 93 := by
  cases n with
  | zero => exact h.elim
  | succ n => exact value_head h

theorem skipWs_value {n : Nat} {t : Str} {v : Json} (h : Levels n t v) (r : Str) : skipWs (t ++ r) = t ++ r := by
  obtain ⟨c, s, rfl, hc, -⟩ := levels_head h
  exact skipWs_cons _ hc

theorem stop_ws {w : Str} (hw : Ws w) {r : Str} (hr : Stop r) : Stop (w ++ r) := by
  cases w with
  | nil => exact hr
  | cons c w =>
    have := hw c List.mem_cons_self
    refine stop_cons _ ?_
    rcases this with rfl | rfl | rfl | rfl <;> decide

/-- the parser reads values of `n` levels -/
def Reads (n : Nat) : Prop := ∀ t v, Levels n t v → ∀ fuel, t.length ≤ fuel → ∀ r, Stop r → scanValue fuel (t ++ r) = some (v, r)

theorem reads_elements {n : Nat} (hn : Reads n) {e : Str} {l : List Json} (h : Elements (Levels n) e l) (fuel : Nat)
    (hf : e.length < fuel) (r : Str) : scanElements fuel (skipWs (e ++ 93 :: r)) = some (l, r) := by
  induction h generalizing fuel with
  | @one w t w' v hw ht hw' =>
    obtain ⟨fuel, rfl⟩ : ∃ f, fuel = f + 1 := ⟨fuel - 1, by omega⟩
    simp only [List.length_append] at hf
    have h1 := hn t v ht fuel (by omega) (w' ++ 93 :: r) (stop_ws hw' (stop_cons _ (by decide)))
    rw [List.append_assoc, skipWs_ws hw, List.append_assoc, skipWs_value ht, scanElements, h1]
    simp only [skipWs_ws hw', skipWs_cons (c := 93) _ (by decide)]
  | @more w t w' v s l hw ht hw' _ ih =>
    obtain ⟨fuel, rfl⟩ : ∃ f, fuel = f + 1 := ⟨fuel - 1, by omega⟩
    simp only [List.length_append, List.length_cons] at hf
    have h1 := hn t v ht fuel (by omega) (w' ++ 44 :: (s ++ 93 :: r)) (stop_ws hw' (stop_cons _ (by decide)))
    have e : w ++ (t ++ (w' ++ 44 :: s)) ++ 93 :: r = w ++ (t ++ (w' ++ 44 :: (s ++ 93 :: r))) := by simp
    rw [e, skipWs_ws hw, skipWs_value ht, scanElements, h1]
    simp only [skipWs_ws hw', skipWs_cons (c := 44) _ (by decide), ih fuel (by omega), Option.map_some]

/-- what follows a member -/
theorem reads_member {n : Nat} (hn : Reads n) {e : Str} {m : Str × Json} (h : Member (Levels n) e m) (fuel : Nat)
    (hf : e.length ≤ fuel) {c : Nat} (hc : c = 44 ∨ c = 125) (r : Str) :
    ∃ t u, skipWs (e ++ c :: r) = 34 :: t ∧ scanString t = some (m.1, u) ∧ ∃ u', skipWs u = 58 :: u' ∧
      ∃ x, scanValue fuel (skipWs u') = some (m.2, x) ∧ skipWs x = c :: r := by
  obtain @⟨a, k, b, d, t, g, v, ha, hk, hb, hd, ht, hg⟩ := h
  have hs : Stop (c :: r) := stop_cons _ (by rcases hc with rfl | rfl <;> decide)
  have h1 := hn t v ht fuel (by simp only [List.length_append, List.length_cons] at hf; omega) (g ++ c :: r) (stop_ws hg hs)
  refine ⟨k ++ 34 :: (b ++ 58 :: (d ++ (t ++ (g ++ c :: r)))), b ++ 58 :: (d ++ (t ++ (g ++ c :: r))), ?_, scanString_contents hk _,
    d ++ (t ++ (g ++ c :: r)), ?_, g ++ c :: r, ?_, ?_⟩
  · rw [List.append_assoc, skipWs_ws ha, quoted, List.cons_append, List.cons_append, skipWs_cons _ (by decide)]
    simp
  · rw [skipWs_ws hb, skipWs_cons _ (by decide)]
  · rw [skipWs_ws hd, skipWs_value ht, h1]
  · rw [skipWs_ws hg, skipWs_cons]
    rcases hc with rfl | rfl <;> decide

theorem reads_members {n : Nat} (hn : Reads n) {e : Str} {l : List (Str × Json)} (h : Members (Levels n) e l) (fuel : Nat)
    (hf : e.length < fuel) (r : Str) : scanMembers fuel (skipWs (e ++ 125 :: r)) = some (l, r) := by
  induction h generalizing fuel with
  | @one t m hm =>
    obtain ⟨fuel, rfl⟩ : ∃ f, fuel = f + 1 := ⟨fuel - 1, by omega⟩
    obtain ⟨t', u, h1, h2, u', h3, x, h4, h5⟩ := reads_member hn hm fuel (by omega) (.inr rfl) r
    rw [h1, scanMembers]
    simp only [h2, h3, h4, h5]
  | @more t m s l hm _ ih =>
    obtain ⟨fuel, rfl⟩ : ∃ f, fuel = f + 1 := ⟨fuel - 1, by omega⟩
    simp only [List.length_append, List.length_cons] at hf
    obtain ⟨t', u, h1, h2, u', h3, x, h4, h5⟩ := reads_member hn hm fuel (by omega) (.inl rfl) (s ++ 125 :: r)
    rw [List.append_assoc, List.cons_append, h1, scanMembers]
    simp only [h2, h3, h4, h5, ih fuel (by omega), Option.map_some]

theorem elements_head {n : Nat} {e : Str} {l : List Json} (h : Elements (Levels n) e l) (r : Str) :
    ∃ c s, skipWs (e ++ r) = c :: s ∧ c ≠ 93 := by
  cases h with
  | @one w t w' v hw ht hw' =>
    obtain ⟨c, s, rfl, hc, h9⟩ := levels_head ht
    exact ⟨c, _, by rw [List.append_assoc, skipWs_ws hw, List.cons_append, List.cons_append, skipWs_cons _ hc], h9⟩
  | @more w t w' v s l hw ht hw' _ =>
    obtain ⟨c, s, rfl, hc, h9⟩ := levels_head ht
    exact ⟨c, _, by rw [List.append_assoc, skipWs_ws hw, List.cons_append, List.cons_append, skipWs_cons _ hc], h9⟩

theorem members_head {n : Nat} {e : Str} {l : List (Str × Json)} (h : Members (Levels n) e l) (r : Str) :
    ∃ s, skipWs (e ++ r) = 34 :: s := by
  have key : ∀ {t m}, Member (Levels n) t m → ∀ r, ∃ s, skipWs (t ++ r) = 34 :: s := by
    intro t m hm r
    obtain @⟨a, k, b, d, t, g, v, ha, hk, hb, hd, ht, hg⟩ := hm
    exact ⟨_, by rw [List.append_assoc, skipWs_ws ha, quoted, List.cons_append, List.cons_append, skipWs_cons _ (by decide)]⟩
  cases h with
  | one hm => exact key hm r
  | more hm _ => rw [List.append_assoc]; exact key hm _

theorem reads_all (n : Nat) : Reads n := by
  induction n with
  | zero => intro t v h; exact h.elim
  | succ n ih =>
    intro t v h fuel hf r hr
    obtain ⟨c, s, e, -⟩ := value_head h
    obtain ⟨fuel, rfl⟩ : ∃ f, fuel = f + 1 := ⟨fuel - 1, by rw [e] at hf; simp at hf; omega⟩
    clear e s c
    cases h with
    | null => simp [scanValue]
    | yes => simp [scanValue]
    | no => simp [scanValue]
    | num m => exact scanValue_number m hr fuel
    | str hs => simp [quoted, scanValue, scanString_contents hs]
    | @noElements w hw =>
      rw [List.cons_append, List.append_assoc, scanValue]
      simp only [skipWs_ws hw, List.cons_append, List.nil_append, skipWs_cons (c := 93) _ (by decide)]
    | @arr t l ht =>
      simp only [List.length_cons, List.length_append, List.length_nil] at hf
      have h1 := reads_elements ih ht fuel (by omega) r
      obtain ⟨c, s, hs, hc⟩ := elements_head ht (93 :: r)
      rw [List.cons_append, List.append_assoc, scanValue]
      simp only [List.cons_append, List.nil_append]
      rw [hs] at h1 ⊢
      split
      · rename_i heq; cases heq; exact absurd rfl hc
      · rw [h1]; rfl
    | @noMembers w hw =>
      rw [List.cons_append, List.append_assoc, scanValue]
      simp only [skipWs_ws hw, List.cons_append, List.nil_append, skipWs_cons (c := 125) _ (by decide)]
    | @obj t l ht =>
      simp only [List.length_cons, List.length_append, List.length_nil] at hf
      have h1 := reads_members ih ht fuel (by omega) r
      obtain ⟨s, hs⟩ := members_head ht (125 :: r)
      rw [List.cons_append, List.append_assoc, scanValue]
      simp only [List.cons_append, List.nil_append]
      rw [hs] at h1 ⊢
      simp only [h1, Option.map_some, dictOf_eq]

theorem loads_document {t : Str} {v : Json} (h : Document t v) : loads t = some v := by
  obtain ⟨n, w, s, w', rfl, hw, hw', hs⟩ := h
  have h1 := reads_all n s v hs ((w ++ (s ++ w')).length + 1) (by simp; omega) w' (by
    have := stop_ws hw' (r := []) (by rintro c s e; cases e)
    rwa [List.append_nil] at this)
  rw [loads, skipWs_ws hw, skipWs_value hs, h1]
  simp [skipWs_only hw']

/-! ### from the parser to the grammar -/

theorem elements_mono {P Q : Str → Json → Prop} (h : ∀ t v, P t v → Q t v) {t : Str} {l : List Json} (ht : Elements P t l) :
    Elements Q t l := by
  induction ht with
  | one hw ht hw' => exact .one hw (h _ _ ht) hw'
  | more hw ht hw' _ ih => exact .more hw (h _ _ ht) hw' ih

theorem member_mono {P Q : Str → Json → Prop} (h : ∀ t v, P t v → Q t v) {t : Str} {m : Str × Json} (ht : Member P t m) :
    Member Q t m := by
  obtain ⟨ha, hk, hb, hd, ht, hg⟩ := ht
  exact .mk ha hk hb hd (h _ _ ht) hg

theorem members_mono {P Q : Str → Json → Prop} (h : ∀ t v, P t v → Q t v) {t : Str} {l : List (Str × Json)} (ht : Members P t l) :
    Members Q t l := by
  induction ht with
  | one hm => exact .one (member_mono h hm)
  | more hm _ ih => exact .more (member_mono h hm) ih

theorem value_mono {P Q : Str → Json → Prop} (h : ∀ t v, P t v → Q t v) {t : Str} {v : Json} (ht : Value P t v) : Value Q t v := by
  cases ht with
  | null => exact .null
  | yes => exact .yes
  | no => exact .no
  | num n => exact .num n
  | str hs => exact .str hs
  | noElements hw => exact .noElements hw
  | arr he => exact .arr (elements_mono h he)
  | noMembers hw => exact .noMembers hw
  | obj hm => exact .obj (members_mono h hm)

theorem levels_succ (n : Nat) : ∀ t v, Levels n t v → Levels (n + 1) t v := by
  induction n with
  | zero => intro t v h; exact h.elim
  | succ n ih => intro t v h; exact value_mono ih h

theorem elements_ws {P : Str → Json → Prop} {w t : Str} {l : List Json} (hw : Ws w) (h : Elements P t l) : Elements P (w ++ t) l := by
  cases h with
  | one hw' ht hw'' => rw [← List.append_assoc]; exact .one (ws_append hw hw') ht hw''
  | more hw' ht hw'' hr => rw [← List.append_assoc]; exact .more (ws_append hw hw') ht hw'' hr

theorem member_ws {P : Str → Json → Prop} {w t : Str} {m : Str × Json} (hw : Ws w) (h : Member P t m) : Member P (w ++ t) m := by
  obtain ⟨ha, hk, hb, hd, ht, hg⟩ := h
  rw [← List.append_assoc]
  exact .mk (ws_append hw ha) hk hb hd ht hg

theorem members_ws {P : Str → Json → Prop} {w t : Str} {l : List (Str × Json)} (hw : Ws w) (h : Members P t l) :
    Members P (w ++ t) l := by
  cases h with
  | one hm => exact .one (member_ws hw hm)
  | more hm hr => rw [← List.append_assoc]; exact .more (member_ws hw hm) hr

/-- digits that do not start with a zero are the decimal notation of their number -/
theorem decimal_ofDecimal {s : Str} (hd : ∀ c ∈ s, isDigit c = true) {c : Nat} {r : Str} (e : s = c :: r) (hc : c ≠ 48) :
    decimal (ofDecimal s) = s := by
  have h1 : ofDecimal s = Nat.ofDigits 10 (s.reverse.map (· - 48)) := by
    have : ∀ l : List Nat, ofDecimal l.reverse = Nat.ofDigits 10 (l.map (· - 48)) := by
      intro l
      induction l with
      | nil => rfl
      | cons d l ih =>
        rw [List.reverse_cons, ofDecimal_append, ih, List.map_cons, Nat.ofDigits_cons]
        simp
        omega
    have := this s.reverse
    rwa [List.reverse_reverse] at this
  have h2 : ∀ d ∈ s.reverse.map (· - 48), d < 10 := by
    intro d hd'
    obtain ⟨x, hx, rfl⟩ := List.mem_map.1 hd'
    have := hd x (List.mem_reverse.1 hx)
    simp only [isDigit, Bool.and_eq_true, decide_eq_true_eq] at this
    omega
  have hc' := hd c (by rw [e]; exact List.mem_cons_self)
  simp only [isDigit, Bool.and_eq_true, decide_eq_true_eq] at hc'
  have h3 : Nat.digits 10 (ofDecimal s) = s.reverse.map (· - 48) := by
    rw [h1]
    refine Nat.digits_ofDigits 10 (by norm_num) _ h2 fun hne => ?_
    have : (s.reverse.map (· - 48)).getLast hne = c - 48 := by simp [e]
    rw [this]
    omega
  have h4 : ofDecimal s ≠ 0 := by
    intro h0
    rw [h0, Nat.digits_zero] at h3
    have := congrArg List.length h3
    simp [e] at this
  rw [decimal, if_neg h4, h3, ← List.map_reverse, List.reverse_reverse, List.map_map]
  conv_rhs => rw [← List.map_id s]
  refine List.map_congr_left fun x hx => ?_
  have := hd x hx
  simp only [isDigit, Bool.and_eq_true, decide_eq_true_eq] at this
  simp
  omega

theorem scanNumber_split {t r : Str} {v : Json} (h : scanNumber t = some (v, r)) : ∃ n, v = .num n ∧ t = decimal n ++ r := by
  have hs : ∃ s, t = numberOf t ++ s := by
    rw [numberOf.eq_def]
    split
    · exact ⟨_, rfl⟩
    · exact ⟨_, (List.takeWhile_append_dropWhile (p := isDigit)).symm⟩
  obtain ⟨s, hs⟩ := hs
  have hdrop : t.drop (numberOf t).length = s := by
    have := congrArg (List.drop (numberOf t).length) hs
    rwa [List.drop_left] at this
  have hnum : numberOf t ≠ [] → decimal (ofDecimal (numberOf t)) = numberOf t := by
    intro hne
    rw [numberOf.eq_def] at hne ⊢
    split
    · rfl
    · rename_i hz
      split at hne
      · exact absurd rfl (hz _)
      · cases he : t.takeWhile isDigit with
        | nil => exact absurd he hne
        | cons c u =>
          have hall := List.all_eq_true.1 (List.all_takeWhile (p := isDigit) (l := t))
          rw [he] at hall
          refine decimal_ofDecimal (fun c hc => hall c hc) rfl ?_
          rintro rfl
          cases t with
          | nil => cases he
          | cons d t =>
            rw [List.takeWhile_cons] at he
            split at he
            · cases he
              exact hz _ rfl
            · cases he
  rw [scanNumber] at h
  split at h
  · cases h
  · rename_i hne
    rw [hdrop] at h
    cases s with
    | nil =>
      cases h
      exact ⟨_, rfl, by rw [hnum hne]; exact hs⟩
    | cons c s =>
      simp only at h
      split at h
      · cases h
      · cases h
        exact ⟨_, rfl, by rw [hnum hne]; exact hs⟩

/-- what the parser has read -/
theorem parsed (fuel : Nat) :
    (∀ t v r, scanValue fuel t = some (v, r) → ∃ s, t = s ++ r ∧ Levels fuel s v) ∧
    (∀ t l r, scanElements fuel t = some (l, r) → ∃ s, t = s ++ 93 :: r ∧ Elements (Levels fuel) s l) ∧
    (∀ t l r, scanMembers fuel t = some (l, r) → ∃ s, t = s ++ 125 :: r ∧ Members (Levels fuel) s l) := by
  induction fuel with
  | zero => exact ⟨fun t v r h => by simp [scanValue] at h, fun t v r h => by simp [scanElements] at h,
      fun t v r h => by simp [scanMembers] at h⟩
  | succ fuel ih =>
    obtain ⟨i1, i2, i3⟩ := ih
    refine ⟨fun t v r h => ?_, fun t l r h => ?_, fun t l r h => ?_⟩
    · rw [scanValue.eq_def] at h
      simp only at h
      split at h
      · rw [Option.map_eq_some_iff] at h
        obtain ⟨⟨s, r'⟩, h1, h2⟩ := h
        cases h2
        obtain ⟨hs, rfl⟩ := scanString_split h1
        exact ⟨quoted s, by simp [quoted], .str hs⟩
      · rename_i t
        obtain ⟨w, hw, e⟩ := skipWs_split t
        split at h
        · rename_i t' he
          cases h
          rw [he] at e
          exact ⟨123 :: (w ++ [125]), by rw [e]; simp, .noMembers hw⟩
        · rw [Option.map_eq_some_iff] at h
          obtain ⟨⟨l, r'⟩, h1, h2⟩ := h
          cases h2
          obtain ⟨s, hs, hm⟩ := i3 _ _ _ h1
          rw [hs] at e
          refine ⟨123 :: ((w ++ s) ++ [125]), by rw [e]; simp, ?_⟩
          rw [dictOf_eq]
          exact .obj (members_ws hw hm)
      · rename_i t
        obtain ⟨w, hw, e⟩ := skipWs_split t
        split at h
        · rename_i t' he
          cases h
          rw [he] at e
          exact ⟨91 :: (w ++ [93]), by rw [e]; simp, .noElements hw⟩
        · rw [Option.map_eq_some_iff] at h
          obtain ⟨⟨l, r'⟩, h1, h2⟩ := h
          cases h2
          obtain ⟨s, hs, hm⟩ := i2 _ _ _ h1
          rw [hs] at e
          exact ⟨91 :: ((w ++ s) ++ [93]), by rw [e]; simp, .arr (elements_ws hw hm)⟩
      · cases h; exact ⟨_, rfl, .null⟩
      · cases h; exact ⟨_, rfl, .yes⟩
      · cases h; exact ⟨_, rfl, .no⟩
      · obtain ⟨n, rfl, e⟩ := scanNumber_split h
        exact ⟨_, e, .num n⟩
    · rw [scanElements] at h
      split at h
      · cases h
      · rename_i v t' hv
        obtain ⟨s, rfl, hs⟩ := i1 _ _ _ hv
        obtain ⟨w, hw, e⟩ := skipWs_split t'
        split at h
        · rename_i t'' he
          cases h
          rw [he] at e
          refine ⟨[] ++ (s ++ w), by rw [e]; simp, .one ws_nil (levels_succ _ _ _ hs) hw⟩
        · rename_i t'' he
          rw [Option.map_eq_some_iff] at h
          obtain ⟨⟨l', r'⟩, h1, h2⟩ := h
          cases h2
          obtain ⟨s', hs', hm⟩ := i2 _ _ _ h1
          obtain ⟨w', hw', e'⟩ := skipWs_split t''
          rw [hs'] at e'
          rw [he, e'] at e
          exact ⟨[] ++ (s ++ (w ++ 44 :: (w' ++ s'))), by rw [e]; simp,
            .more ws_nil (levels_succ _ _ _ hs) hw (elements_ws hw' (elements_mono (levels_succ _) hm))⟩
        · cases h
    · rw [scanMembers.eq_def] at h
      simp only at h
      split at h
      · rename_i t
        split at h
        · cases h
        · rename_i key t1 hk
          obtain ⟨hc, rfl⟩ := scanString_split hk
          obtain ⟨w1, hw1, e1⟩ := skipWs_split t1
          split at h
          · rename_i t2 h2
            rw [h2] at e1
            obtain ⟨w2, hw2, e2⟩ := skipWs_split t2
            split at h
            · cases h
            · rename_i v t3 hv
              obtain ⟨s, es, hs⟩ := i1 _ _ _ hv
              obtain ⟨w3, hw3, e3⟩ := skipWs_split t3
              rw [es] at e2
              rw [e2] at e1
              have hm : Member (Levels (fuel + 1)) ([] ++ (quoted key ++ (w1 ++ 58 :: (w2 ++ (s ++ w3))))) (key, v) :=
                .mk ws_nil hc hw1 hw2 (levels_succ _ _ _ hs) hw3
              split at h
              · rename_i t4 he
                cases h
                rw [he] at e3
                exact ⟨_, by rw [e1, e3]; simp [quoted], .one hm⟩
              · rename_i t4 he
                rw [Option.map_eq_some_iff] at h
                obtain ⟨⟨l', r'⟩, h1, h2⟩ := h
                cases h2
                obtain ⟨s', hs', hm'⟩ := i3 _ _ _ h1
                obtain ⟨w', hw', e'⟩ := skipWs_split t4
                rw [hs'] at e'
                rw [he, e'] at e3
                exact ⟨_, by rw [e1, e3]; simp [quoted],
                  .more hm (members_ws hw' (members_mono (levels_succ _) hm'))⟩
              · cases h
          · cases h
      · cases h

theorem document_of_loads {t : Str} {v : Json} (h : loads t = some v) : Document t v := by
  rw [loads] at h
  split at h
  · rename_i v' r hv
    split at h
    · rename_i hr
      cases h
      obtain ⟨s, hs, hl⟩ := (parsed _).1 _ _ _ hv
      obtain ⟨w, hw, e⟩ := skipWs_split t
      obtain ⟨w', hw', e'⟩ := skipWs_split r
      rw [hr, List.append_nil] at e'
      exact ⟨_, w, s, r, by rw [← hs]; exact e, hw, by rw [e']; exact hw', hl⟩
    · cases h
  · cases h

/-- the parser reads exactly the texts of the grammar, with their value -/
theorem loads_iff (t : Str) (v : Json) : loads t = some v ↔ Document t v := ⟨document_of_loads, loads_document⟩

end Verif.Json
