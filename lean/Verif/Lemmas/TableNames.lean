import Verif.Model.TableNames
import Verif.Lemmas.Bytes
import Verif.Spec.TableNames
import Mathlib.Data.Nat.Digits.Lemmas
import Mathlib.Tactic.Linarith
/-
The file of the table names is the JSON text of the names and their hashes.
-/
namespace Verif.TableNames
open TableNamesSpec
open Json (Json Str dictOf dictOf_nodup isDigit ofDecimal)
open JsonSpec (plainChar)
open Bytes

/-- a member as it is written by `json.dump` -/
def member (m : Str × Str) : Str := 34 :: (m.1 ++ 34 :: 58 :: 32 :: 34 :: (m.2 ++ [34]))

theorem intOf_dec {x : Nat} (hx : x < 2 ^ 64) : intOf (dec 20 x []) = some x := by
  obtain ⟨h1, h2⟩ := dec_spec 20 x [] (by omega) (by omega) rfl
  rw [intOf, if_pos h1, ofDecimal, h2]
  rfl

theorem dec_plain {x : Nat} (hx : x < 2 ^ 64) : (dec 20 x []).all plainChar = true := by
  obtain ⟨h1, -⟩ := dec_spec 20 x [] (by omega) (by omega) rfl
  rw [List.all_eq_true] at h1 ⊢
  intro c hc
  have := h1.2 c hc
  simp only [plainChar, isDigit, Bool.and_eq_true, decide_eq_true_eq, bne_iff_ne] at this ⊢
  omega

theorem fnv_lt (s : Str) : fnv s < 2 ^ 64 := by
  rcases List.eq_nil_or_concat s with rfl | ⟨l, c, rfl⟩
  · rw [fnv, List.foldl_nil]
    norm_num
  · rw [fnv, List.concat_eq_append, List.foldl_append, List.foldl_cons, List.foldl_nil]
    exact Nat.mod_lt _ (by norm_num)

/-- the members of the file for a list of names -/
def membersOf (l : List Str) : List (Str × Str) := l.map fun n => (dec 20 (fnv n) [], n)

theorem nodup_membersOf {l : List Str} (h : (l.map fnv).Nodup) : ((membersOf l).map (·.1)).Nodup := by
  have : (((membersOf l).map (·.1)).map intOf) = (l.map fnv).map some := by
    simp only [membersOf, List.map_map]
    refine List.map_congr_left fun n _ => ?_
    exact intOf_dec (fnv_lt n)
  refine List.Nodup.of_map intOf ?_
  rw [this]
  exact h.map (Option.some_injective _)

theorem hook_membersOf {l : List Str} (h : (l.map fnv).Nodup) :
    hook (membersOf l) = some (l.map fun n => (fnv n, n)) := by
  rw [hook]
  have h2 : (membersOf l).mapM (fun m => (intOf m.1).map fun k => (k, m.2)) = some (l.map fun n => (fnv n, n)) := by
    clear h
    induction l with
    | nil => rfl
    | cons n l ih =>
      have e : membersOf (n :: l) = (dec 20 (fnv n) [], n) :: membersOf l := rfl
      rw [e, List.mapM_cons, ih, intOf_dec (fnv_lt n)]
      simp
  rw [h2, Option.map_some, dictOf_nodup (by simpa [List.map_map, Function.comp_def] using h)]

/-! ### comparing the file with the names -/

/-- the hash, the number and the length of a string that is continued -/
def fastName {α : Type} : Str → Nat → Nat → Nat → (Nat → Nat → Nat → α) → α
  | [], h, e, n, k => k h e n
  | c :: cs, h, e, n, k =>
    force c fun c => force (Nat.mod (Nat.mul (Nat.xor h c) 0x100000001B3) 18446744073709551616) fun h =>
      force (Nat.add e (Nat.shiftLeft c (Nat.mul 8 n))) fun e => force (Nat.succ n) fun n => fastName cs h e n k

theorem fastName_eq {α : Type} (s p : Str) (k : Nat → Nat → Nat → α) :
    fastName s (fnv p) (enc p) p.length k = k (fnv (p ++ s)) (enc (p ++ s)) (p ++ s).length := by
  induction s generalizing p with
  | nil => rw [fastName, List.append_nil]
  | cons c s ih =>
    have h1 : Nat.mod (Nat.mul (Nat.xor (fnv p) c) 0x100000001B3) 18446744073709551616 = fnv (p ++ [c]) := by
      rw [fnv, fnv, List.foldl_append, List.foldl_cons, List.foldl_nil]
      rfl
    have h2 : Nat.add (enc p) (Nat.shiftLeft c (Nat.mul 8 p.length)) = enc (p ++ [c]) := by
      rw [enc_append, enc, enc, Nat.mul_zero, Nat.add_zero]
      rfl
    have h3 : Nat.succ p.length = (p ++ [c]).length := by simp
    rw [fastName, force_eq, force_eq, force_eq, force_eq, h1, h2, h3, ih]
    simp

/-- the rest of the file starts with the member of a name behind a separator -/
def fastMember (sep sl h e n rem : Nat) (k : Nat → Bool) : Bool :=
  fastDec 20 h 0 0 fun d dl =>
    force (Nat.mul 8 (Nat.add (Nat.add sl dl) (Nat.add n 6))) fun w =>
      Nat.beq (Nat.mod rem (Nat.shiftLeft 1 w))
        (Nat.add sep (Nat.shiftLeft (Nat.add 34 (Nat.mul 256 (Nat.add d (Nat.shiftLeft
          (Nat.add 572537378 (Nat.shiftLeft (Nat.add e (Nat.shiftLeft 34 (Nat.mul 8 n))) 32)) (Nat.mul 8 dl))))) (Nat.mul 8 sl))) &&
      force (Nat.shiftRight rem w) k

/-- the rest of the file starts with the members of names that continue one -/
def fastFamily (h e n : Nat) : List Str → Nat → Nat → List Nat → Nat → (Nat → Nat → List Nat → Nat → Bool) → Bool
  | [], sep, sl, cs, rem, k => k sep sl cs rem
  | s :: ss, sep, sl, cs, rem, k =>
    match rem, cs with
    | 0, c :: cs => fastName s h e n fun h' e' n' => fastMember sep sl h' e' n' c fun rem =>
        fastFamily h e n ss 8236 2 cs rem k
    | rem, cs => fastName s h e n fun h' e' n' => fastMember sep sl h' e' n' rem fun rem => fastFamily h e n ss 8236 2 cs rem k

/-- the rest of the file are the members of the names, and the closing brace -/
def fastFile : List (Str × List Str) → Nat → Nat → List Nat → Nat → Bool
  | [], _, _, cs, rem => cs.isEmpty && Nat.beq rem 125
  | (p, ss) :: fs, sep, sl, cs, rem =>
    fastName p 0xCBF29CE484222645 0 0 fun h e n => fastFamily h e n ss sep sl cs rem fun sep sl cs rem => fastFile fs sep sl cs rem

theorem member_chars {d n : Str} (hd : d.all plainChar = true) (hn : n.all plainChar = true) :
    ∀ c ∈ member (d, n), 0 < c ∧ c < 256 := by
  have hc : ∀ s : Str, s.all plainChar = true → ∀ c ∈ s, 0 < c ∧ c < 256 := by
    intro s hs c hc
    have := List.all_eq_true.1 hs c hc
    simp only [plainChar, Bool.and_eq_true, decide_eq_true_eq, bne_iff_ne] at this
    omega
  intro c hcm
  simp only [member, List.mem_cons, List.mem_append, List.not_mem_nil, or_false] at hcm
  rcases hcm with rfl | h1 | rfl | rfl | rfl | rfl | h1 | rfl
  all_goals first | omega | exact hc _ hd c h1 | exact hc _ hn c h1

/-- the members behind a separator, and then behind `, ` -/
def joined : Str → List (Str × Str) → Str
  | _, [] => []
  | q, m :: ms => q ++ member m ++ joined [44, 32] ms

/-- the separator in front of what follows -/
def nextSep (q : Str) (ms : List Str) : Str := if ms = [] then q else [44, 32]

theorem joined_append (q : Str) (l r : List Str) :
    joined q (membersOf (l ++ r)) = joined q (membersOf l) ++ joined (nextSep q l) (membersOf r) := by
  induction l generalizing q with
  | nil => rfl
  | cons a l ih =>
    have e : ∀ l, membersOf (a :: l) = (dec 20 (fnv a) [], a) :: membersOf l := fun _ => rfl
    rw [List.cons_append, e, e, joined, joined, ih]
    have : nextSep [44, 32] l = nextSep q (a :: l) := by
      rw [nextSep, nextSep, if_neg (List.cons_ne_nil _ _), ite_self]
    rw [this]
    simp

theorem fastMember_sound {q n : Str} (hq : ∀ c ∈ q, 0 < c ∧ c < 256) (hn : n.all plainChar = true) {rem : Nat} {k : Nat → Bool}
    (h : fastMember (enc q) q.length (fnv n) (enc n) n.length rem k = true) :
    ∃ r, k r = true ∧ Nat.digits 256 rem = q ++ member (dec 20 (fnv n) [], n) ++ Nat.digits 256 r := by
  have hd := dec_plain (fnv_lt n)
  have e := fastDec_eq 20 (fnv n) [] (fun d dl =>
    force (Nat.mul 8 (Nat.add (Nat.add q.length dl) (Nat.add n.length 6))) fun w =>
      Nat.beq (Nat.mod rem (Nat.shiftLeft 1 w))
        (Nat.add (enc q) (Nat.shiftLeft (Nat.add 34 (Nat.mul 256 (Nat.add d (Nat.shiftLeft
          (Nat.add 572537378 (Nat.shiftLeft (Nat.add (enc n) (Nat.shiftLeft 34 (Nat.mul 8 n.length))) 32)) (Nat.mul 8 dl)))))
          (Nat.mul 8 q.length))) &&
      force (Nat.shiftRight rem w) k)
  rw [fastMember, show fastDec 20 (fnv n) 0 0 = fastDec 20 (fnv n) (enc []) ([] : Str).length from rfl, e] at h
  clear e
  generalize dec 20 (fnv n) [] = d at h hd ⊢
  rw [force_eq, force_eq, Bool.and_eq_true] at h
  obtain ⟨h1, h2⟩ := h
  have h1 := Nat.eq_of_beq_eq_true h1
  have hw : Nat.mul 8 (Nat.add (Nat.add q.length d.length) (Nat.add n.length 6)) = 8 * (q ++ member (d, n)).length := by
    show 8 * (q.length + d.length + (n.length + 6)) = _
    simp [member]
    omega
  rw [hw] at h1 h2
  refine ⟨_, h2, digits_peel ?_ ?_⟩
  · intro c hc
    rcases List.mem_append.1 hc with hc | hc
    · exact hq c hc
    · exact member_chars hd hn c hc
  · have : rem % 2 ^ (8 * (q ++ member (d, n)).length) = Nat.mod rem (Nat.shiftLeft 1 (8 * (q ++ member (d, n)).length)) := by
      show _ = rem % (1 <<< _)
      rw [Nat.shiftLeft_eq, Nat.one_mul]
    rw [this, h1, enc_append]
    have e1 : enc (member (d, n)) = 34 + 256 * (enc d + (572537378 + (enc n + 34 <<< (8 * n.length)) <<< 32) <<< (8 * d.length)) := by
      rw [member, enc, enc_append]
      have : enc (34 :: 58 :: 32 :: 34 :: (n ++ [34])) = 572537378 + (enc n + 34 <<< (8 * n.length)) <<< 32 := by
        rw [enc, enc, enc, enc, enc_append, enc, enc, Nat.shiftLeft_eq _ 32]
        omega
      rw [this]
    rw [e1]
    rfl

theorem fastFamily_sound {p : Str} {ss : List Str} {q : Str} {cs : List Nat} {rem : Nat} {k : Nat → Nat → List Nat → Nat → Bool}
    (hq : ∀ c ∈ q, 0 < c ∧ c < 256) (hs : ∀ s ∈ ss, (p ++ s).all plainChar = true)
    (h : fastFamily (fnv p) (enc p) p.length ss (enc q) q.length cs rem k = true) :
    ∃ cs' rem', k (enc (nextSep q (ss.map (p ++ ·)))) (nextSep q (ss.map (p ++ ·))).length cs' rem' = true ∧
      Nat.digits 256 rem ++ cs.flatMap (Nat.digits 256) = joined q (membersOf (ss.map (p ++ ·))) ++
        (Nat.digits 256 rem' ++ cs'.flatMap (Nat.digits 256)) := by
  induction ss generalizing q cs rem with
  | nil => exact ⟨cs, rem, h, rfl⟩
  | cons s ss ih =>
    have step : ∀ (rem : Nat) (cs : List Nat), (fastName s (fnv p) (enc p) p.length fun h' e' n' =>
        fastMember (enc q) q.length h' e' n' rem fun rem => fastFamily (fnv p) (enc p) p.length ss 8236 2 cs rem k) = true →
        ∃ cs' rem', k (enc (nextSep q ((s :: ss).map (p ++ ·)))) (nextSep q ((s :: ss).map (p ++ ·))).length cs' rem' = true ∧
          Nat.digits 256 rem ++ cs.flatMap (Nat.digits 256) = joined q (membersOf ((s :: ss).map (p ++ ·))) ++
            (Nat.digits 256 rem' ++ cs'.flatMap (Nat.digits 256)) := by
      intro rem cs h
      rw [fastName_eq] at h
      obtain ⟨r, h1, h2⟩ := fastMember_sound hq (hs s List.mem_cons_self) h
      obtain ⟨cs', rem', h3, h4⟩ := ih (q := [44, 32]) (by decide) (fun s hm => hs s (List.mem_cons_of_mem _ hm)) h1
      have e : nextSep [44, 32] (ss.map (p ++ ·)) = nextSep q ((s :: ss).map (p ++ ·)) := by
        rw [nextSep, nextSep, List.map_cons, if_neg (List.cons_ne_nil _ _), ite_self]
      rw [e] at h3
      refine ⟨cs', rem', h3, ?_⟩
      have e' : membersOf ((s :: ss).map (p ++ ·)) = (dec 20 (fnv (p ++ s)) [], p ++ s) :: membersOf (ss.map (p ++ ·)) := rfl
      rw [e', joined, h2, List.append_assoc, h4]
      simp
    rw [fastFamily.eq_def] at h
    split at h
    · exact absurd ‹_ = []› (by simp)
    · rename_i heq
      cases heq
      split at h
      · have := step _ _ h
        simpa using this
      · exact step _ _ h

theorem fastFile_sound {fs : List (Str × List Str)} {q : Str} {cs : List Nat} {rem : Nat}
    (hq : ∀ c ∈ q, 0 < c ∧ c < 256) (hs : ∀ f ∈ fs, ∀ s ∈ f.2, (f.1 ++ s).all plainChar = true)
    (h : fastFile fs (enc q) q.length cs rem = true) :
    Nat.digits 256 rem ++ cs.flatMap (Nat.digits 256) =
      joined q (membersOf (fs.flatMap fun f => f.2.map (f.1 ++ ·))) ++ [125] := by
  induction fs generalizing q cs rem with
  | nil =>
    simp only [fastFile, Bool.and_eq_true, List.isEmpty_iff] at h
    have := Nat.eq_of_beq_eq_true h.2
    rw [h.1, this]
    simp [membersOf, joined]
  | cons f fs ih =>
    obtain ⟨p, ss⟩ := f
    rw [fastFile] at h
    have e := fastName_eq p [] (fun h e n => fastFamily h e n ss (enc q) q.length cs rem fun sep sl cs rem =>
      fastFile fs sep sl cs rem)
    rw [show fnv [] = 0xCBF29CE484222645 from rfl, show enc [] = 0 from rfl, show ([] : Str).length = 0 from rfl,
      List.nil_append] at e
    rw [e] at h
    obtain ⟨cs', rem', h1, h2⟩ := fastFamily_sound hq (hs (p, ss) List.mem_cons_self) h
    have h3 := ih (q := nextSep q (ss.map (p ++ ·))) (by
      intro c hc
      rw [nextSep] at hc
      split at hc
      · exact hq c hc
      · revert c; decide) (fun f hf => hs f (List.mem_cons_of_mem _ hf)) h1
    rw [h2, h3, List.flatMap_cons, joined_append]
    simp

/-- the members as items of a dict -/
def items (ps : List (Str × Str)) : List (Str × Json) := ps.map fun m => (m.1, .str m.2)

theorem joined_eq (ps : List (Str × Str)) (h : ps ≠ []) : joined [123] ps ++ [125] = JsonSpec.text (.obj (items ps)) := by
  have hm : ∀ m : Str × Str, JsonSpec.member (m.1, .str m.2) = member m := by
    intro m
    simp [JsonSpec.member, JsonSpec.quoted, JsonSpec.text, member]
  have : ∀ ps, joined [44, 32] ps = JsonSpec.moreMembers (items ps) := by
    intro ps
    induction ps with
    | nil => simp [joined, items, JsonSpec.moreMembers]
    | cons m ps ih =>
      have e : items (m :: ps) = (m.1, .str m.2) :: items ps := rfl
      rw [joined, ih, e, JsonSpec.moreMembers, hm]
      simp
  cases ps with
  | nil => exact absurd rfl h
  | cons m ps =>
    have e : items (m :: ps) = (m.1, .str m.2) :: items ps := rfl
    rw [joined, this, e, JsonSpec.text, JsonSpec.members, hm]
    simp

theorem loads_joined {ps : List (Str × Str)} (h0 : ps ≠ []) (h : ∀ m ∈ ps, m.1.all plainChar = true ∧ m.2.all plainChar = true)
    (hn : (ps.map (·.1)).Nodup) : loads (joined [123] ps ++ [125]) = hook ps := by
  have hp : JsonSpec.Plain (.obj (items ps)) := by
    rw [JsonSpec.Plain]
    refine ⟨?_, by simpa [items, List.map_map, Function.comp_def] using hn⟩
    clear h0 hn
    induction ps with
    | nil => rw [items, List.map_nil, JsonSpec.PlainItems]; trivial
    | cons m ps ih =>
      have e : items (m :: ps) = (m.1, .str m.2) :: items ps := rfl
      rw [e, JsonSpec.PlainItems, JsonSpec.PlainItem, JsonSpec.Plain]
      exact ⟨h m List.mem_cons_self, ih fun m hm => h m (List.mem_cons_of_mem _ hm)⟩
  have hs : strings (items ps) = some ps := by
    clear h0 h hn hp
    induction ps with
    | nil => rfl
    | cons m ps ih =>
      have e : items (m :: ps) = (m.1, .str m.2) :: items ps := rfl
      rw [strings] at ih ⊢
      rw [e, List.mapM_cons, ih]
      rfl
  rw [loads, joined_eq ps h0, Json.loads_text _ hp]
  simp only [hs, Option.bind_some]

/-! ### numbers that occur in a list -/

/-- bit `b` of a number -/
def bitOf (b x : Nat) : Bool := Nat.beq (Nat.land (Nat.shiftRight x b) 1) 1

/-- the numbers with bit `b` and those without, in front of `t` and `f` -/
def split {α : Type} (b : Nat) : List Nat → List Nat → List Nat → (List Nat → List Nat → α) → α
  | [], t, f, k => k t f
  | x :: l, t, f, k =>
    match bitOf b x with
    | true => split b l (x :: t) f k
    | false => split b l t (x :: f) k

theorem split_eq {α : Type} (b : Nat) (l t f : List Nat) (k : List Nat → List Nat → α) :
    split b l t f k = k ((l.filter (bitOf b)).reverse ++ t) ((l.filter fun x => !bitOf b x).reverse ++ f) := by
  induction l generalizing t f with
  | nil => rfl
  | cons x l ih =>
    rw [split]
    cases h : bitOf b x <;> simp [ih, h]

/-- the number of a tag behind the low 64 bits, `2 ^ 16` for tag 1, `2 ^ 32` for tag 2 and so on -/
def weight (t : Nat) : Nat := Nat.shiftLeft 1 (Nat.mul 16 (Nat.div t 18446744073709551616))

/-- the weights of the numbers with the given low bits, added -/
def hits (x : Nat) : List Nat → Nat → Nat
  | [], acc => acc
  | t :: ts, acc =>
    match Nat.beq (Nat.mod t 18446744073709551616) x with
    | true => force (Nat.add acc (weight t)) fun acc => hits x ts acc
    | false => hits x ts acc

/-- the weights of the numbers in `ts` whose low bits are in `ks`, added -/
def total (ks ts : List Nat) : Nat := ((ts.filter fun t => ks.contains (t % 18446744073709551616)).map weight).sum

/-- no number occurs twice in `ks`; passes on the total of `ts`. By splitting along the bits. -/
def joint : Nat → Nat → List Nat → List Nat → Nat → (Nat → Bool) → Bool
  | _, _, [], _, acc, k => k acc
  | _, _, [x], ts, acc, k => force (hits x ts acc) k
  | 0, _, _, _, _, _ => false
  | n + 1, b, ks, ts, acc, k => split b ks [] [] fun t f => split b ts [] [] fun tt tf =>
      joint n (Nat.succ b) t tt acc fun acc => joint n (Nat.succ b) f tf acc k

theorem hits_eq (x : Nat) (ts : List Nat) (acc : Nat) : hits x ts acc = acc + total [x] ts := by
  induction ts generalizing acc with
  | nil => rfl
  | cons t ts ih =>
    rw [hits]
    cases h : Nat.beq (Nat.mod t 18446744073709551616) x with
    | true =>
      have h : t % 18446744073709551616 = x := Nat.eq_of_beq_eq_true h
      simp only [force_eq, ih, total, List.filter_cons]
      simp only [h, List.contains_cons, BEq.rfl, Bool.true_or, if_true, List.map_cons, List.sum_cons]
      exact Nat.add_assoc _ _ _
    | false =>
      have h : ¬ t % 18446744073709551616 = x := Nat.ne_of_beq_eq_false h
      simp only [ih, total, List.filter_cons]
      simp [h]

theorem total_reverse (ks ts : List Nat) : total ks.reverse ts.reverse = total ks ts := by
  simp [total, List.filter_reverse]

theorem bitOf_mod {b : Nat} (hb : b < 64) (t : Nat) : bitOf b (t % 18446744073709551616) = bitOf b t := by
  have h : ∀ x, bitOf b x = x.testBit b := by
    intro x
    have e : bitOf b x = Nat.beq ((x >>> b) &&& 1) 1 := rfl
    rw [e, Nat.testBit, Nat.and_comm]
    have : 1 &&& x >>> b = 0 ∨ 1 &&& x >>> b = 1 := by
      rw [Nat.one_and_eq_mod_two]
      omega
    rcases this with h | h <;> rw [h] <;> rfl
  rw [h, h, show (18446744073709551616 : Nat) = 2 ^ 64 by norm_num, Nat.testBit_mod_two_pow]
  simp [hb]

theorem total_split {b : Nat} (hb : b < 64) (ks ts : List Nat) : total ks ts =
    total (ks.filter (bitOf b)) (ts.filter (bitOf b)) + total (ks.filter fun x => !bitOf b x) (ts.filter fun x => !bitOf b x) := by
  induction ts with
  | nil => rfl
  | cons t ts ih =>
    have e : ∀ (ks : List Nat) (t : Nat) (ts : List Nat), total ks (t :: ts) =
        (if ks.contains (t % 18446744073709551616) = true then weight t else 0) + total ks ts := by
      intro ks t ts
      rw [total, total, List.filter_cons]
      split <;> simp
    have hm := bitOf_mod hb t
    have h1 : bitOf b t = true → ((ks.filter (bitOf b)).contains (t % 18446744073709551616)) = ks.contains (t % 18446744073709551616) := by
      intro h
      rw [h] at hm
      rw [Bool.eq_iff_iff]
      simp [hm]
    have h2 : bitOf b t = false →
        ((ks.filter fun x => !bitOf b x).contains (t % 18446744073709551616)) = ks.contains (t % 18446744073709551616) := by
      intro h
      rw [h] at hm
      rw [Bool.eq_iff_iff]
      simp [hm]
    rw [e, ih, List.filter_cons, List.filter_cons]
    cases h : bitOf b t with
    | true =>
      simp only [if_true, Bool.not_true, Bool.false_eq_true, if_false]
      rw [e, h1 h, Nat.add_assoc]
    | false =>
      simp only [if_true, Bool.not_false, Bool.false_eq_true, if_false]
      rw [e, h2 h]
      omega

theorem joint_sound {n b : Nat} (hn : n + b ≤ 64) {ks ts : List Nat} {acc : Nat} {k : Nat → Bool} (h : joint n b ks ts acc k = true) :
    ks.Nodup ∧ k (acc + total ks ts) = true := by
  have one : ∀ (n b x : Nat) (ts : List Nat) (acc : Nat) (k : Nat → Bool), joint n b [x] ts acc k = true →
      [x].Nodup ∧ k (acc + total [x] ts) = true := by
    intro n b x ts acc k h
    rw [joint, force_eq, hits_eq] at h
    exact ⟨List.nodup_singleton x, h⟩
  have zero : ∀ (n b : Nat) (ts : List Nat) (acc : Nat) (k : Nat → Bool), joint n b [] ts acc k = true →
      ([] : List Nat).Nodup ∧ k (acc + total [] ts) = true := by
    intro n b ts acc k h
    rw [joint] at h
    refine ⟨List.nodup_nil, ?_⟩
    have : total [] ts = 0 := by simp [total]
    rw [this]
    exact h
  induction n generalizing b ks ts acc k with
  | zero =>
    match ks with
    | [] => exact zero _ _ _ _ _ h
    | [x] => exact one _ _ _ _ _ _ h
    | x :: y :: l => simp [joint] at h
  | succ n ih =>
    match ks with
    | [] => exact zero _ _ _ _ _ h
    | [x] => exact one _ _ _ _ _ _ h
    | x :: y :: l =>
      rw [joint, split_eq, split_eq] at h
      · simp only [List.append_nil] at h
        obtain ⟨h1, h2⟩ := ih (by omega) h
        obtain ⟨h2, h3⟩ := ih (by omega) h2
        generalize x :: y :: l = l at h1 h2 h3 ⊢
        rw [total_reverse, total_reverse, Nat.add_assoc, ← total_split (by omega)] at h3
        refine ⟨?_, h3⟩
        rw [List.nodup_reverse, List.nodup_iff_count_le_one] at h1 h2
        rw [List.nodup_iff_count_le_one]
        intro a
        by_cases ha : bitOf b a = true
        · have := h1 a
          rwa [List.count_filter ha] at this
        · have := h2 a
          rwa [List.count_filter (p := fun x => !bitOf b x) (by simpa using ha)] at this
      · simp
      · simp

theorem total_append (ks ts us : List Nat) : total ks (ts ++ us) = total ks ts + total ks us := by simp [total]

/-- the numbers with a tag -/
def tagged (tag : Nat) (l : List Nat) : List Nat := l.map fun x => Nat.add x (Nat.mul 18446744073709551616 tag)

theorem total_tagged (tag : Nat) {l : List Nat} (hl : l.all (fun x => Nat.blt x 18446744073709551616) = true) (ks : List Nat) :
    total ks (tagged tag l) = (l.filter fun x => decide (x ∈ ks)).length * 2 ^ (16 * tag) := by
  induction l with
  | nil => simp [tagged, total]
  | cons x l ih =>
    rw [List.all_cons, Bool.and_eq_true, Nat.blt_eq] at hl
    have e : tagged tag (x :: l) = [x + 18446744073709551616 * tag] ++ tagged tag l := rfl
    have hm : (x + 18446744073709551616 * tag) % 18446744073709551616 = x := by omega
    have hd : weight (x + 18446744073709551616 * tag) = 2 ^ (16 * tag) := by
      show 1 <<< (16 * ((x + 18446744073709551616 * tag) / 18446744073709551616)) = _
      rw [show (x + 18446744073709551616 * tag) / 18446744073709551616 = tag by omega, Nat.one_shiftLeft]
    rw [e, total_append, ih hl.2, List.filter_cons]
    by_cases h : x ∈ ks
    · simp [total, hm, h, hd]
      ring
    · simp [total, hm, h]

/-- the hashes of the names -/
def fastKeys : List (Str × List Str) → List Nat → (List Nat → Bool) → Bool
  | [], acc, k => k acc
  | (p, ss) :: fs, acc, k => fastName p 0xCBF29CE484222645 0 0 fun h e n => keys h e n ss acc fun acc => fastKeys fs acc k
where
  /-- the hashes of the names that continue one -/
  keys (h e n : Nat) : List Str → List Nat → (List Nat → Bool) → Bool
    | [], acc, k => k acc
    | s :: ss, acc, k => fastName s h e n fun h' _ _ => keys h e n ss (h' :: acc) k

theorem fastKeys_eq (fs : List (Str × List Str)) (acc : List Nat) (k : List Nat → Bool) :
    fastKeys fs acc k = k (((fs.flatMap fun f => f.2.map (f.1 ++ ·)).map fnv).reverse ++ acc) := by
  have hk : ∀ (p : Str) (ss : List Str) (acc : List Nat) (k : List Nat → Bool),
      fastKeys.keys (fnv p) (enc p) p.length ss acc k = k (((ss.map (p ++ ·)).map fnv).reverse ++ acc) := by
    intro p ss
    induction ss with
    | nil => intro acc k; rfl
    | cons s ss ih =>
      intro acc k
      rw [fastKeys.keys, fastName_eq, ih]
      simp
  induction fs generalizing acc with
  | nil => rfl
  | cons f fs ih =>
    obtain ⟨p, ss⟩ := f
    have e := fastName_eq p [] (fun h e n => fastKeys.keys h e n ss acc fun acc => fastKeys fs acc k)
    rw [show fnv [] = 0xCBF29CE484222645 from rfl, show enc [] = 0 from rfl, show ([] : Str).length = 0 from rfl,
      List.nil_append] at e
    rw [fastKeys, e, hk, ih]
    simp

end Verif.TableNames
