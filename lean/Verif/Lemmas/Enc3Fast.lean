import Verif.Lemmas.Enc3Json
/-
Comparing the bytes of the Gen 3 encounter files with the text of the entries, in a form the kernel evaluates quickly.
-/
namespace Verif.Enc3Json
open Json JsonSpec EncLoad3 Bytes Shipped3

/-! ### the bytes of a text -/

/-- bytes other than zero -/
def Byte (c : Nat) : Prop := 0 < c ∧ c < 256

theorem plain_bytes {s : Json.Str} (h : s.all plainChar = true) : ∀ c ∈ s, Byte c := by
  intro c hc
  have := List.all_eq_true.1 h c hc
  simp only [plainChar, Bool.and_eq_true, decide_eq_true_eq, bne_iff_ne] at this
  exact ⟨by omega, by omega⟩

theorem quoted_bytes {s : Json.Str} (h : s.all plainChar = true) : ∀ c ∈ quoted s, Byte c := by
  intro c hc
  simp only [quoted, List.mem_cons, List.mem_append, List.not_mem_nil, or_false] at hc
  rcases hc with rfl | hc | rfl
  · exact ⟨by omega, by omega⟩
  · exact plain_bytes h c hc
  · exact ⟨by omega, by omega⟩

theorem sep_bytes {s : Json.Str} (h : ∀ c ∈ s, Byte c) : ∀ c ∈ 44 :: 32 :: s, Byte c := by
  intro c hc
  simp only [List.mem_cons] at hc
  rcases hc with rfl | rfl | hc
  · exact ⟨by omega, by omega⟩
  · exact ⟨by omega, by omega⟩
  · exact h c hc

theorem append_bytes {s t : Json.Str} (hs : ∀ c ∈ s, Byte c) (ht : ∀ c ∈ t, Byte c) : ∀ c ∈ s ++ t, Byte c := by
  intro c hc
  rcases List.mem_append.1 hc with hc | hc
  · exact hs c hc
  · exact ht c hc

theorem nil_bytes : ∀ c ∈ ([] : Json.Str), Byte c := fun _ hc => absurd hc List.not_mem_nil

theorem lits_bytes {s : Json.Str} (h : s.all (fun c => 0 < c && c < 256) = true) : ∀ c ∈ s, Byte c := by
  intro c hc
  have := List.all_eq_true.1 h c hc
  simpa [Byte] using this

mutual
theorem text_bytes : (v : Json) → Plain v → ∀ c ∈ text v, Byte c
  | .null, _ => by rw [text]; exact lits_bytes rfl
  | .bool true, _ => by rw [text]; exact lits_bytes rfl
  | .bool false, _ => by rw [text]; exact lits_bytes rfl
  | .num n, _ => by
    intro c hc
    rw [text] at hc
    have := decimal_digits n c hc
    simp only [isDigit, Bool.and_eq_true, decide_eq_true_eq] at this
    exact ⟨by omega, by omega⟩
  | .str s, h => by rw [Plain] at h; rw [text]; exact quoted_bytes h
  | .arr l, h => by
    rw [Plain] at h
    rw [text]
    exact append_bytes (s := [91]) (lits_bytes rfl) (append_bytes (elements_bytes l h) (lits_bytes rfl))
  | .obj d, h => by
    rw [Plain] at h
    rw [text]
    exact append_bytes (s := [123]) (lits_bytes rfl) (append_bytes (members_bytes d h.1) (lits_bytes rfl))
theorem elements_bytes : (l : List Json) → PlainList l → ∀ c ∈ elements l, Byte c
  | [], _ => by rw [elements]; exact nil_bytes
  | v :: l, h => by
    rw [PlainList] at h
    rw [elements]
    exact append_bytes (text_bytes v h.1) (moreElements_bytes l h.2)
theorem moreElements_bytes : (l : List Json) → PlainList l → ∀ c ∈ moreElements l, Byte c
  | [], _ => by rw [moreElements]; exact nil_bytes
  | v :: l, h => by
    rw [PlainList] at h
    rw [moreElements]
    exact sep_bytes (append_bytes (text_bytes v h.1) (moreElements_bytes l h.2))
theorem members_bytes : (d : List (Json.Str × Json)) → PlainItems d → ∀ c ∈ members d, Byte c
  | [], _ => by rw [members]; exact nil_bytes
  | m :: d, h => by
    rw [PlainItems] at h
    rw [members]
    exact append_bytes (member_bytes m h.1) (moreMembers_bytes d h.2)
theorem moreMembers_bytes : (d : List (Json.Str × Json)) → PlainItems d → ∀ c ∈ moreMembers d, Byte c
  | [], _ => by rw [moreMembers]; exact nil_bytes
  | m :: d, h => by
    rw [PlainItems] at h
    rw [moreMembers]
    exact sep_bytes (append_bytes (member_bytes m h.1) (moreMembers_bytes d h.2))
theorem member_bytes : (m : Json.Str × Json) → PlainItem m → ∀ c ∈ member m, Byte c
  | (k, v), h => by
    rw [PlainItem] at h
    rw [member]
    exact append_bytes (quoted_bytes h.1) (append_bytes (s := [58, 32]) (lits_bytes rfl) (text_bytes v h.2))
end

theorem digits_enc {s : Json.Str} (h : ∀ c ∈ s, Byte c) : Nat.digits 256 (enc s) = s := by
  rw [enc_eq]
  exact Nat.digits_ofDigits 256 (by norm_num) s (fun c hc => (h c hc).2)
    fun hs => Nat.pos_iff_ne_zero.1 (h _ (List.getLast_mem hs)).1

/-! ### deciding whether a value needs no escapes -/

mutual
/-- see `Plain` -/
def plainB : Json → Bool
  | .str s => s.all plainChar
  | .arr l => plainListB l
  | .obj d => plainItemsB d && decide (d.map (·.1)).Nodup
  | _ => true
/-- see `PlainList` -/
def plainListB : List Json → Bool
  | [] => true
  | v :: l => plainB v && plainListB l
/-- see `PlainItems` -/
def plainItemsB : List (Json.Str × Json) → Bool
  | [] => true
  | m :: d => plainItemB m && plainItemsB d
/-- see `PlainItem` -/
def plainItemB : Json.Str × Json → Bool
  | (k, v) => k.all plainChar && plainB v
end

mutual
theorem plainB_sound : (v : Json) → plainB v = true → Plain v
  | .null, _ => by rw [Plain] <;> simp
  | .bool _, _ => by rw [Plain] <;> simp
  | .num _, _ => by rw [Plain] <;> simp
  | .str s, h => by rw [plainB] at h; rw [Plain]; exact h
  | .arr l, h => by rw [plainB] at h; rw [Plain]; exact plainListB_sound l h
  | .obj d, h => by
    rw [plainB, Bool.and_eq_true, decide_eq_true_eq] at h
    rw [Plain]
    exact ⟨plainItemsB_sound d h.1, h.2⟩
theorem plainListB_sound : (l : List Json) → plainListB l = true → PlainList l
  | [], _ => by rw [PlainList]; trivial
  | v :: l, h => by
    rw [plainListB, Bool.and_eq_true] at h
    rw [PlainList]
    exact ⟨plainB_sound v h.1, plainListB_sound l h.2⟩
theorem plainItemsB_sound : (d : List (Json.Str × Json)) → plainItemsB d = true → PlainItems d
  | [], _ => by rw [PlainItems]; trivial
  | m :: d, h => by
    rw [plainItemsB, Bool.and_eq_true] at h
    rw [PlainItems]
    exact ⟨plainItemB_sound m h.1, plainItemsB_sound d h.2⟩
theorem plainItemB_sound : (m : Json.Str × Json) → plainItemB m = true → PlainItem m
  | (k, v), h => by
    rw [plainItemB, Bool.and_eq_true] at h
    rw [PlainItem]
    exact ⟨h.1, plainB_sound v h.2⟩
end

/-! ### texts as numbers -/

/-- a computation passes on the number and the length of a text -/
def Gives (f : (Nat → Nat → Bool) → Bool) (s : Json.Str) : Prop := ∀ k, f k = k (enc s) s.length

/-- a constant text -/
def lit (c l : Nat) (k : Nat → Nat → Bool) : Bool := k c l

/-- one text behind the other -/
def app (f g : (Nat → Nat → Bool) → Bool) (k : Nat → Nat → Bool) : Bool :=
  f fun e n => g fun c l => force (Nat.add e (Nat.shiftLeft c (Nat.mul 8 n))) fun e => force (Nat.add n l) fun n => k e n

theorem gives_lit {s : Json.Str} {c l : Nat} (hc : enc s = c) (hl : s.length = l) : Gives (lit c l) s := by
  subst hc hl
  exact fun _ => rfl

theorem gives_nil : Gives (lit 0 0) [] := fun _ => rfl

theorem gives_app {f g : (Nat → Nat → Bool) → Bool} {s t : Json.Str} (hf : Gives f s) (hg : Gives g t) : Gives (app f g) (s ++ t) := by
  intro k
  rw [app, hf, hg, force_eq, force_eq, enc_append, List.length_append]
  rfl

/-- a number of at most 20 digits -/
def fDec (x : Nat) (k : Nat → Nat → Bool) : Bool := fastDec 20 x 0 0 k

theorem dec_eq (f x : Nat) (acc : Json.Str) (hf : 0 < f) (hx : x < 10 ^ f) : dec f x acc = decimal x ++ acc := by
  have hd : ∀ (f x : Nat) (acc : Json.Str), 0 < x → x < 10 ^ f → dec f x acc = (Nat.digits 10 x).reverse.map (48 + ·) ++ acc := by
    intro f
    induction f with
    | zero => intro x acc h1 h2; simp at h2; omega
    | succ f ih =>
      intro x acc h1 h2
      rw [dec]
      split
      · rename_i h
        rw [Nat.digits_of_lt 10 x (by omega) h]
        rfl
      · rw [ih (x / 10) _ (by omega) (by rw [pow_succ] at h2; omega), Nat.digits_def' (by norm_num) h1]
        simp
  rw [decimal]
  split
  · rename_i h
    subst h
    obtain ⟨g, rfl⟩ : ∃ g, f = g + 1 := ⟨f - 1, by omega⟩
    rfl
  · exact hd f x acc (by omega) hx

theorem gives_dec {x : Nat} (hx : x < 10 ^ 20) : Gives (fDec x) (decimal x) := by
  intro k
  have := fastDec_eq 20 x [] k
  rw [dec_eq 20 x [] (by omega) hx, List.append_nil] at this
  exact this

/-- a string of characters -/
def fChars : List Char → (Nat → Nat → Bool) → Bool
  | [], k => k 0 0
  | c :: s, k => force c.toNat fun c => fChars s fun e n => force (Nat.add c (Nat.mul 256 e)) fun e => force (Nat.succ n) fun n => k e n

theorem gives_chars (s : List Char) : Gives (fChars s) (codes s) := by
  induction s with
  | nil => intro k; rfl
  | cons c s ih =>
    intro k
    rw [fChars, force_eq, ih, force_eq, force_eq]
    rfl

/-- the name number `i` of the pool -/
def fName (i : Nat) (k : Nat → Nat → Bool) : Bool :=
  force (Nat.mod (Nat.shiftRight Data.poolPacked (Nat.mul 256 i))
    0x10000000000000000000000000000000000000000000000000000000000000000) fun x =>
    force (Nat.div x 256) fun e => force (Nat.mod x 256) fun n => k e n

/-- the names of the pool are packed in a number -/
def poolOk : List (List Char) → Nat → Bool
  | [], x => Nat.beq x 0
  | s :: l, x => (s.length < 32) && (codes s).all plainChar && fChars s (fun e n => Nat.beq (Nat.mod x (2 ^ 256)) (Nat.add n (Nat.mul 256 e))) &&
      force (Nat.shiftRight x 256) (poolOk l)

theorem poolOk_sound {l : List (List Char)} {x : Nat} (h : poolOk l x = true) (i : Nat) :
    (codes (l.getD i [])).all plainChar = true ∧ (l.getD i []).length < 32 ∧
      x >>> (256 * i) % 2 ^ 256 = (l.getD i []).length + 256 * enc (codes (l.getD i [])) := by
  induction l generalizing x i with
  | nil =>
    have := Nat.eq_of_beq_eq_true h
    subst this
    simp [codes, enc]
  | cons s l ih =>
    rw [poolOk, gives_chars s, force_eq, Bool.and_eq_true, Bool.and_eq_true, Bool.and_eq_true, decide_eq_true_eq] at h
    obtain ⟨⟨⟨h1, h2⟩, h3⟩, h4⟩ := h
    have h3 := Nat.eq_of_beq_eq_true h3
    cases i with
    | zero =>
      refine ⟨h2, h1, ?_⟩
      have : Nat.mod x (2 ^ 256) = x % 2 ^ 256 := rfl
      rw [this] at h3
      rw [Nat.mul_zero, Nat.shiftRight_zero, h3]
      simp only [codes, List.length_map, List.getD_cons_zero]
      rfl
    | succ i =>
      have := ih h4 i
      rw [List.getD_cons_succ]
      refine ⟨this.1, this.2.1, ?_⟩
      rw [← this.2.2]
      show _ = x >>> 256 >>> (256 * i) % _
      rw [← Nat.shiftRight_add, Nat.mul_add, Nat.mul_one, Nat.add_comm]

theorem gives_name (h : poolOk Data.speciesPool Data.poolPacked = true) (i : Nat) :
    Gives (fName i) (codes (Data.speciesPool.getD i [])) := by
  intro k
  obtain ⟨-, h1, h2⟩ := poolOk_sound h i
  have e : Nat.mod (Nat.shiftRight Data.poolPacked (Nat.mul 256 i))
      0x10000000000000000000000000000000000000000000000000000000000000000 = Data.poolPacked >>> (256 * i) % 2 ^ 256 := by
    rw [show (2 : Nat) ^ 256 = 0x10000000000000000000000000000000000000000000000000000000000000000 by norm_num]
    rfl
  rw [fName, force_eq, e, h2, force_eq, force_eq]
  have e1 : Nat.div ((Data.speciesPool.getD i []).length + 256 * enc (codes (Data.speciesPool.getD i []))) 256 =
      enc (codes (Data.speciesPool.getD i [])) := by
    show (_ + 256 * _) / 256 = _
    omega
  have e2 : Nat.mod ((Data.speciesPool.getD i []).length + 256 * enc (codes (Data.speciesPool.getD i []))) 256 =
      (codes (Data.speciesPool.getD i [])).length := by
    show (_ + 256 * _) % 256 = _
    rw [codes, List.length_map]
    omega
  rw [e1, e2]

/-! ### entries -/

/-- a mon -/
def fMon (w : Nat) : (Nat → Nat → Bool) → Bool :=
  app (lit 653642994276146268150780130042491 14) (app (fDec (Nat.mod (Nat.div w 16777216) 256))
    (app (lit 167332606534693444646610674047393836 15) (app (fDec (Nat.mod (Nat.div w 65536) 256))
      (app (lit 692155219503603618834962110881836 14) (app (fName (Nat.mod w 65536)) (lit 32034 2))))))

theorem gives_mon (h : poolOk Data.speciesPool Data.poolPacked = true) (w : Nat) : Gives (fMon w) (text (monJson w)) := by
  have e : text (monJson w) = n!"{\"min_level\": " ++ (decimal (w / 2 ^ 24 % 2 ^ 8) ++ (n!", \"max_level\": " ++
      (decimal (w / 2 ^ 16 % 2 ^ 8) ++ (n!", \"species\": \"" ++ (codes (Data.speciesPool.getD (w % 2 ^ 16) []) ++ n!"\"}"))))) := by
    simp [monJson, text, members, moreMembers, member, quoted]
  have hm : ∀ {x : Nat}, Nat.mod x 256 < 10 ^ 20 := fun {x} => by
    show x % 256 < _
    omega
  rw [e]
  exact gives_app (gives_lit rfl rfl) (gives_app (gives_dec hm) (gives_app (gives_lit rfl rfl) (gives_app (gives_dec hm)
    (gives_app (gives_lit rfl rfl) (gives_app (gives_name h _) (gives_lit rfl rfl))))))

/-- a mon of a packed list -/
def fWord (mons n : Nat) (k : Nat → Nat → Bool) : Bool :=
  force (Nat.mod (Nat.shiftRight mons (Nat.mul 32 n)) 4294967296) fun w => fMon w k

theorem gives_word (h : poolOk Data.speciesPool Data.poolPacked = true) (mons n : Nat) :
    Gives (fWord mons n) (text (monJson (mons / 2 ^ (32 * n) % 2 ^ 32))) := by
  intro k
  rw [fWord, force_eq, ← Nat.shiftRight_eq_div_pow]
  exact gives_mon h _ k

/-- mons behind `, ` -/
def fMore (mons n : Nat) : (Nat → Nat → Bool) → Bool :=
  Nat.rec (lit 0 0) (fun n more => app (lit 8236 2) (app (fWord mons n) more)) n

theorem gives_more (h : poolOk Data.speciesPool Data.poolPacked = true) (mons n : Nat) :
    Gives (fMore mons n) (moreElements ((wordsOf mons n).map monJson)) := by
  induction n with
  | zero => rw [wordsOf, List.map_nil, moreElements]; exact gives_nil
  | succ n ih =>
    have e : fMore mons (n + 1) = app (lit 8236 2) (app (fWord mons n) (fMore mons n)) := rfl
    rw [wordsOf, List.map_cons, moreElements, e]
    have hw := gives_word h mons n
    generalize monJson (mons / 2 ^ (32 * n) % 2 ^ 32) = v at hw ⊢
    generalize moreElements ((wordsOf mons n).map monJson) = t at ih ⊢
    exact gives_app (s := [44, 32]) (gives_lit rfl rfl) (gives_app hw ih)

/-- the mons -/
def fMons (mons n : Nat) : (Nat → Nat → Bool) → Bool := Nat.rec (lit 0 0) (fun n _ => app (fWord mons n) (fMore mons n)) n

theorem gives_mons (h : poolOk Data.speciesPool Data.poolPacked = true) (mons n : Nat) :
    Gives (fMons mons n) (elements ((wordsOf mons n).map monJson)) := by
  cases n with
  | zero => rw [wordsOf, List.map_nil, elements]; exact gives_nil
  | succ n =>
    have e : fMons mons (n + 1) = app (fWord mons n) (fMore mons n) := rfl
    rw [wordsOf, List.map_cons, elements, e]
    exact gives_app (gives_word h _ _) (gives_more h _ _)

/-- a list -/
def fList (b : Bool) (p : Data.Packed) : (Nat → Nat → Bool) → Bool :=
  match b with
  | true => app (lit 430329834789017981100667 10) (app (fMons p.mons p.count)
      (app (lit 47099940922576588760049353703589699986439444376669 21) (app (fDec p.rate) (lit 125 1))))
  | false => app (lit 718688063393807811890401515252528381140738683 19) (app (fDec p.rate)
      (app (lit 110164437705988603161747500 11) (app (fMons p.mons p.count) (lit 32093 2))))

theorem gives_list (h : poolOk Data.speciesPool Data.poolPacked = true) (b : Bool) (p : Data.Packed) (hp : p.rate < 256) :
    Gives (fList b p) (text (listJson b p)) := by
  cases b with
  | true =>
    have e : text (listJson true p) = n!"{\"mons\": [" ++ (elements ((wordsOf p.mons p.count).map monJson) ++
        (n!"], \"encounter_rate\": " ++ (decimal p.rate ++ n!"}"))) := by
      simp [listJson, text, members, moreMembers, member, quoted]
    rw [e]
    exact gives_app (gives_lit rfl rfl) (gives_app (gives_mons h _ _) (gives_app (gives_lit rfl rfl) (gives_app (gives_dec (by omega)) (gives_lit rfl rfl))))
  | false =>
    have e : text (listJson false p) = n!"{\"encounter_rate\": " ++ (decimal p.rate ++ (n!", \"mons\": [" ++
        (elements ((wordsOf p.mons p.count).map monJson) ++ n!"]}"))) := by
      simp [listJson, text, members, moreMembers, member, quoted]
    rw [e]
    exact gives_app (gives_lit rfl rfl) (gives_app (gives_dec (by omega)) (gives_app (gives_lit rfl rfl) (gives_app (gives_mons h _ _) (gives_lit rfl rfl))))

/-- a list that may be missing, behind `, ` and its key -/
def fKind (c l : Nat) (b : Bool) : Option Data.Packed → (Nat → Nat → Bool) → Bool
  | none => lit 0 0
  | some p => app (lit c l) (fList b p)

theorem moreMembers_append (d d' : List (Json.Str × Json)) : moreMembers (d ++ d') = moreMembers d ++ moreMembers d' := by
  induction d with
  | nil => rw [moreMembers]; rfl
  | cons m d ih => rw [List.cons_append, moreMembers, moreMembers, ih]; simp

theorem gives_kind (h : poolOk Data.speciesPool Data.poolPacked = true) {key : Json.Str} {c l : Nat}
    (hc : enc (44 :: 32 :: (quoted key ++ [58, 32])) = c) (hl : (44 :: 32 :: (quoted key ++ [58, 32])).length = l) (b : Bool)
    (p : Option Data.Packed) (hp : p.all (·.rate < 256) = true) : Gives (fKind c l b p) (moreMembers (kindJson key b p)) := by
  subst hc hl
  cases p with
  | none => rw [kindJson, moreMembers]; exact gives_nil
  | some p =>
    have e : moreMembers (kindJson key b (some p)) = (44 :: 32 :: (quoted key ++ [58, 32])) ++ text (listJson b p) := by
      simp [kindJson, moreMembers, member]
    rw [e]
    exact gives_app (gives_lit rfl rfl) (gives_list h b p (by simpa using hp))

/-- an entry -/
def fEntry (b : Bool) (r : Data.Raw) : (Nat → Nat → Bool) → Bool :=
  app (lit 629511504930053890683 9) (app (fChars r.map) (app (lit 2972784031381699861037671790819932951817250 18)
    (app (fChars r.label) (app (lit 34 1) (app (fKind 167332608711935935845777977110569004 15 b r.land)
      (app (fKind 42837147830255599577525456026948739116 16 b r.water)
        (app (fKind 47099942140125480832835900314270428147968578297900 21 b r.rock)
          (app (fKind 2807375320203630973860927484899908345012268 18 b r.fish) (lit 125 1)))))))))

/-- strings without escapes and rates of at most two hexadecimal digits -/
def cleanRaw (r : Data.Raw) : Bool := (codes r.map).all plainChar && (codes r.label).all plainChar && r.land.all (·.rate < 256) &&
  r.water.all (·.rate < 256) && r.rock.all (·.rate < 256) && r.fish.all (·.rate < 256)

theorem gives_entry (h : poolOk Data.speciesPool Data.poolPacked = true) (b : Bool) (r : Data.Raw) (hr : cleanRaw r = true) :
    Gives (fEntry b r) (text (entryJson b r)) := by
  simp only [cleanRaw, Bool.and_eq_true] at hr
  obtain ⟨⟨⟨⟨-, h1⟩, h2⟩, h3⟩, h4⟩ := hr
  have e : text (entryJson b r) = n!"{\"map\": \"" ++ (codes r.map ++ (n!"\", \"base_label\": \"" ++ (codes r.label ++ (n!"\"" ++
      (moreMembers (kindJson n!"land_mons" b r.land) ++ (moreMembers (kindJson n!"water_mons" b r.water) ++
        (moreMembers (kindJson n!"rock_smash_mons" b r.rock) ++ (moreMembers (kindJson n!"fishing_mons" b r.fish) ++ n!"}")))))))) := by
    simp only [entryJson, text, members, moreMembers, moreMembers_append, member, quoted]
    simp
  rw [e]
  have g1 := gives_kind h (key := n!"land_mons") (c := 167332608711935935845777977110569004) (l := 15) rfl rfl b r.land h1
  have g2 := gives_kind h (key := n!"water_mons") (c := 42837147830255599577525456026948739116) (l := 16) rfl rfl b r.water h2
  have g3 := gives_kind h (key := n!"rock_smash_mons") (c := 47099942140125480832835900314270428147968578297900) (l := 21) rfl rfl b
    r.rock h3
  have g4 := gives_kind h (key := n!"fishing_mons") (c := 2807375320203630973860927484899908345012268) (l := 18) rfl rfl b r.fish h4
  exact gives_app (gives_lit rfl rfl) (gives_app (gives_chars _) (gives_app (gives_lit rfl rfl) (gives_app (gives_chars _)
    (gives_app (gives_lit rfl rfl) (gives_app g1 (gives_app g2 (gives_app g3 (gives_app g4 (gives_lit rfl rfl)))))))))

/-! ### files -/

/-- the pieces are the entries behind `, ` and the end of the file -/
def moreSame (tail : Nat) : List (Bool × Data.Raw) → List Nat → Bool
  | [], [c] => Nat.beq c tail
  | x :: l, c :: cs => cleanRaw x.2 && app (lit 8236 2) (fEntry x.1 x.2) (fun e _ => Nat.beq c e) && moreSame tail l cs
  | _, _ => false

/-- the pieces are the start of the file, the entries and the end of the file -/
def same (head tail : Nat) : List (Bool × Data.Raw) → List Nat → Bool
  | x :: l, h :: c :: cs => Nat.beq h head && cleanRaw x.2 && fEntry x.1 x.2 (fun e _ => Nat.beq c e) && moreSame tail l cs
  | _, _ => false

/-- the text in front of the entries -/
def headText : Json.Str := n!"{\"wild_encounter_groups\": [{\"label\": \"gWildMonHeaders\", \"for_maps\": true, \"fields\": " ++
  (text Data.fields ++ n!", \"encounters\": [")

/-- the text behind the entries -/
def tailText (rest : List Json) : Json.Str := n!"]}" ++ (moreElements rest ++ n!"]}")

theorem text_fileJson (entries rest : List Json) : text (fileJson entries rest) = headText ++ (elements entries ++ tailText rest) := by
  simp [fileJson, text, elements, members, moreMembers, member, quoted, headText, tailText]

theorem plain_words (h : poolOk Data.speciesPool Data.poolPacked = true) (mons n : Nat) :
    PlainList ((wordsOf mons n).map monJson) := by
  induction n with
  | zero => rw [wordsOf, List.map_nil, PlainList]; trivial
  | succ n ih =>
    rw [wordsOf, List.map_cons, PlainList]
    refine ⟨?_, ih⟩
    simp only [monJson, Plain, PlainItems, PlainItem]
    have := (poolOk_sound h (mons / 2 ^ (32 * n) % 2 ^ 32 % 2 ^ 16)).1
    exact ⟨⟨⟨rfl, trivial⟩, ⟨rfl, trivial⟩, ⟨rfl, this⟩, trivial⟩, by simp⟩

theorem plain_list (h : poolOk Data.speciesPool Data.poolPacked = true) (b : Bool) (p : Data.Packed) : Plain (listJson b p) := by
  have := plain_words h p.mons p.count
  cases b with
  | true =>
    simp only [listJson, Plain, PlainItems, PlainItem]
    exact ⟨⟨⟨rfl, this⟩, ⟨rfl, trivial⟩, trivial⟩, by simp⟩
  | false =>
    simp only [listJson, Plain, PlainItems, PlainItem]
    exact ⟨⟨⟨rfl, trivial⟩, ⟨rfl, this⟩, trivial⟩, by simp⟩

theorem plain_append (d d' : List (Json.Str × Json)) (h : PlainItems d) (h' : PlainItems d') : PlainItems (d ++ d') := by
  induction d with
  | nil => exact h'
  | cons m d ih =>
    rw [PlainItems] at h
    rw [List.cons_append, PlainItems]
    exact ⟨h.1, ih h.2⟩

theorem plain_kind (h : poolOk Data.speciesPool Data.poolPacked = true) {key : Json.Str} (hk : key.all plainChar = true) (b : Bool)
    (p : Option Data.Packed) : PlainItems (kindJson key b p) := by
  cases p with
  | none => rw [kindJson, PlainItems]; trivial
  | some p =>
    simp only [kindJson, PlainItems, PlainItem]
    exact ⟨⟨hk, plain_list h b p⟩, trivial⟩

theorem plain_entry (h : poolOk Data.speciesPool Data.poolPacked = true) (b : Bool) (r : Data.Raw) (hr : cleanRaw r = true) :
    Plain (entryJson b r) := by
  simp only [cleanRaw, Bool.and_eq_true] at hr
  obtain ⟨⟨⟨⟨⟨h1, h2⟩, -⟩, -⟩, -⟩, -⟩ := hr
  rw [entryJson, Plain]
  refine ⟨?_, ?_⟩
  · simp only [PlainItems, PlainItem, Plain]
    exact ⟨⟨rfl, h1⟩, ⟨rfl, h2⟩, plain_append _ _ (plain_kind h rfl b _) (plain_append _ _ (plain_kind h rfl b _)
      (plain_append _ _ (plain_kind h rfl b _) (plain_kind h rfl b _)))⟩
  · obtain ⟨map, label, land, water, rock, fish⟩ := r
    cases land <;> cases water <;> cases rock <;> cases fish <;> simp [kindJson]

theorem moreSame_sound (h : poolOk Data.speciesPool Data.poolPacked = true) {rest : List Json} (hr : PlainList rest)
    {l : List (Bool × Data.Raw)} {cs : List Nat} (hs : moreSame (enc (tailText rest)) l cs = true) :
    cs.flatMap (Nat.digits 256) = moreElements (l.map fun x => entryJson x.1 x.2) ++ tailText rest ∧
      PlainList (l.map fun x => entryJson x.1 x.2) := by
  induction l generalizing cs with
  | nil =>
    match cs with
    | [c] =>
      have := Nat.eq_of_beq_eq_true hs
      subst this
      rw [List.map_nil, moreElements, PlainList]
      have hb : ∀ c ∈ tailText rest, Byte c := append_bytes (lits_bytes rfl) (append_bytes (moreElements_bytes _ hr) (lits_bytes rfl))
      simp [digits_enc hb]
    | [] => simp [moreSame] at hs
    | _ :: _ :: _ => simp [moreSame] at hs
  | cons x l ih =>
    match cs with
    | [] => simp [moreSame] at hs
    | c :: cs =>
      rw [moreSame, Bool.and_eq_true, Bool.and_eq_true] at hs
      obtain ⟨⟨h1, h2⟩, h3⟩ := hs
      have hg := gives_app (s := [44, 32]) (gives_lit rfl rfl) (gives_entry h x.1 x.2 h1)
      have h2' : app (lit (enc [44, 32]) 2) (fEntry x.1 x.2) (fun e _ => Nat.beq c e) = true := h2
      rw [show (2 : Nat) = ([44, 32] : Json.Str).length from rfl, hg] at h2'
      have := Nat.eq_of_beq_eq_true h2'
      obtain ⟨i1, i2⟩ := ih h3
      have hp := plain_entry h x.1 x.2 h1
      rw [List.flatMap_cons, i1, this, digits_enc (append_bytes (lits_bytes rfl) (text_bytes _ hp)), List.map_cons, moreElements, PlainList]
      exact ⟨by simp, hp, i2⟩

theorem same_sound (h : poolOk Data.speciesPool Data.poolPacked = true) {rest : List Json} (hr : PlainList rest) (hf : Plain Data.fields)
    {l : List (Bool × Data.Raw)} {cs : List Nat} (hs : same (enc headText) (enc (tailText rest)) l cs = true) :
    cs.flatMap (Nat.digits 256) = text (fileJson (l.map fun x => entryJson x.1 x.2) rest) ∧
      Plain (fileJson (l.map fun x => entryJson x.1 x.2) rest) := by
  match l, cs with
  | x :: l, c0 :: c :: cs =>
    rw [same, Bool.and_eq_true, Bool.and_eq_true, Bool.and_eq_true] at hs
    obtain ⟨⟨⟨h0, h1⟩, h2⟩, h3⟩ := hs
    have h0 := Nat.eq_of_beq_eq_true h0
    rw [gives_entry h x.1 x.2 h1] at h2
    have h2 := Nat.eq_of_beq_eq_true h2
    obtain ⟨i1, i2⟩ := moreSame_sound h hr h3
    have hp := plain_entry h x.1 x.2 h1
    have hb : ∀ c ∈ headText, Byte c := append_bytes (lits_bytes rfl) (append_bytes (text_bytes _ hf) (lits_bytes rfl))
    refine ⟨?_, ?_⟩
    · rw [text_fileJson, List.flatMap_cons, List.flatMap_cons, i1, h0, h2, digits_enc hb, digits_enc (text_bytes _ hp), List.map_cons,
        elements]
      simp
    · simp only [fileJson, Plain, PlainItems, PlainItem, PlainList, List.map_cons]
      exact ⟨⟨⟨rfl, ⟨⟨⟨rfl, rfl⟩, ⟨rfl, trivial⟩, ⟨rfl, hf⟩, ⟨rfl, hp, i2⟩, trivial⟩, by decide⟩, hr⟩, trivial⟩, by decide⟩
  | [], _ => simp [same] at hs
  | _ :: _, [] => simp [same] at hs
  | _ :: _, [_] => simp [same] at hs

end Verif.Enc3Json
