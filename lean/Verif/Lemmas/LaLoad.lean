import Verif.Lemmas.LaFast
/-
`load_encounter_tables_la` from files given as numbers, evaluated by the kernel, and the proof that this is what the model
returns.
-/
namespace Verif.LaFast
open FlatBuffer FlatBufferSpec ShippedLa EncLoadLa

/-! ### the evaluator -/

/-- the elements with their keys (species and form in one number), which must increase -/
def keyed {α : Type} (sp : α → Option Int) (fm : α → Int) : Nat → List α → Option (List (Nat × α))
  | _, [] => some []
  | b, x :: xs =>
    match sp x, fm x with
    | some (.ofNat s), .ofNat f =>
      match Nat.blt f 1024, Nat.ble b (Nat.add (Nat.mul s 1024) f) with
      | true, true =>
        force (Nat.add (Nat.mul s 1024) f) fun k =>
          match keyed sp fm (Nat.succ k) xs with
          | some ys => some ((k, x) :: ys)
          | none => none
      | _, _ => none
    | _, _ => none

def find {α : Type} (k : Nat) : List (Nat × α) → Option α
  | [] => none
  | (j, x) :: xs =>
    match Nat.beq j k with
    | true => some x
    | false => find k xs

/-- the list in blocks of 32 with the largest key of each -/
def blocks {α : Type} : Nat → List (Nat × α) → List (Nat × α) → Option (List (Nat × List (Nat × α)))
  | _, [], [] => some []
  | _, x :: acc, [] => some [(x.1, x :: acc)]
  | 0, acc, x :: l =>
    match blocks 31 [] l with
    | some bs => some ((x.1, x :: acc) :: bs)
    | none => none
  | c + 1, acc, x :: l => blocks c (x :: acc) l

def findB {α : Type} (k : Nat) : List (Nat × List (Nat × α)) → Option α
  | [] => none
  | (j, b) :: bs =>
    match Nat.blt j k with
    | true => findB k bs
    | false => find k b

/-- `bake` on forced arguments -/
def fbake : Int → Int → BitVec 32
  | .ofNat x, .ofNat y => force x fun x => force y fun y => bake (.ofNat x) (.ofNat y)
  | x, y => bake x y

def boost (kmi : List (Nat × List (Nat × PokeMisc8a))) (alpha : Bool) (k : Nat) : Option Nat :=
  match alpha with
  | false => some 0
  | true =>
    match findB k kmi with
    | some m =>
      match alphaBoost m.alphaLevelIndex with
      | .ok b => some b
      | .error _ => none
    | none => none

def form0 : Option Int → Int
  | none => 0
  | some f => f

def fslot (kms : List (Nat × List (Nat × EncounterMultiplier8a))) (kmi : List (Nat × List (Nat × PokeMisc8a))) (t : EncounterTable8a)
    (s : EncounterSlot8a) : Option SlotLA :=
  match s.species, form0 s.form with
  | some (.ofNat sp), .ofNat f =>
    force (Nat.add (Nat.mul sp 1024) f) fun k =>
    match Nat.blt f 1024, findB k kms, boost kmi s.isAlpha k,
      overrideLevel s.overrideMinLevel t.minLevel, overrideLevel s.overrideMaxLevel t.maxLevel, s.baseProbability,
      s.eligibility with
    | true, some m, some b, some lo, some hi, some bp, some e =>
      some ⟨BitVec.ofInt 16 (.ofNat sp), BitVec.ofInt 8 s.gender, BitVec.ofInt 8 (.ofNat f), BitVec.ofInt 8 lo + BitVec.ofNat 8 b,
        BitVec.ofInt 8 hi + BitVec.ofNat 8 b, BitVec.ofInt 8 (s.guaranteedIvs.getD 0), BitVec.ofInt 32 bp,
        BitVec.ofInt 8 (if s.isAlpha then 1 else 0), List.zipWith fbake e.timeMultipliers m.timeMultipliers,
        List.zipWith fbake e.weatherMultipliers m.weatherMultipliers⟩
    | _, _, _, _, _, _, _ => none
  | _, _ => none

def fslots (kms : List (Nat × List (Nat × EncounterMultiplier8a))) (kmi : List (Nat × List (Nat × PokeMisc8a))) (t : EncounterTable8a) :
    List EncounterSlot8a → Option (List SlotLA)
  | [] => some []
  | s :: ss =>
    match fslot kms kmi t s with
    | none => none
    | some x =>
      match fslots kms kmi t ss with
      | none => none
      | some xs => some (x :: xs)

def ftables (kms : List (Nat × List (Nat × EncounterMultiplier8a))) (kmi : List (Nat × List (Nat × PokeMisc8a))) :
    List EncounterTable8a → Option (List (BitVec 64 × List SlotLA))
  | [] => some []
  | t :: ts =>
    match t.tableId, fslots kms kmi t t.slots with
    | some id, some slots =>
      match ftables kms kmi ts with
      | none => none
      | some rest => some ((BitVec.ofInt 64 id, slots) :: rest)
    | _, _ => none

/-- what is loaded from an encounter file -/
def load (N len : Nat) : Option (List (BitVec 64 × List SlotLA)) :=
  match root (multiplier Data.pokeEncount 19684) Data.pokeEncount 19684, root (misc Data.pokeMisc 40368) Data.pokeMisc 40368 with
  | some ms, some mi =>
    match keyed (·.species) (·.form) 0 ms, keyed (·.species) (·.form) 0 mi, root (table N len) N len with
    | some kms, some kmi, some ts =>
      match blocks 31 [] kms, blocks 31 [] kmi with
      | some kms, some kmi => ftables kms kmi ts
      | _, _ => none
    | _, _, _ => none
  | _, _ => none

/-! ### soundness -/

theorem keyed_find {α : Type} (sp : α → Option Int) (fm : α → Int) {b : Nat} {l : List α} {kl : List (Nat × α)}
    (h : keyed sp fm b l = some kl) :
    (∀ x ∈ l, ∃ s f : Nat, sp x = some (s : Int) ∧ fm x = (f : Int) ∧ f < 1024 ∧ b ≤ s * 1024 + f) ∧
      ∀ (s f : Nat) (x : α), f < 1024 → (s * 1024 + f, x) ∈ kl →
        LastWith (fun x => (sp x, fm x)) (some (s : Int), (f : Int)) l x := by
  induction l generalizing b kl with
  | nil =>
    cases h
    refine ⟨fun x hx => by simp at hx, fun s f x _ h => by simp at h⟩
  | cons y l ih =>
    unfold keyed at h
    split at h
    · rename_i s f hs hf
      split at h
      · rename_i hb1 hb2
        have hb1 : f < 1024 := Nat.blt_eq.mp hb1
        have hb2 : b ≤ s * 1024 + f := Nat.le_of_ble_eq_true hb2
        rw [force_eq] at h
        split at h
        · rename_i ys hys
          cases h
          obtain ⟨i1, i2⟩ := ih hys
          refine ⟨?_, ?_⟩
          · intro x hx
            rcases List.mem_cons.mp hx with rfl | hx
            · exact ⟨s, f, hs, hf, hb1, hb2⟩
            · obtain ⟨s', f', h1, h2, h3, h4⟩ := i1 x hx
              have h4 : s * 1024 + f + 1 ≤ s' * 1024 + f' := h4
              exact ⟨s', f', h1, h2, h3, hb2.trans ((Nat.le_succ _).trans h4)⟩
          · intro s' f' x hf' hfind
            rcases List.mem_cons.mp hfind with hbeq | hfind
            · simp only [Nat.add_eq, Nat.mul_eq, Prod.mk.injEq] at hbeq
              obtain ⟨hbeq, rfl⟩ := hbeq
              obtain ⟨rfl, rfl⟩ : s = s' ∧ f = f' := by omega
              refine ⟨[], l, rfl, by simp only [hs, hf, Int.ofNat_eq_natCast], fun z hz heq => ?_⟩
              obtain ⟨s', f', h1, h2, h3, h4⟩ := i1 z hz
              have h4 : s * 1024 + f + 1 ≤ s' * 1024 + f' := h4
              simp only [h1, h2, Prod.mk.injEq, Option.some.injEq] at heq
              omega
            · obtain ⟨pre, post, h1, h2, h3⟩ := i2 s' f' x hf' hfind
              exact ⟨y :: pre, post, by rw [h1]; rfl, h2, h3⟩
        · cases h
      · cases h
    · cases h

theorem find_mem {α : Type} {k : Nat} {l : List (Nat × α)} {x : α} (h : find k l = some x) : (k, x) ∈ l := by
  induction l with
  | nil => cases h
  | cons y l ih =>
    unfold find at h
    split at h
    · rename_i hb
      cases h
      rw [← Nat.eq_of_beq_eq_true hb]
      exact List.mem_cons_self
    · exact List.mem_cons_of_mem _ (ih h)

theorem findB_mem {α : Type} {k : Nat} {bs : List (Nat × List (Nat × α))} {x : α} (h : findB k bs = some x) :
    ∃ b ∈ bs, (k, x) ∈ b.2 := by
  induction bs with
  | nil => cases h
  | cons b bs ih =>
    unfold findB at h
    split at h
    · obtain ⟨b', hb, hm⟩ := ih h
      exact ⟨b', List.mem_cons_of_mem _ hb, hm⟩
    · exact ⟨_, List.mem_cons_self, find_mem h⟩

theorem blocks_mem {α : Type} {c : Nat} {acc l : List (Nat × α)} {bs : List (Nat × List (Nat × α))}
    (h : blocks c acc l = some bs) : ∀ b ∈ bs, ∀ y ∈ b.2, y ∈ acc ∨ y ∈ l := by
  induction l generalizing c acc bs with
  | nil =>
    cases acc with
    | nil => unfold blocks at h; cases h; simp
    | cons x acc => unfold blocks at h; cases h; simp
  | cons x l ih =>
    cases c with
    | zero =>
      have h : (match blocks 31 [] l with
        | some bs => some ((x.1, x :: acc) :: bs)
        | none => none) = some bs := by rw [← h]; cases acc <;> rw [blocks]
      split at h
      · rename_i bs' hbs
        cases h
        intro b hb y hy
        rcases List.mem_cons.mp hb with rfl | hb
        · rcases List.mem_cons.mp hy with rfl | hy
          · exact .inr List.mem_cons_self
          · exact .inl hy
        · rcases ih hbs b hb y hy with h' | h'
          · simp at h'
          · exact .inr (List.mem_cons_of_mem _ h')
      · cases h
    | succ c =>
      have h : blocks c (x :: acc) l = some bs := by rw [← h]; cases acc <;> rw [blocks]
      intro b hb y hy
      rcases ih h b hb y hy with h' | h'
      · rcases List.mem_cons.mp h' with rfl | h'
        · exact .inr List.mem_cons_self
        · exact .inl h'
      · exact .inr (List.mem_cons_of_mem _ h')

theorem fbake_eq : fbake = bake := by
  funext x y
  unfold fbake
  split
  · rw [force_eq, force_eq]
  · rfl

/-- the blocks hold elements of the list, under their keys -/
def BlocksOf {α : Type} (sp : α → Option Int) (fm : α → Int) (l : List α) (bs : List (Nat × List (Nat × α))) : Prop :=
  ∀ (s f : Nat) (x : α), f < 1024 → findB (s * 1024 + f) bs = some x →
    LastWith (fun x => (sp x, fm x)) (some (s : Int), (f : Int)) l x

theorem blocksOf {α : Type} (sp : α → Option Int) (fm : α → Int) {b c : Nat} {l : List α} {kl : List (Nat × α)}
    {bs : List (Nat × List (Nat × α))} (h : keyed sp fm b l = some kl) (hb : blocks c [] kl = some bs) :
    BlocksOf sp fm l bs := by
  intro s f x hf hx
  obtain ⟨b, hm, hx⟩ := findB_mem hx
  rcases blocks_mem hb b hm _ hx with h' | h'
  · simp at h'
  · exact (keyed_find sp fm h).2 s f x hf h'

theorem form0_eq (f : Option Int) : form0 f = f.getD 0 := by cases f <;> rfl

theorem fslot_sound {ms : List EncounterMultiplier8a} {mi : List PokeMisc8a} {kms : List (Nat × List (Nat × EncounterMultiplier8a))}
    {kmi : List (Nat × List (Nat × PokeMisc8a))} (h1 : BlocksOf (·.species) (·.form) ms kms)
    (h2 : BlocksOf (·.species) (·.form) mi kmi) {t : EncounterTable8a} {s : EncounterSlot8a} {out : SlotLA}
    (h : fslot kms kmi t s = some out) : loadSlot ms mi t s = .ok out := by
  unfold fslot at h
  split at h
  · rename_i sp f hsp hf
    rw [force_eq] at h
    split at h
    · rename_i m bo lo hi bp e hb hm hbo hlo hhi hbp he
      cases h
      rw [fbake_eq]
      have hb : f < 1024 := Nat.blt_eq.mp hb
      rw [form0_eq] at hf
      have hm' := (lookupLast_iff _ _ _ _).mpr (h1 sp f m hb hm)
      have hboost : slotBoost mi s = .ok bo := by
        unfold boost at hbo
        unfold slotBoost
        split at hbo
        · rename_i ha
          cases hbo
          rw [ha]; rfl
        · rename_i ha
          rw [ha]
          split at hbo
          · rename_i mm hmm
            split at hbo
            · rename_i bb hbb
              cases hbo
              have := (lookupLast_iff _ _ _ _).mpr (h2 sp f mm hb hmm)
              rw [hsp, hf]
              simp only [if_true]
              show (getItem (lookupLast (fun m => (m.species, m.form)) (some (sp : Int), (f : Int)) mi) >>= _) = _
              rw [this]
              exact hbb
            · cases hbo
          · cases hbo
      unfold loadSlot
      rw [hboost, hsp, hf, hlo, hhi, hbp]
      unfold slotEligibility
      rw [he]
      show (store 16 _ >>= fun _ => _) = _
      simp only [store, bind, Except.bind, pure, Except.pure]
      have hm'' : lookupLast (fun m : EncounterMultiplier8a => (m.species, m.form)) (some (Int.ofNat sp), Int.ofNat f) ms = some m := hm'
      rw [hm'']
      rfl
    · cases h
  · cases h

theorem fslots_sound {ms : List EncounterMultiplier8a} {mi : List PokeMisc8a} {kms : List (Nat × List (Nat × EncounterMultiplier8a))}
    {kmi : List (Nat × List (Nat × PokeMisc8a))} (h1 : BlocksOf (·.species) (·.form) ms kms)
    (h2 : BlocksOf (·.species) (·.form) mi kmi) {t : EncounterTable8a} {ss : List EncounterSlot8a} {out : List SlotLA}
    (h : fslots kms kmi t ss = some out) : loadSlots ms mi t ss = .ok out := by
  induction ss generalizing out with
  | nil => cases h; rfl
  | cons s ss ih =>
    unfold fslots at h
    split at h
    · cases h
    · rename_i x hx
      split at h
      · cases h
      · rename_i xs hxs
        cases h
        unfold loadSlots
        rw [fslot_sound h1 h2 hx, ih hxs]
        rfl

theorem ftables_sound {ms : List EncounterMultiplier8a} {mi : List PokeMisc8a} {kms : List (Nat × List (Nat × EncounterMultiplier8a))}
    {kmi : List (Nat × List (Nat × PokeMisc8a))} (h1 : BlocksOf (·.species) (·.form) ms kms)
    (h2 : BlocksOf (·.species) (·.form) mi kmi) {ts : List EncounterTable8a} {out : List (BitVec 64 × List SlotLA)}
    (h : ftables kms kmi ts = some out) : loadTables ms mi ts = .ok out := by
  induction ts generalizing out with
  | nil => cases h; rfl
  | cons t ts ih =>
    unfold ftables at h
    split at h
    · rename_i id slots hid hslots
      split at h
      · cases h
      · rename_i rest hrest
        cases h
        unfold loadTables
        rw [hid, fslots_sound h1 h2 hslots, ih hrest]
        rfl
    · cases h

theorem load_sound {N len : Nat} (hl : len ≤ 4294967296) {out : List (BitVec 64 × List SlotLA)} (h : load N len = some out) :
    loadEncounterTablesLa pokeEncountFile pokeMiscFile (bytesOf len N) = .ok out := by
  unfold load at h
  split at h
  · rename_i ms mi hms hmi
    split at h
    · rename_i kms kmi ts h1 h2 hts
      split at h
      swap
      · cases h
      rename_i kms' kmi' b1 b2
      unfold loadEncounterTablesLa pokeEncountFile pokeMiscFile
      rw [root_multipliers (by omega) hms, root_misc (by omega) hmi, root_tables hl hts]
      exact ftables_sound (blocksOf _ _ h1 b1) (blocksOf _ _ h2 b2) h
    · cases h
  · cases h

end Verif.LaFast
