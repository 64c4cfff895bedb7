import Verif.Lemmas.JsonGrammar
import Verif.Props.Shipped3
/-
C114: JSON texts, and the Gen 3 encounter files of the library. C115: the two games that share a file.
-/
namespace Verif.Enc3Json
open JsonSpec EncLoad3 Gen3 Shipped3

/-- **C114**, texts: `json.loads` of the text `json.dumps` writes for a value is this value, whatever the nesting, for every
value without characters that need an escape, negative numbers and floats. -/
theorem C114_dumps (v : Json.Json) (h : Plain v) : Json.loads (text v) = some v := Json.loads_text v h

/-- a value with a dict in a list in a dict -/
def sample : Json.Json := .obj [(n!"mons", .arr [.obj [(n!"min_level", .num 105), (n!"x", .null)], .bool true, .arr []])]

example : Plain sample ∧ text sample = n!"{\"mons\": [{\"min_level\": 105, \"x\": null}, true, []]}" :=
  ⟨plainB_sound _ (by decide), by simp [sample, text, members, moreMembers, member, elements, moreElements, quoted, decimal]⟩

/-- **C114**, reader: `json.loads` succeeds exactly on the texts of the grammar (any white space between the tokens, any nesting),
and gives the value of the grammar. A repeated key of an object keeps its place and gets the last value. -/
theorem C114_grammar (t : Json.Str) (v : Json.Json) : Json.loads t = some v ↔ Document t v := Json.loads_iff t v

/-- a text with white space and a repeated key -/
example : Document n!" {\"a\" :\t1 , \"b\":[ ],\n\"a\": 2}" (.obj [(n!"a", .num 2), (n!"b", .arr [])]) := by
  rw [← C114_grammar]
  simp [Json.loads, Json.scanValue, Json.scanMembers, Json.skipWs, Json.scanString, Json.scanNumber, Json.numberOf, Json.isDigit,
    Json.ofDecimal, Json.dictOf, Json.setItem]

/-- a comma behind the last element, and a number with a zero in front -/
example : (∀ v, ¬ Document n!"[1,]" v) ∧ ∀ v, ¬ Document n!"01" v := by
  refine ⟨fun v h => ?_, fun v h => ?_⟩ <;> rw [← C114_grammar] at h <;> revert h <;>
  simp [Json.loads, Json.scanValue, Json.scanElements, Json.skipWs, Json.scanNumber, Json.numberOf, Json.isDigit]

/-- the games and the number of entries of their file -/
def files : List (BitVec 32 × Nat) :=
  [(Game.ruby, 194), (Game.sapphire, 194), (Game.emerald, 124), (Game.fireRed, 264), (Game.leafGreen, 264)]

/-- a list of `n` mons with a rate and levels that fit in a byte, and species that are known -/
def Full (n : Nat) (l : Option MonList) : Prop := ∀ x, l = some x → x.mons.length = n ∧ 0 < x.encounterRate ∧ x.encounterRate < 256 ∧
  ∀ m ∈ x.mons, 1 ≤ m.minLevel ∧ m.minLevel ≤ m.maxLevel ∧ m.maxLevel ≤ 100 ∧ m.species ∈ Text.constantCaseSpeciesEn

private theorem full_of {n : Nat} {l : Option Data.Packed} (h : l.all (okPacked n) = true) : Full n (l.map unpack) := by
  intro x hx
  cases l with
  | none => cases hx
  | some p =>
    cases hx
    have h' : okPacked n p = true := h
    obtain ⟨h1, h2, h3, h4⟩ := okPacked_word h'
    refine ⟨by simpa [unpack] using h1, h2, h3, fun m hm => ?_⟩
    have hk := (packed_fits h).2 _ rfl m hm
    simp only [unpack, List.mem_map, List.mem_range] at hm
    obtain ⟨i, hi, rfl⟩ := hm
    have hw := h4 i (by omega)
    simp only [okWord, Bool.and_eq_true, decide_eq_true_eq] at hw
    exact ⟨hw.1.1.1, hw.1.1.2, hw.1.2, hk⟩

/-- **C114**, files: each of the three files is byte by byte the text of a value, so `json.load` gives this value. It has the
stated number of entries; every list of an entry has the length of the array it is copied to (12, 5, 5 and 10 slots), a rate
that is not zero and fits in a byte, levels from 1 to 100 in the right order, and names of species the library knows. -/
theorem C114_files (game : BitVec 32) (n : Nat) (h : (game, n) ∈ files) : ∃ bytes v es, dataText game = .ok bytes ∧
    bytes = text v ∧ Json.loads bytes = some v ∧ encounters v = .ok es ∧ es.length = n ∧
    ∀ e ∈ es, Full 12 e.landMons ∧ Full 5 e.waterMons ∧ Full 5 e.rockSmashMons ∧ Full 10 e.fishingMons := by
  obtain ⟨cs, hc⟩ : ∃ cs, dataChunks game = .ok cs := by
    simp only [files, List.mem_cons, Prod.mk.injEq, List.not_mem_nil, or_false] at h
    rcases h with ⟨rfl, -⟩ | ⟨rfl, -⟩ | ⟨rfl, -⟩ | ⟨rfl, -⟩ | ⟨rfl, -⟩ <;> exact ⟨_, rfl⟩
  obtain ⟨⟨v, hp, hv⟩, he⟩ := reads hc
  have hl := Json.loads_text v hp
  have ht : dataText game = .ok (cs.flatMap (Nat.digits 256)) := by rw [dataText, hc]; rfl
  rw [hv] at ht he
  refine ⟨text v, v, _, ht, rfl, hl, by rw [← he, decode, hl], ?_, ?_⟩
  · rw [List.length_map]
    have : ∀ x ∈ files, (dataFile x.1).length = x.2 := by decide +kernel
    exact this _ h
  · intro e hm
    obtain ⟨r, hr, rfl⟩ := List.mem_map.1 hm
    have := file_ok game r hr
    simp only [okRaw, Bool.and_eq_true] at this
    exact ⟨full_of this.1.1.1.1, full_of this.1.1.1.2, full_of this.1.1.2, full_of this.1.2⟩

/-- the hypothesis holds for Emerald -/
example : (Game.emerald, 124) ∈ files := by decide

/-! ### two games in one file -/

/-- the games that share a file, and the parts of the labels that mark their areas -/
def sisters : List ((BitVec 32 × BitVec 32) × String × String) :=
  [((Game.ruby, Game.sapphire), "Ruby", "Sapphire"), ((Game.fireRed, Game.leafGreen), "FireRed", "LeafGreen")]

private def sameKinds (a b : Data.Raw) : Bool := decide (a.map = b.map) && (isSkipped a.label == isSkipped b.label) &&
  (a.land.isSome == b.land.isSome) && (a.water.isSome == b.water.isSome) && (a.rock.isSome == b.rock.isSome) &&
  (a.fish.isSome == b.fish.isSome)

private def zipAll : List Data.Raw → List Data.Raw → Bool
  | [], [] => true
  | a :: l, b :: m => sameKinds a b && zipAll l m
  | _, _ => false

private theorem zipAll_get {l m : List Data.Raw} (h : zipAll l m = true) : l.length = m.length ∧
    ∀ (k : Nat) (a b : Data.Raw), l[k]? = some a → m[k]? = some b → sameKinds a b = true := by
  induction l generalizing m with
  | nil =>
    cases m with
    | nil => simp
    | cons b m => simp [zipAll] at h
  | cons a l ih =>
    cases m with
    | nil => simp [zipAll] at h
    | cons b m =>
      rw [zipAll, Bool.and_eq_true] at h
      obtain ⟨i1, i2⟩ := ih h.2
      refine ⟨by simp [i1], fun k => ?_⟩
      cases k with
      | zero => rintro a b ha hb; cases ha; cases hb; exact h.1
      | succ k => intro a' b' ha hb; exact i2 k a' b' (by simpa using ha) (by simpa using hb)

private theorem zip_ok : ∀ x ∈ sisters, zipAll (entries x.1.1) (entries x.1.2) = true := by decide +kernel

private theorem part_ok : ∀ x ∈ sisters, dataFile x.1.1 = dataFile x.1.2 ∧
    ((dataFile x.1.1).all fun r => contains x.2.1.toList r.label != contains x.2.2.toList r.label) = true := by
  intro x hx
  simp only [sisters, List.mem_cons, List.not_mem_nil, or_false] at hx
  rcases hx with rfl | rfl
  · exact ⟨rfl, by decide +kernel⟩
  · exact ⟨rfl, by decide +kernel⟩

/-- **C115**, entries: Ruby and Sapphire, and FireRed and LeafGreen, read the same file, and every entry of it belongs to
exactly one of the two games. -/
theorem C115_parts (a b : BitVec 32) (p q : String) (h : ((a, b), p, q) ∈ sisters) : dataText a = dataText b ∧
    gameLabel a = some p.toList ∧ gameLabel b = some q.toList ∧
    ∀ bytes es, dataText a = .ok bytes → decode bytes = .ok es → ∀ e ∈ es,
      (p.toList <:+: e.baseLabel ∨ q.toList <:+: e.baseLabel) ∧ ¬ (p.toList <:+: e.baseLabel ∧ q.toList <:+: e.baseLabel) := by
  have hp := (part_ok _ h).2
  refine ⟨?_, ?_, ?_, ?_⟩
  · simp only [sisters, List.mem_cons, Prod.mk.injEq, List.not_mem_nil, or_false] at h
    rcases h with ⟨⟨rfl, rfl⟩, -, -⟩ | ⟨⟨rfl, rfl⟩, -, -⟩ <;> rfl
  · simp only [sisters, List.mem_cons, Prod.mk.injEq, List.not_mem_nil, or_false] at h
    rcases h with ⟨⟨rfl, rfl⟩, rfl, -⟩ | ⟨⟨rfl, rfl⟩, rfl, -⟩ <;> rfl
  · simp only [sisters, List.mem_cons, Prod.mk.injEq, List.not_mem_nil, or_false] at h
    rcases h with ⟨⟨rfl, rfl⟩, -, rfl⟩ | ⟨⟨rfl, rfl⟩, -, rfl⟩ <;> rfl
  · intro bytes es h1 h2 e he
    cases hc : dataChunks a with
    | error x => rw [dataText, hc] at h1; cases h1
    | ok cs =>
      rw [dataText, hc] at h1
      cases h1
      rw [(reads hc).entries] at h2
      cases h2
      obtain ⟨r, hr, rfl⟩ := List.mem_map.1 he
      have := List.all_eq_true.1 hp r hr
      rw [bne_iff_ne] at this
      rw [← contains_iff, ← contains_iff]
      show (contains p.toList r.label = true ∨ contains q.toList r.label = true) ∧
        ¬ (contains p.toList r.label = true ∧ contains q.toList r.label = true)
      revert this
      cases contains p.toList r.label <;> cases contains q.toList r.label <;> simp

private theorem rate_zero {n : Nat} {l m : Option Data.Packed} (hl : l.all (okPacked n) = true) (hm : m.all (okPacked n) = true)
    (h : l.isSome = m.isSome) : rateOf (l.map unpack) = 0 ↔ rateOf (m.map unpack) = 0 := by
  have key : ∀ p : Data.Packed, okPacked n p = true → rateOf ((some p).map unpack) ≠ 0 := by
    intro p hp h0
    obtain ⟨-, h2, h3, -⟩ := okPacked_word hp
    have := congrArg BitVec.toNat h0
    simp only [rateOf, Option.map_some, Option.getD_some, unpack, BitVec.toNat_ofNat] at this
    rw [Nat.mod_eq_of_lt (by omega)] at this
    simp at this
    omega
  cases l with
  | none =>
    cases m with
    | none => rfl
    | some q => cases h
  | some p =>
    cases m with
    | none => cases h
    | some q => exact iff_of_false (key p hl) (key q hm)

/-- **C115**, areas: the two games of a file have the same names in the same places, so a location number means the same map
in both; and the places have the same kinds of encounters in both. -/
theorem C115_sisters (a b : BitVec 32) (p q : String) (h : ((a, b), p, q) ∈ sisters) :
    ∃ names areas areas', load a = .ok (names, areas) ∧ load b = .ok (names, areas') ∧ areas.length = areas'.length ∧
      ∀ (k : Nat) (x y : EncounterArea3), areas[k]? = some x → areas'[k]? = some y → x.location = y.location ∧
        (x.landRate = 0 ↔ y.landRate = 0) ∧ (x.waterRate = 0 ↔ y.waterRate = 0) ∧ (x.rockRate = 0 ↔ y.rockRate = 0) ∧
        (x.fishRate = 0 ↔ y.fishRate = 0) := by
  obtain ⟨n, ha, hb⟩ : ∃ n, (a, n) ∈ games ∧ (b, n) ∈ games := by
    simp only [sisters, List.mem_cons, Prod.mk.injEq, List.not_mem_nil, or_false] at h
    rcases h with ⟨⟨rfl, rfl⟩, -, -⟩ | ⟨⟨rfl, rfl⟩, -, -⟩
    · exact ⟨97, by decide, by decide⟩
    · exact ⟨132, by decide, by decide⟩
  obtain ⟨⟨⟨names, areas⟩, la⟩, -⟩ := load_total a n ha
  obtain ⟨⟨⟨names', areas'⟩, lb⟩, -⟩ := load_total b n hb
  obtain ⟨a1, a2, a3⟩ := load_place a names areas la
  obtain ⟨b1, b2, b3⟩ := load_place b names' areas' lb
  obtain ⟨z1, z2⟩ := zipAll_get (zip_ok _ h)
  have hn : names = names' := by
    apply List.ext_getElem?
    intro k
    by_cases hk : k < (entries a).length
    · have ea := List.getElem?_eq_getElem hk
      have eb := List.getElem?_eq_getElem (l := entries b) (i := k) (by simp only at z1; omega)
      obtain ⟨na, xa, c1, -, -, c4, c5⟩ := a3 k _ ea
      obtain ⟨nb, xb, d1, -, -, d4, d5⟩ := b3 k _ eb
      have hs := z2 k _ _ ea eb
      simp only [sameKinds, Bool.and_eq_true, decide_eq_true_eq, beq_iff_eq] at hs
      obtain ⟨⟨⟨⟨⟨s1, s2⟩, -⟩, -⟩, -⟩, -⟩ := hs
      rw [Bool.eq_iff_iff, isSkipped_iff, isSkipped_iff] at s2
      rw [c1, d1, Option.some.injEq]
      by_cases hsk : Skip (entries a)[k].label
      · rw [(c4 hsk).1, (d4 (s2.1 hsk)).1]
      · rw [(c5 hsk).1, (d5 fun h => hsk (s2.2 h)).1, s1]
    · rw [List.getElem?_eq_none (by omega), List.getElem?_eq_none (by simp only at z1; omega)]
  subst hn
  refine ⟨names, areas, areas', la, lb, by simp only at z1; omega, fun k x y hx hy => ?_⟩
  have hk : k < (entries a).length := by
    obtain ⟨hk, -⟩ := List.getElem?_eq_some_iff.1 hx
    omega
  have ea := List.getElem?_eq_getElem hk
  have eb := List.getElem?_eq_getElem (l := entries b) (i := k) (by simp only at z1; omega)
  obtain ⟨na, xa, -, c2, c3, c4, c5⟩ := a3 k _ ea
  obtain ⟨nb, xb, -, d2, d3, d4, d5⟩ := b3 k _ eb
  rw [hx] at c2
  cases c2
  rw [hy] at d2
  cases d2
  have hs := z2 k _ _ ea eb
  simp only [sameKinds, Bool.and_eq_true, decide_eq_true_eq, beq_iff_eq] at hs
  obtain ⟨⟨⟨⟨⟨-, s2⟩, s3⟩, s4⟩, s5⟩, s6⟩ := hs
  rw [Bool.eq_iff_iff, isSkipped_iff, isSkipped_iff] at s2
  by_cases hsk : Skip (entries a)[k].label
  · rw [(c4 hsk).2, (d4 (s2.1 hsk)).2]
    exact ⟨rfl, .rfl, .rfl, .rfl, .rfl⟩
  · have fa := (c5 hsk).2
    have fb := (d5 fun h => hsk (s2.2 h)).2
    simp only [okRaw, Bool.and_eq_true] at c3 d3
    rw [fa.location, fb.location, fa.landRate, fb.landRate, fa.waterRate, fb.waterRate, fa.rockRate, fb.rockRate, fa.fishRate, fb.fishRate]
    exact ⟨rfl, rate_zero c3.1.1.1.1 d3.1.1.1.1 s3, rate_zero c3.1.1.1.2 d3.1.1.1.2 s4, rate_zero c3.1.1.2 d3.1.1.2 s5,
      rate_zero c3.1.2 d3.1.2 s6⟩

/-- the hypothesis holds for Ruby and Sapphire -/
example : ((Game.ruby, Game.sapphire), "Ruby", "Sapphire") ∈ sisters := List.mem_cons_self

end Verif.Enc3Json
