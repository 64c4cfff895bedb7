import Verif.Props.Shipped3Maps
/-
C97: the Unown of the Tanoby chambers.
-/
namespace Verif.Shipped3
open EncLoad3 Gen3 Spec.Gen3

/-- the letter of slot `i` of chamber `k` -/
def letterAt (k i : Nat) : Option Char := (chambers[k]?.bind fun c => c.2[i]?)

theorem forms_ok : ∀ k < 7, ∀ i < 12, ∀ c ∈ chambers[k]?, alphabet[formOf c.1 i]? = letterAt k i := by decide +kernel

/-- the four lists of an entry -/
def allWords (r : Data.Raw) : List Nat := wordsOf r.land ++ wordsOf r.water ++ wordsOf r.rock ++ wordsOf r.fish

/-- The first seven entries are the chambers, with twelve Unown; there are no Unown elsewhere. -/
def chambersFirst (rs : List Data.Raw) : Bool :=
  rs.zipIdx.all fun x =>
    if x.2 < 7 then
      some x.1.map == (chambers[x.2]?.map Prod.fst) && !isSkipped x.1.label && (x.1.land.map Data.Packed.count) == some 12 &&
        (wordsOf x.1.land).all (fun w => dexOf w == 201) &&
        (wordsOf x.1.water ++ wordsOf x.1.rock ++ wordsOf x.1.fish).all (fun w => dexOf w != 201)
    else (allWords x.1).all fun w => dexOf w != 201

/-- no Unown -/
def noUnown (rs : List Data.Raw) : Bool := rs.all fun r => (allWords r).all fun w => dexOf w != 201

theorem fireRed_chambers : chambersFirst (entriesOf Game.fireRed) = true := by decide +kernel
theorem leafGreen_chambers : chambersFirst (entriesOf Game.leafGreen) = true := by decide +kernel
theorem ruby_noUnown : noUnown (entriesOf Game.ruby) = true := by decide +kernel
theorem sapphire_noUnown : noUnown (entriesOf Game.sapphire) = true := by decide +kernel
theorem emerald_noUnown : noUnown (entriesOf Game.emerald) = true := by decide +kernel

/-- FireRed or LeafGreen -/
def isKanto (game : BitVec 32) : Prop := game = Game.fireRed ∨ game = Game.leafGreen

theorem kanto_games {game : BitVec 32} (hg : isKanto game) : (game, 132) ∈ games := by
  rcases hg with rfl | rfl <;> decide

theorem kanto_entry {game : BitVec 32} (hg : isKanto game) {k : Nat} {r : Data.Raw} (he : (entries game)[k]? = some r) :
    if k < 7 then some r.map = chambers[k]?.map Prod.fst ∧ isSkipped r.label = false ∧
        (∃ p, r.land = some p ∧ p.count = 12) ∧ (∀ w ∈ wordsOf r.land, dexOf w = 201) ∧
        (∀ w ∈ wordsOf r.water ++ wordsOf r.rock ++ wordsOf r.fish, dexOf w ≠ 201)
      else ∀ w ∈ allWords r, dexOf w ≠ 201 := by
  rw [entries_eq game 132 (kanto_games hg)] at he
  have h : chambersFirst (entriesOf game) = true := by
    rcases hg with rfl | rfl
    · exact fireRed_chambers
    · exact leafGreen_chambers
  have := List.all_eq_true.mp h (r, k) (List.mem_zipIdx_iff_getElem?.mpr he)
  dsimp only at this
  split
  · rename_i hk
    rw [if_pos hk] at this
    simp only [Bool.and_eq_true, beq_iff_eq, List.all_eq_true, bne_iff_ne, Bool.not_eq_true'] at this
    obtain ⟨⟨⟨⟨h1, h2⟩, h3⟩, h4⟩, h5⟩ := this
    obtain ⟨p, hp, hc⟩ := Option.map_eq_some_iff.mp h3
    exact ⟨h1, h2, ⟨p, hp, hc⟩, h4, h5⟩
  · rename_i hk
    rw [if_neg hk] at this
    simpa only [List.all_eq_true, bne_iff_ne] using this

/-- the land slots of a place, with forms -/
theorem place_land_form {game : BitVec 32} {k : Nat} {r : Data.Raw} {area : EncounterArea3} (h : Place game k r area)
    (hsk : isSkipped r.label = false) (p : Data.Packed) (hl : r.land = some p) (i : Nat) (hi : i < 12) :
    area.land[i].species.toNat = dexOf (word p i) + 2048 * formOf r.map i := by
  obtain ⟨h1, names, areas, h2, h3⟩ := h
  obtain ⟨j1, j2, j3⟩ := load_place game names areas h2
  obtain ⟨name, area', e1, e2, e3, e4, e5⟩ := j3 k r h1
  rw [h3, Option.some.injEq] at e2
  subst e2
  have ha := (e5 (fun hx => by rw [(isSkipped_iff _).mpr hx] at hsk; cases hsk)).2
  simp only [okRaw, Bool.and_eq_true] at e3
  exact ((entry_holds r.land 12 i _ e3.1.1.1.1 hi (Nat.lt_trans (formOf_lt _ _).1 (by omega)) area.land[i] (ha.land i hi)).2 p hl).species

/-- **C97**: in FireRed and LeafGreen the first seven areas are the Tanoby chambers; each of their twelve land slots is an Unown
(201), and its form is the number of the letter of the games. -/
theorem C97_letters (game : BitVec 32) (hg : isKanto game) (k : Nat) (hk : k < 7) (r : Data.Raw) (area : EncounterArea3)
    (hp : Place game k r area) : some r.map = chambers[k]?.map Prod.fst ∧ ∀ (i : Nat) (_ : i < 12),
      area.land[i].species.toNat % 2048 = 201 ∧
        ∃ letter, letterAt k i = some letter ∧ alphabet[area.land[i].species.toNat / 2048]? = some letter := by
  have he := kanto_entry hg hp.entry
  rw [if_pos hk] at he
  obtain ⟨h1, h2, ⟨p, h3, h4⟩, h5, -⟩ := he
  refine ⟨h1, fun i hi => ?_⟩
  have hs := place_land_form hp h2 p h3 i hi
  have hd : dexOf (word p i) = 201 := by
    apply h5
    rw [h3]
    simp only [wordsOf, List.mem_map, List.mem_range]
    exact ⟨i, by omega, rfl⟩
  rw [hd] at hs
  obtain ⟨c, hc⟩ : ∃ c, chambers[k]? = some c :=
    ⟨chambers[k]'(by rw [show chambers.length = 7 from rfl]; exact hk), List.getElem?_eq_getElem _⟩
  rw [hc, Option.map_some, Option.some.injEq] at h1
  have hf := forms_ok k hk i hi c hc
  rw [← h1] at hf
  have hl : (alphabet[formOf r.map i]?).isSome := by
    rw [List.getElem?_eq_getElem (by rw [show alphabet.length = 28 from rfl]; exact (formOf_lt _ _).1)]
    rfl
  obtain ⟨letter, hl⟩ := Option.isSome_iff_exists.mp hl
  have e : area.land[i].species.toNat / 2048 = formOf r.map i := by omega
  exact ⟨by omega, letter, by rw [← hf, hl], by rw [e, hl]⟩

/-- **C97**: there are no Unown elsewhere. -/
theorem C97_elsewhere (game : BitVec 32) (n : Nat) (h : (game, n) ∈ games) (k : Nat) (r : Data.Raw) (area : EncounterArea3)
    (hp : Place game k r area) (encounter : BitVec 8) (hne : ¬ (isKanto game ∧ k < 7 ∧ isLand encounter))
    (s : Slot3) (hs : s ∈ slotList area encounter) : s.species.toNat % 2048 ≠ 201 := by
  rcases slotFrom_word ((place_slots hp).1 encounter s hs) with ⟨rfl, -⟩ | ⟨w, hw, hd⟩
  · decide
  rw [hd]
  have hw := wordsOf_source r encounter w hw
  have hall : w ∈ allWords r := by
    unfold allWords
    by_cases hl : isLand encounter
    · rw [listOf_land r encounter hl] at hw
      simp only [List.mem_append]; exact .inl (.inl (.inl hw))
    · have := listOf_other r encounter hl
      simp only [List.mem_cons, List.not_mem_nil, or_false] at this
      simp only [List.mem_append]
      rcases this with h | h | h <;> rw [h] at hw
      · exact .inl (.inl (.inr hw))
      · exact .inl (.inr hw)
      · exact .inr hw
  by_cases hg : isKanto game
  · have he := kanto_entry hg hp.entry
    by_cases hk : k < 7
    · rw [if_pos hk] at he
      apply he.2.2.2.2
      have hl : ¬ isLand encounter := fun hl => hne ⟨hg, hk, hl⟩
      have := listOf_other r encounter hl
      simp only [List.mem_cons, List.not_mem_nil, or_false] at this
      simp only [List.mem_append]
      rcases this with h | h | h <;> rw [h] at hw
      · exact .inl (.inl hw)
      · exact .inl (.inr hw)
      · exact .inr hw
    · rw [if_neg hk] at he
      exact he w hall
  · have hno : noUnown (entriesOf game) = true := by
      rcases mem_games h with rfl | rfl | rfl | rfl | rfl
      · exact ruby_noUnown
      · exact sapphire_noUnown
      · exact emerald_noUnown
      · exact absurd (.inl rfl) hg
      · exact absurd (.inr rfl) hg
    have hr : r ∈ entriesOf game := by
      rw [← entries_eq game n h]; exact List.mem_of_getElem? hp.entry
    have := List.all_eq_true.mp (List.all_eq_true.mp hno r hr) w hall
    simpa only [bne_iff_ne] using this

/-- every letter occurs in exactly one chamber -/
theorem letter_chamber : ∀ f < 28, ∃ k < 7, ∀ k' < 7, ((∃ i < 12, letterAt k' i = alphabet[f]?) ↔ k' = k) := by
  decide +kernel

theorem alphabet_nodup : alphabet.Nodup := by decide +kernel

/-- **C97**: in FireRed and LeafGreen each of the 28 forms of Unown is in exactly one area. -/
theorem C97_every_letter (game : BitVec 32) (hg : isKanto game) (form : Nat) (hf : form < 28) :
    ∃ k < 7, ∀ k' r area, Place game k' r area →
      ((∃ encounter, ∃ s ∈ slotList area encounter, s.species.toNat % 2048 = 201 ∧ s.species.toNat / 2048 = form) ↔ k' = k) := by
  obtain ⟨k, hk, h⟩ := letter_chamber form hf
  have hlen : alphabet.length = 28 := rfl
  refine ⟨k, hk, fun k' r area hp => ⟨?_, ?_⟩⟩
  · rintro ⟨encounter, s, hs, h201, hform⟩
    by_cases hx : isKanto game ∧ k' < 7 ∧ isLand encounter
    · obtain ⟨-, hk', hl⟩ := hx
      rw [← h k' hk']
      have hne : ∀ j : Nat, j ∈ [3, 4, 6, 7, 8] → encounter ≠ BitVec.ofNat 8 j := by
        rintro j hj rfl
        apply hl
        rw [BitVec.toNat_ofNat, Nat.mod_eq_of_lt (by simp at hj; omega)]
        exact hj
      obtain ⟨l2, -⟩ := slotList_other area encounter (hne 3 (by simp)) (hne 4 (by simp)) (hne 6 (by simp))
        (hne 7 (by simp)) (hne 8 (by simp))
      rw [l2] at hs
      obtain ⟨i, hi, rfl⟩ := List.getElem_of_mem hs
      have hi' : i < 12 := by simpa using hi
      obtain ⟨-, hletters⟩ := C97_letters game hg k' hk' r area hp
      obtain ⟨-, letter, e1, e2⟩ := hletters i hi'
      refine ⟨i, hi', ?_⟩
      rw [e1, ← e2]
      rw [Vector.getElem_toList] at hform
      rw [hform]
    · exact absurd h201 (C97_elsewhere game 132 (kanto_games hg) k' r area hp encounter hx s hs)
  · rintro rfl
    obtain ⟨i, hi, hi2⟩ := (h k' hk).mpr rfl
    obtain ⟨-, hletters⟩ := C97_letters game hg k' hk r area hp
    obtain ⟨h201, letter, e1, e2⟩ := hletters i hi
    refine ⟨Encounter.grass, area.land[i], ?_, h201, ?_⟩
    · obtain ⟨l2, -⟩ := slotList_other area Encounter.grass (by decide) (by decide) (by decide) (by decide) (by decide)
      rw [l2]
      exact Vector.mem_toList_iff.mpr (Vector.getElem_mem hi)
    · rw [e1, ← e2] at hi2
      obtain ⟨q1, q2⟩ := List.getElem?_eq_some_iff.mp (hi2.trans (List.getElem?_eq_getElem (by omega)))
      exact (List.Nodup.getElem_inj_iff alphabet_nodup).mp q2

/-- **C97**, searches: a state with an Unown comes from a chamber, and its form is one of the letters of the chamber. -/
theorem C97_run (game : BitVec 32) (n : Nat) (h : (game, n) ∈ games) (k : Nat) (r : Data.Raw) (area : EncounterArea3)
    (hp : Place game k r area) (method encounter lead : BitVec 8) (tid sid : BitVec 16) (fuel : Nat)
    (seed : BitVec 32) (delay init max : Nat) (hn : init + delay < 2 ^ 32) (states : List State)
    (hrun : run .numba tables method encounter lead game tid sid fuel seed delay init max area = .ok states)
    (st : State) (hst : st ∈ states) (h201 : st.species = 201) :
    isKanto game ∧ k < 7 ∧ isLand encounter ∧ ∃ i < 12, letterAt k i = alphabet[st.form.toNat]? := by
  have wf := wellFormed game n h method encounter lead tid sid area r ((place_slots hp).1 encounter)
  obtain ⟨-, ⟨slot, hm, h1, h2, h3, h4⟩, -⟩ :=
    C56_run tables method encounter lead game tid sid fuel area wf seed delay init max hn states hrun st hst
  have e : slot.species.toNat % 2048 = 201 := by rw [← h1, h201]; rfl
  have hx : isKanto game ∧ k < 7 ∧ isLand encounter := by
    by_contra hx
    exact C97_elsewhere game n h k r area hp encounter hx slot hm e
  refine ⟨hx.1, hx.2.1, hx.2.2, ?_⟩
  obtain ⟨-, hletters⟩ := C97_letters game hx.1 k hx.2.1 r area hp
  have hne : ∀ j : Nat, j ∈ [3, 4, 6, 7, 8] → encounter ≠ BitVec.ofNat 8 j := by
    rintro j hj rfl
    apply hx.2.2
    rw [BitVec.toNat_ofNat, Nat.mod_eq_of_lt (by simp at hj; omega)]
    exact hj
  obtain ⟨l2, -⟩ := slotList_other area encounter (hne 3 (by simp)) (hne 4 (by simp)) (hne 6 (by simp))
    (hne 7 (by simp)) (hne 8 (by simp))
  rw [l2] at hm
  obtain ⟨i, hi, rfl⟩ := List.getElem_of_mem hm
  have hi' : i < 12 := by simpa using hi
  obtain ⟨-, letter, e1, e2⟩ := hletters i hi'
  refine ⟨i, hi', ?_⟩
  rw [e1, ← e2, h2, Vector.getElem_toList]

/-- C97: slot 11 of the first chamber is the question mark. -/
example : ∃ r area, Place Game.fireRed 0 r area ∧ area.land[11].species.toNat = 201 + 2048 * 27 := by
  obtain ⟨r, area, -, hp⟩ := place_exists Game.fireRed 132 (by decide) 0 (by decide)
  refine ⟨r, area, hp, ?_⟩
  obtain ⟨h1, letter, h2, h3⟩ := (C97_letters Game.fireRed (.inl rfl) 0 (by decide) r area hp).2 11 (by decide)
  have hl : letter = '?' := by
    have : letterAt 0 11 = some '?' := by decide +kernel
    rw [this] at h2
    exact (Option.some.inj h2).symm
  subst hl
  have : alphabet[27]? = some '?' := rfl
  obtain ⟨q1, q2⟩ := List.getElem?_eq_some_iff.mp (h3.trans this.symm |>.trans (List.getElem?_eq_getElem (by decide)))
  have := (List.Nodup.getElem_inj_iff alphabet_nodup).mp q2
  omega

end Verif.Shipped3
