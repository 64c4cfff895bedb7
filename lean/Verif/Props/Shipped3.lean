import Verif.Model.Shipped3
import Verif.Lemmas.Enc3Check
import Verif.Props.Text
import Verif.Props.EncLoad3
import Verif.Props.Personal
import Verif.Props.CuteCharm
/-
C91 to C94: what holds of the Gen 3 part with the data files that are shipped.
-/
namespace Verif.Shipped3
open EncLoad3 Gen3 Spec.Gen3

/-! ### the names of the species in the data files -/

/-- the numbers of the names in `speciesPool` -/
def poolDex : List Nat :=
  [183, 129, 118, 341, 72, 278, 279, 320, 120, 319, 130, 370, 222, 41, 338, 339, 42, 340, 371, 293, 296, 63, 74, 304,
   303, 299, 263, 265, 285, 266, 268, 276, 287, 322, 66, 325, 109, 324, 218, 88, 355, 353, 307, 37, 358, 297, 305, 294,
   308, 75, 363, 361, 100, 81, 101, 82, 73, 344, 356, 334, 261, 273, 280, 283, 309, 316, 312, 43, 311, 27, 328, 331, 343,
   327, 227, 333, 335, 274, 277, 39, 290, 300, 315, 314, 313, 264, 310, 352, 318, 357, 359, 44, 321, 360, 116, 111, 84,
   85, 127, 54, 55, 119, 231, 177, 178, 214, 203, 202, 25, 366, 170, 369, 337, 302, 354, 270, 336, 271, 262, 191, 179,
   190, 167, 163, 209, 234, 207, 194, 195, 223, 224, 216, 165, 204, 228, 241, 213, 132, 235, 201, 10, 13, 11, 14, 46, 35,
   98, 90, 50, 51, 95, 24, 105, 67, 57, 20, 58, 19, 110, 32, 102, 48, 33, 30, 47, 123, 113, 60, 147, 148, 29, 115, 49,
   128, 61, 64, 56, 86, 87, 92, 104, 93, 125, 77, 22, 21, 78, 219, 17, 16, 96, 97, 220, 225, 131, 117, 198, 52, 53, 114,
   206, 187, 211, 161, 193, 246, 23, 79, 28, 89, 80, 126, 70, 69, 215, 99, 200, 226]

theorem poolDex_all : Data.speciesPool.length = poolDex.length ∧
    (Data.speciesPool.zip poolDex).all (fun x => decide ((Data.speciesEn[x.2]?).map Text.constantCase = some x.1)) = true := by
  decide +kernel

theorem index_of_all (pool : List Str) (dex : List Nat) (hlen : pool.length = dex.length)
    (hall : (pool.zip dex).all (fun x => decide ((Data.speciesEn[x.2]?).map Text.constantCase = some x.1)) = true)
    (j : Nat) (hj : j < dex.length) (s : Nat) : IsIndex Text.constantCaseSpeciesEn (pool.getD j []) s ↔ s = dex.getD j 0 := by
  have hl : j < pool.length := by omega
  have hd : pool.getD j [] = pool[j] := by simp [List.getD, hl]
  have he : dex.getD j 0 = dex[j] := by simp [List.getD, hj]
  have h := List.all_eq_true.mp hall (pool[j], dex[j])
    (List.mem_iff_getElem.mpr ⟨j, by simp [List.length_zip]; omega, by simp⟩)
  rw [decide_eq_true_eq, ← hd, ← he] at h
  have h2 := ((Text.C90_index (pool.getD j [])).1 (dex.getD j 0)).mpr h
  have hi : IsIndex Text.constantCaseSpeciesEn (pool.getD j []) s ↔
      speciesIndex (pool.getD j []) Text.constantCaseSpeciesEn 0 = .ok s := by
    rw [speciesIndex_iff]
    constructor
    · intro h; exact ⟨s, by omega, h⟩
    · rintro ⟨t, rfl, h⟩; rwa [Nat.zero_add]
  rw [hi, h2]
  exact ⟨fun h => by cases h; rfl, fun h => by rw [h]⟩

/-- The name number `j` of the data files is that of species `poolDex[j]`, and of no other. -/
theorem pool_index (j : Nat) (hj : j < poolDex.length) (s : Nat) :
    IsIndex Text.constantCaseSpeciesEn (Data.speciesPool.getD j []) s ↔ s = poolDex.getD j 0 :=
  index_of_all _ _ poolDex_all.1 poolDex_all.2 j hj s

theorem poolDex_range : ∀ d ∈ poolDex, 1 ≤ d ∧ d ≤ 386 := by decide +kernel

/-! ### checks of the data -/

/-- a mon: levels from 1 to 100 in order, a name of the pool -/
def okWord (w : Nat) : Bool :=
  (1 ≤ w / 2 ^ 24 % 2 ^ 8) && (w / 2 ^ 24 % 2 ^ 8 ≤ w / 2 ^ 16 % 2 ^ 8) && (w / 2 ^ 16 % 2 ^ 8 ≤ 100) &&
    (w % 2 ^ 16 < poolDex.length)

/-- a list of `n` mons -/
def okPacked (n : Nat) (p : Data.Packed) : Bool :=
  p.count == n && (0 < p.rate) && (p.rate < 256) && (List.range p.count).all fun i => okWord (word p i)

/-- the number of the species of a mon -/
def dexOf (w : Nat) : Nat := poolDex.getD (w % 2 ^ 16) 0

/-- an entry; where the land list gets forms, all of it is Unown -/
def okRaw (r : Data.Raw) : Bool :=
  r.land.all (okPacked 12) && r.water.all (okPacked 5) && r.rock.all (okPacked 5) && r.fish.all (okPacked 10) &&
    ((unownEncounters.lookup r.map).isNone || r.land.all fun p => (List.range p.count).all fun i => dexOf (word p i) == 201)

theorem rs_ok : Data.rsRaw.all okRaw = true := by decide +kernel
theorem e_ok : Data.eRaw.all okRaw = true := by decide +kernel
theorem frlg_ok : Data.frlgRaw.all okRaw = true := by decide +kernel

/-! ### slots -/

/-- The slot holds the mon `w` with the given form. -/
structure Holds (w form : Nat) (s : Slot3) : Prop where
  minLevel : s.minLevel.toNat = w / 2 ^ 24 % 2 ^ 8
  maxLevel : s.maxLevel.toNat = w / 2 ^ 16 % 2 ^ 8
  species : s.species.toNat = dexOf w + 2048 * form

theorem dexOf_range {w : Nat} (h : okWord w = true) : 1 ≤ dexOf w ∧ dexOf w ≤ 386 := by
  have hj : w % 2 ^ 16 < poolDex.length := by
    simp only [okWord, Bool.and_eq_true, decide_eq_true_eq] at h; exact h.2
  have : dexOf w = poolDex[w % 2 ^ 16] := by
    rw [dexOf, List.getD, List.getElem?_eq_getElem hj, Option.getD_some]
  rw [this]
  exact poolDex_range _ (List.getElem_mem _)

theorem okPacked_word {n : Nat} {p : Data.Packed} (h : okPacked n p = true) :
    p.count = n ∧ 0 < p.rate ∧ p.rate < 256 ∧ ∀ i < n, okWord (word p i) = true := by
  simp only [okPacked, Bool.and_eq_true, beq_iff_eq, decide_eq_true_eq, List.all_eq_true, List.mem_range] at h
  exact ⟨h.1.1.1, h.1.1.2, h.1.2, fun i hi => h.2 i (by omega)⟩

theorem mons_getElem (p : Data.Packed) (i : Nat) (hi : i < p.count) :
    (unpack p).mons[i]? = some (unpackMon (word p i)) := by
  simp [unpack, hi]

theorem entry_holds (l : Option Data.Packed) (n i form : Nat) (hok : l.all (okPacked n) = true) (hi : i < n)
    (hform : form < 32) (s : Slot3) (h : Entry Text.constantCaseSpeciesEn (l.map unpack) i form s) :
    (l = none → s = zeroSlot) ∧ ∀ p, l = some p → Holds (word p i) form s := by
  cases l with
  | none => exact ⟨fun _ => h, fun p hp => (nomatch hp)⟩
  | some p =>
    refine ⟨fun hx => (nomatch hx), fun q hq => ?_⟩
    cases hq
    rw [Option.all_some] at hok
    obtain ⟨h1, -, -, h4⟩ := okPacked_word hok
    have hw := h4 i hi
    simp only [Entry, Option.map_some, Option.bind_some, mons_getElem p i (by omega)] at h
    obtain ⟨hmin, hmax, d, hd, hs⟩ := h
    have hj : word p i % 2 ^ 16 < poolDex.length := by
      simp only [okWord, Bool.and_eq_true, decide_eq_true_eq] at hw; exact hw.2
    have hd' : d = dexOf (word p i) := (pool_index _ hj d).mp hd
    have hr := dexOf_range hw
    refine ⟨?_, ?_, ?_⟩
    · rw [hmin, BitVec.toNat_ofNat]; exact Nat.mod_eq_of_lt (Nat.mod_lt _ (by norm_num))
    · rw [hmax, BitVec.toNat_ofNat]; exact Nat.mod_eq_of_lt (Nat.mod_lt _ (by norm_num))
    · rw [hs, hd', BitVec.toNat_or, BitVec.toNat_ofNat, BitVec.toNat_ofNat, Nat.mod_eq_of_lt (by omega),
        Nat.mod_eq_of_lt (by omega), show (2048 : Nat) = 2 ^ 11 from rfl, Nat.or_comm, ← Nat.shiftLeft_eq,
        ← Nat.shiftLeft_add_eq_or_of_lt (by omega), Nat.shiftLeft_eq]
      omega

/-- the packed list of an encounter type -/
def listOf (r : Data.Raw) (encounter : BitVec 8) : Option Data.Packed :=
  match encounter.toNat with
  | 3 => r.rock
  | 4 => r.water
  | 6 | 7 | 8 => r.fish
  | _ => r.land

/-- The slot holds a mon of the list, or is zero if there is no list. Only Unown have a form, one of 28. -/
def SlotFrom (l : Option Data.Packed) (s : Slot3) : Prop :=
  match l with
  | none => s = zeroSlot
  | some p => okPacked p.count p = true ∧
      ∃ i < p.count, ∃ form < 28, Holds (word p i) form s ∧ (form ≠ 0 → dexOf (word p i) = 201)

theorem formOf_lt (map : Str) (i : Nat) : formOf map i < 28 ∧ (formOf map i ≠ 0 → (unownEncounters.lookup map).isSome) := by
  rw [formOf_eq]
  cases h : unownEncounters.lookup map with
  | none => simp
  | some forms =>
    refine ⟨?_, fun _ => rfl⟩
    obtain hm := lookup_mem h
    have hall : ∀ x ∈ unownEncounters, ∀ f ∈ x.2, f < 28 := by decide +kernel
    rw [Option.bind_some]
    cases hf : forms[i]? with
    | none => simp
    | some f => exact hall _ hm f (List.mem_of_getElem? hf)

/-- Every slot of a list of a loaded area holds a mon of the list of the file, or is zero if there is no list. -/
theorem slot_holds (r : Data.Raw) (hr : okRaw r = true) (k : Nat) (area : EncounterArea3)
    (h : AreaFor Text.constantCaseSpeciesEn k (encounterOf r) area) (encounter : BitVec 8) (s : Slot3)
    (hs : s ∈ slotList area encounter) :
    SlotFrom (listOf r encounter) s := by
  simp only [okRaw, Bool.and_eq_true] at hr
  obtain ⟨⟨⟨⟨hl, hw⟩, hk⟩, hf⟩, hu⟩ := hr
  have key : ∀ (l : Option Data.Packed) (n i form : Nat), l.all (okPacked n) = true → i < n → form < 28 →
      (form ≠ 0 → ∀ p, l = some p → dexOf (word p i) = 201) →
      Entry Text.constantCaseSpeciesEn (l.map unpack) i form s →
      SlotFrom l s := by
    intro l n i form hok hi hform hun he
    have := entry_holds l n i form hok hi (by omega) s he
    cases l with
    | none => exact this.1 rfl
    | some p =>
      rw [Option.all_some] at hok
      have hc := (okPacked_word hok).1
      exact ⟨by rw [hc]; exact hok, i, by omega, form, hform, this.2 p rfl, fun h => hun h p rfl⟩
  have key0 : ∀ (l : Option Data.Packed) (n i : Nat), l.all (okPacked n) = true → i < n →
      Entry Text.constantCaseSpeciesEn (l.map unpack) i 0 s → SlotFrom l s :=
    fun l n i h1 h2 h3 => key l n i 0 h1 h2 (by omega) (fun h => absurd rfl h) h3
  have hland : s ∈ area.land.toList → SlotFrom r.land s := by
    intro hs
    obtain ⟨i, hi, rfl⟩ := List.getElem_of_mem hs
    have hi : i < 12 := by simpa using hi
    refine key r.land 12 i _ hl hi (formOf_lt _ _).1 (fun hne p hp => ?_) (h.land i hi)
    have hsome := (formOf_lt _ _).2 hne
    rw [hp] at hl hu
    rw [Option.all_some] at hl
    have hc := (okPacked_word hl).1
    rw [Bool.or_eq_true] at hu
    rcases hu with hu | hu
    · have he : (encounterOf r).map = r.map := rfl
      rw [he] at hsome
      cases hx : List.lookup r.map unownEncounters with
      | none => rw [hx] at hsome; cases hsome
      | some f => rw [hx] at hu; cases hu
    · rw [Option.all_some, List.all_eq_true] at hu
      simpa using hu i (by simp; omega)
  unfold slotList at hs
  unfold listOf
  split at hs
  · rename_i he
    obtain ⟨i, hi, rfl⟩ := List.getElem_of_mem hs
    have hi : i < 5 := by simpa using hi
    simp only [he]
    exact key0 r.rock 5 i hk hi (h.rock i hi)
  · rename_i he
    obtain ⟨i, hi, rfl⟩ := List.getElem_of_mem hs
    have hi : i < 5 := by simpa using hi
    simp only [he]
    exact key0 r.water 5 i hw hi (h.water i hi)
  · rename_i he
    obtain ⟨i, hi, rfl⟩ := List.getElem_of_mem hs
    have hi : i < 2 := by simpa using hi
    simp only [he]
    exact key0 r.fish 10 i hf (by omega) (h.fishOld i hi)
  · rename_i he
    obtain ⟨i, hi, rfl⟩ := List.getElem_of_mem hs
    have hi : i < 3 := by simpa using hi
    simp only [he]
    exact key0 r.fish 10 (i + 2) hf (by omega) (h.fishGood i hi)
  · rename_i he
    obtain ⟨i, hi, rfl⟩ := List.getElem_of_mem hs
    have hi : i < 5 := by simpa using hi
    simp only [he]
    exact key0 r.fish 10 (i + 5) hf (by omega) (h.fishSuper i hi)
  · rename_i h3 h4 h6 h7 h8
    have : ∀ n : Nat, n ≠ 3 → n ≠ 4 → n ≠ 6 → n ≠ 7 → n ≠ 8 →
        (match n with | 3 => r.rock | 4 => r.water | 6 | 7 | 8 => r.fish | _ => r.land) = r.land := by
      intro n h3 h4 h6 h7 h8
      split <;> first | rfl | contradiction
    rw [this _ h3 h4 h6 h7 h8]
    exact hland hs

/-! ### loading -/

/-- the five games and the number of their areas -/
def games : List (BitVec 32 × Nat) :=
  [(Game.ruby, 97), (Game.sapphire, 97), (Game.emerald, 124), (Game.fireRed, 132), (Game.leafGreen, 132)]

/-- the entries of a game -/
def entries (game : BitVec 32) : List Data.Raw :=
  (dataFile game).filter fun r => (gameLabel game).any fun part => contains part r.label

theorem file_ok (game : BitVec 32) : ∀ r ∈ dataFile game, okRaw r = true := by
  unfold dataFile
  split_ifs
  · exact List.all_eq_true.mp rs_ok
  · exact List.all_eq_true.mp e_ok
  · exact List.all_eq_true.mp frlg_ok
  · simp

theorem packed_fits {l : Option Data.Packed} {n : Nat} (h : l.all (okPacked n) = true) :
    (∀ x, l.map unpack = some x → x.mons.length ≤ n) ∧
    (∀ x, l.map unpack = some x → ∀ m ∈ x.mons, Known Text.constantCaseSpeciesEn m) := by
  cases l with
  | none => simp
  | some p =>
    rw [Option.all_some] at h
    obtain ⟨h1, -, -, h2⟩ := okPacked_word h
    rw [Option.map_some]
    refine ⟨fun x hx => ?_, fun x hx m hm => ?_⟩
    · cases hx; simp [unpack]; omega
    · cases hx
      simp only [unpack, List.mem_map, List.mem_range] at hm
      obtain ⟨i, hi, rfl⟩ := hm
      have hw := h2 i (by omega)
      have hj : word p i % 2 ^ 16 < poolDex.length := by
        simp only [okWord, Bool.and_eq_true, decide_eq_true_eq] at hw; exact hw.2
      exact List.mem_of_getElem? ((pool_index _ hj _).mpr rfl).1

theorem raw_fits (r : Data.Raw) (h : okRaw r = true) :
    Fits (encounterOf r) ∧ AllKnown Text.constantCaseSpeciesEn (encounterOf r) := by
  simp only [okRaw, Bool.and_eq_true] at h
  obtain ⟨⟨⟨⟨hl, hw⟩, hk⟩, hf⟩, -⟩ := h
  refine ⟨⟨(packed_fits hl).1, (packed_fits hw).1, (packed_fits hk).1, (packed_fits hf).1⟩, ?_⟩
  intro l hl' x hx
  simp only [List.mem_cons, List.not_mem_nil, or_false] at hl'
  rcases hl' with rfl | rfl | rfl | rfl
  · exact (packed_fits hl).2 x hx
  · exact (packed_fits hw).2 x hx
  · exact (packed_fits hk).2 x hx
  · exact (packed_fits hf).2 x hx

theorem filter_entries (game : BitVec 32) (part : Str) (hp : gameLabel game = some part) :
    ((dataFile game).map encounterOf).filter (fun x => decide (part <:+: x.baseLabel)) = (entries game).map encounterOf := by
  rw [entries, hp, List.filter_map]
  congr 1
  apply List.filter_congr
  intro r _
  simp only [Function.comp, Option.any_some]
  rw [Bool.eq_iff_iff, decide_eq_true_eq, contains_iff]
  rfl

/-- The place `k` of the results belongs to the entry number `k` of the game. -/
theorem load_place (game : BitVec 32) (names : List Str) (areas : List EncounterArea3) (h : load game = .ok (names, areas)) :
    names.length = (entries game).length ∧ areas.length = (entries game).length ∧
    ∀ k r, (entries game)[k]? = some r → ∃ name area, names[k]? = some name ∧ areas[k]? = some area ∧
      okRaw r = true ∧
      (Skip r.label → name = [] ∧ area = zeroArea) ∧
      (¬ Skip r.label → name = MapName.clean r.map ∧ AreaFor Text.constantCaseSpeciesEn k (encounterOf r) area) := by
  rw [Enc3Json.load_eq] at h
  obtain ⟨part, hp, es, he, h1, h2, h3⟩ := C71_load _ _ _ _ _ _ h
  rw [filter_entries game part hp] at he
  subst he
  rw [List.length_map] at h1 h2
  refine ⟨h1, h2, fun k r hr => ?_⟩
  obtain ⟨name, area, j1, j2, j3, j4⟩ := h3 k (encounterOf r) (by rw [List.getElem?_map, hr]; rfl)
  refine ⟨name, area, j1, j2, ?_, j3, fun hs => ⟨(j4 hs).1, (j4 hs).2.2⟩⟩
  exact file_ok game r (List.mem_filter.mp (List.mem_of_getElem? hr)).1

theorem load_total (game : BitVec 32) (n : Nat) (h : (game, n) ∈ games) :
    (∃ r, load game = .ok r) ∧ (entries game).length = n := by
  refine ⟨?_, ?_⟩
  · have hp : ∃ part, gameLabel game = some part := by
      simp only [games, List.mem_cons, Prod.mk.injEq, List.not_mem_nil, or_false] at h
      rcases h with ⟨rfl, -⟩ | ⟨rfl, -⟩ | ⟨rfl, -⟩ | ⟨rfl, -⟩ | ⟨rfl, -⟩ <;> exact ⟨_, rfl⟩
    obtain ⟨part, hp⟩ := hp
    rw [Enc3Json.load_eq]
    apply C71_total _ _ _ _ part hp
    intro e he _ _
    obtain ⟨r, hr, rfl⟩ := List.mem_map.mp he
    exact raw_fits r (file_ok game r hr)
  · have : ∀ x ∈ games, (entries x.1).length = x.2 := by decide +kernel
    exact this _ h

/-- the list of the file behind a list of a loaded area -/
def source (r : Data.Raw) (encounter : BitVec 8) : Option Data.Packed :=
  if isSkipped r.label then none else listOf r encounter

theorem zeroArea_slots (encounter : BitVec 8) (s : Slot3) (hs : s ∈ slotList zeroArea encounter) : s = zeroSlot := by
  unfold slotList at hs
  split at hs <;> (simp [zeroArea] at hs; exact hs)

theorem area_slots (game : BitVec 32) (names : List Str) (areas : List EncounterArea3) (h : load game = .ok (names, areas))
    (area : EncounterArea3) (ha : area ∈ areas) :
    ∃ (k : Nat) (r : Data.Raw), (entries game)[k]? = some r ∧ areas[k]? = some area ∧
      ∀ encounter, ∀ s ∈ slotList area encounter, SlotFrom (source r encounter) s := by
  obtain ⟨h1, h2, h3⟩ := load_place game names areas h
  obtain ⟨k, hk, rfl⟩ := List.getElem_of_mem ha
  obtain ⟨name, area, j1, j2, j3, j4, j5⟩ := h3 k (entries game)[k] (List.getElem?_eq_getElem (by omega))
  rw [List.getElem?_eq_getElem hk, Option.some.injEq] at j2
  subst j2
  refine ⟨k, (entries game)[k], List.getElem?_eq_getElem (by omega), List.getElem?_eq_getElem hk, fun encounter s hs => ?_⟩
  unfold source
  by_cases hsk : Skip (entries game)[k].label
  · rw [if_pos ((isSkipped_iff _).mpr hsk)]
    rw [(j4 hsk).2] at hs
    exact zeroArea_slots encounter s hs
  · rw [if_neg (fun h => hsk ((isSkipped_iff _).mp h))]
    exact slot_holds _ j3 k _ (j5 hsk).2 encounter s hs

theorem slotFrom_good {l : Option Data.Packed} {s : Slot3} (h : SlotFrom l s) : s = zeroSlot ∧ l = none ∨
    (1 ≤ s.minLevel.toNat ∧ s.minLevel.toNat ≤ s.maxLevel.toNat ∧ s.maxLevel.toNat ≤ 100 ∧
      1 ≤ s.species.toNat % 2048 ∧ s.species.toNat % 2048 ≤ 386 ∧
      (s.species.toNat / 2048 ≠ 0 → s.species.toNat % 2048 = 201 ∧ s.species.toNat / 2048 < 28)) := by
  cases l with
  | none => exact .inl ⟨h, rfl⟩
  | some p =>
    obtain ⟨h1, i, hi, form, hform, ⟨a, b, c⟩, h2⟩ := h
    have hw := (okPacked_word h1).2.2.2 i hi
    have hd := dexOf_range hw
    simp only [okWord, Bool.and_eq_true, decide_eq_true_eq] at hw
    obtain ⟨⟨⟨w1, w2⟩, w3⟩, -⟩ := hw
    have e1 : s.species.toNat % 2048 = dexOf (word p i) := by omega
    have e2 : s.species.toNat / 2048 = form := by omega
    rw [e1, e2]
    exact .inr ⟨by omega, by omega, by omega, hd.1, hd.2, fun hne => ⟨h2 hne, hform⟩⟩

/-- **C91**, loading: `load_encounter_3` succeeds for each of the five games, with the stated number of areas. Every slot of
every list of every area is either zero (a list the area does not have) or has levels `1 ≤ min ≤ max ≤ 100` and a species
number from 1 to 386; only Unown (201) have a form, below 28. -/
theorem C91_load (game : BitVec 32) (n : Nat) (h : (game, n) ∈ games) :
    ∃ names areas, load game = .ok (names, areas) ∧ names.length = n ∧ areas.length = n ∧
      ∀ area ∈ areas, ∀ encounter, ∀ s ∈ slotList area encounter, s = ⟨0, 0, 0⟩ ∨
        (1 ≤ s.minLevel.toNat ∧ s.minLevel.toNat ≤ s.maxLevel.toNat ∧ s.maxLevel.toNat ≤ 100 ∧
          1 ≤ s.species.toNat % 2048 ∧ s.species.toNat % 2048 ≤ 386 ∧
          (s.species.toNat / 2048 ≠ 0 → s.species.toNat % 2048 = 201 ∧ s.species.toNat / 2048 < 28)) := by
  obtain ⟨⟨⟨names, areas⟩, hl⟩, hn⟩ := load_total game n h
  obtain ⟨h1, h2, -⟩ := load_place game names areas hl
  refine ⟨names, areas, hl, by omega, by omega, fun area ha encounter s hs => ?_⟩
  obtain ⟨k, r, -, -, hr⟩ := area_slots game names areas hl area ha
  rcases slotFrom_good (hr encounter s hs) with h | h
  · exact .inl h.1
  · exact .inr h

/-- Emerald has 124 areas. -/
example : ∃ names areas, load Game.emerald = .ok (names, areas) ∧ areas.length = 124 := by
  obtain ⟨names, areas, h1, -, h2, -⟩ := C91_load Game.emerald 124 (by decide)
  exact ⟨names, areas, h1, h2⟩

/-! ### personal tables -/

/-- byte `k` of a file -/
def byte (f : Nat × Nat) (k : Nat) : Nat := f.2 / 2 ^ (8 * (f.1 - 1 - k)) % 256

theorem bytes_length (f : Nat × Nat) : (bytes f).length = f.1 := by simp [bytes]

theorem bytes_get (f : Nat × Nat) (k : Nat) (x : BitVec 8) (h : (bytes f)[k]? = some x) : x.toNat = byte f k := by
  simp only [bytes, List.getElem?_map, Option.map_eq_some_iff] at h
  obtain ⟨i, hi, rfl⟩ := h
  obtain ⟨hk, rfl⟩ := List.getElem?_eq_some_iff.mp hi
  rw [BitVec.toNat_ofNat, List.getElem_range]
  rfl

theorem field8_eq (l : Personal.Layout) (r : List Personal.Value) (name : String) (j : Nat) (v : BitVec 8)
    (hj : l.findIdx? (fun f => f.1 == name) = some j) (hv : r[j]? = some (.u8 v)) : field8 l r name = v := by
  unfold field8
  have : ((l.zip r).find? fun x => x.1.1 == name).map Prod.snd = some (.u8 v) := by
    induction l generalizing r j with
    | nil => cases hj
    | cons f l ih =>
      cases r with
      | nil => cases hv
      | cons x r =>
        rw [List.zip_cons_cons, List.find?_cons]
        rw [List.findIdx?_cons] at hj
        cases hf : (f.1 == name) with
        | true =>
          rw [hf] at hj
          simp only [if_true, Option.some.injEq] at hj
          subst hj
          simpa using hv
        | false =>
          rw [hf] at hj
          simp only [Bool.false_eq_true, if_false, Option.map_eq_some_iff] at hj
          obtain ⟨j', hj', rfl⟩ := hj
          exact ih r j' hj' (by simpa using hv)
  rw [this]

/-- Record `i` of a Gen 3 file: 28 bytes, the fields at their offsets. -/
theorem table_get (f : Nat × Nat) (hf : f.1 = 10836) : (table f).length = 387 ∧
    ∀ (i : Nat) (info : Gen3.Personal), (table f)[i]? = some info →
      info.type1.toNat = byte f (28 * i + 6) ∧ info.type2.toNat = byte f (28 * i + 7) ∧
      info.genderRatio.toNat = byte f (28 * i + 16) ∧
      info.ability1.toNat = byte f (28 * i + 22) ∧ info.ability2.toNat = byte f (28 * i + 23) := by
  obtain ⟨rs, h1, h2, h3⟩ := Personal.C67_load Personal.layout3 (by decide) (bytes f)
  rw [bytes_length, hf] at h2
  have hs : Personal.layout3.size = 28 := by decide
  rw [hs] at h2 h3
  have ht : table f = rs.map personalOf := by rw [table, h1]
  refine ⟨by rw [ht, List.length_map, h2], fun i info hi => ?_⟩
  rw [ht, List.getElem?_map, Option.map_eq_some_iff] at hi
  obtain ⟨rec, hrec, rfl⟩ := hi
  obtain ⟨hlt, rfl⟩ := List.getElem?_eq_some_iff.mp hrec
  obtain ⟨h4, h5⟩ := h3 i hlt
  have key : ∀ (name : String) (j o : Nat) (hj : j < Personal.layout3.length),
      Personal.layout3.findIdx? (fun f => f.1 == name) = some j → Personal.layout3[j].2 = .u8 →
      Personal.offset Personal.layout3 j = o → (field8 Personal.layout3 rs[i] name).toNat = byte f (28 * i + o) := by
    intro name j o hj hfind hty ho
    obtain ⟨v, hv, hst⟩ := h5 j hj
    rw [hty, ho] at hst
    obtain ⟨x, rfl, hx⟩ := hst
    rw [field8_eq _ _ name j x hfind hv, bytes_get f _ x hx, Nat.mul_comm]
  exact ⟨key "type_1" 6 6 (by decide) (by decide) rfl rfl, key "type_2" 7 7 (by decide) (by decide) rfl rfl,
    key "gender_ratio" 13 16 (by decide) (by decide) rfl rfl, key "ability_1" 19 22 (by decide) (by decide) rfl rfl,
    key "ability_2" 20 23 (by decide) (by decide) rfl rfl⟩

end Verif.Shipped3
