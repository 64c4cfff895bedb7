import Verif.Props.Shipped3Run
import Verif.Props.MapName
/-
C93, C94: the Safari Zone test and the map names on the shipped Gen 3 data.
-/
namespace Verif.Shipped3
open EncLoad3 Gen3 Spec.Gen3

/-- `isSkipped` with character lists instead of strings -/
def skippedLabel (label : Str) : Bool :=
  reMatch c!"gAlteringCave" label || reSearch c!"AlteringCave_" label || contains c!"Unused" label

theorem isSkipped_eq (label : Str) : isSkipped label = skippedLabel label := by
  have h1 : "gAlteringCave".toList = c!"gAlteringCave" := rfl
  have h2 : "AlteringCave_".toList = c!"AlteringCave_" := rfl
  have h3 : "Unused".toList = c!"Unused" := rfl
  unfold isSkipped skippedLabel
  rw [h1, h2, h3]

/-- `entries` with character lists instead of strings -/
def entriesOf (game : BitVec 32) : List Data.Raw :=
  if game = Game.ruby then Data.rsRaw.filter fun r => contains c!"Ruby" r.label
  else if game = Game.sapphire then Data.rsRaw.filter fun r => contains c!"Sapphire" r.label
  else if game = Game.emerald then Data.eRaw
  else if game = Game.fireRed then Data.frlgRaw.filter fun r => contains c!"FireRed" r.label
  else Data.frlgRaw.filter fun r => contains c!"LeafGreen" r.label

theorem entries_eq (game : BitVec 32) (n : Nat) (h : (game, n) ∈ games) : entries game = entriesOf game := by
  have h1 : "Ruby".toList = c!"Ruby" := rfl
  have h2 : "Sapphire".toList = c!"Sapphire" := rfl
  have h3 : "FireRed".toList = c!"FireRed" := rfl
  have h4 : "LeafGreen".toList = c!"LeafGreen" := rfl
  have h5 : ∀ l : List Data.Raw, (l.filter fun r => contains [] r.label) = l := by
    intro l
    rw [List.filter_eq_self]
    intro r _
    exact (contains_iff [] r.label).mpr (List.nil_infix)
  unfold entries entriesOf dataFile gameLabel
  rw [h1, h2, h3, h4]
  rcases mem_games h with rfl | rfl | rfl | rfl | rfl <;> simp +decide only [↓reduceIte, Option.any_some, h5]

/-! ### C93 -/

theorem ruby_check : (entriesOf Game.ruby).zipIdx.all (fun x =>
    decide (x.2 ∈ [90, 89, 92, 91]) == contains c!"SAFARI_ZONE" x.1.map &&
      (!skippedLabel x.1.label || !contains c!"SAFARI_ZONE" x.1.map)) = true := by decide +kernel

theorem sapphire_check : (entriesOf Game.sapphire).zipIdx.all (fun x =>
    decide (x.2 ∈ [90, 89, 92, 91]) == contains c!"SAFARI_ZONE" x.1.map &&
      (!skippedLabel x.1.label || !contains c!"SAFARI_ZONE" x.1.map)) = true := by decide +kernel

theorem emerald_check : (entriesOf Game.emerald).zipIdx.all (fun x =>
    decide (x.2 ∈ [73, 98, 74, 20, 97, 72]) == contains c!"SAFARI_ZONE" x.1.map &&
      (!skippedLabel x.1.label || !contains c!"SAFARI_ZONE" x.1.map)) = true := by decide +kernel

theorem place_lt {game : BitVec 32} {n : Nat} (h : (game, n) ∈ games) {k : Nat} {r : Data.Raw} {area : EncounterArea3}
    (hp : Place game k r area) : k < n := by
  rw [← (load_total game n h).2]
  exact (List.getElem?_eq_some_iff.mp hp.entry).1

theorem safari_of_check (game : BitVec 32) (n : Nat) (h : (game, n) ∈ games) (numbers : List Nat) (h0 : 0 ∉ numbers)
    (hnum : ∀ j ∈ numbers, j < 65536)
    (hc : (entriesOf game).zipIdx.all (fun x =>
      decide (x.2 ∈ numbers) == contains c!"SAFARI_ZONE" x.1.map &&
        (!skippedLabel x.1.label || !contains c!"SAFARI_ZONE" x.1.map)) = true)
    (k : Nat) (r : Data.Raw) (area : EncounterArea3) (hp : Place game k r area) :
    area.location ∈ numbers.map (BitVec.ofNat 16) ↔ c!"SAFARI_ZONE" <:+: r.map := by
  have hk : k < 65536 := by
    have := place_lt h hp
    have : ∀ x ∈ games, x.2 < 65536 := by decide
    have := this _ h
    omega
  have he := hp.entry
  rw [entries_eq game n h] at he
  obtain ⟨hlt, rfl⟩ := List.getElem?_eq_some_iff.mp he
  have hx := List.all_eq_true.mp hc ((entriesOf game)[k], k)
    (List.mem_iff_getElem.mpr ⟨k, by simpa using hlt, by simp⟩)
  rw [Bool.and_eq_true, beq_iff_eq, Bool.or_eq_true, Bool.not_eq_true', Bool.not_eq_true', Bool.eq_iff_iff,
    decide_eq_true_eq] at hx
  rw [← contains_iff]
  obtain ⟨-, -, hloc⟩ := place_slots hp
  have hmem : ∀ j, j < 65536 → (BitVec.ofNat 16 j ∈ numbers.map (BitVec.ofNat 16) ↔ j ∈ numbers) := by
    intro j hj
    rw [List.mem_map]
    constructor
    · rintro ⟨i, hi, he⟩
      have := congrArg BitVec.toNat he
      rw [BitVec.toNat_ofNat, BitVec.toNat_ofNat, Nat.mod_eq_of_lt (hnum i hi), Nat.mod_eq_of_lt hj] at this
      rwa [← this]
    · exact fun h => ⟨j, h, rfl⟩
  rw [hloc, isSkipped_eq]
  cases hs : skippedLabel (entriesOf game)[k].label with
  | true =>
    rw [hs] at hx
    rcases hx.2 with h | h
    · cases h
    · rw [if_pos rfl, h]
      simp only [Bool.false_eq_true, iff_false]
      exact fun hm => h0 ((hmem 0 (by norm_num)).mp hm)
  | false =>
    rw [if_neg (by simp), hmem k hk]
    exact hx.1

/-- **C93**: on the shipped data the hard-coded numbers of `is_rse_safari_zone` are exactly those of the areas whose map is
named `..SAFARI_ZONE..`, in Ruby, Sapphire and Emerald; in FireRed and LeafGreen the answer is always no. -/
theorem C93_safari (game : BitVec 32) (n : Nat) (h : (game, n) ∈ games) (k : Nat) (r : Data.Raw) (area : EncounterArea3)
    (hp : Place game k r area) :
    isRseSafariZone area game = true ↔
      (game = Game.ruby ∨ game = Game.sapphire ∨ game = Game.emerald) ∧ c!"SAFARI_ZONE" <:+: r.map := by
  have hrs : ∀ game, (game = Game.ruby ∨ game = Game.sapphire) → (game, 97) ∈ games → Place game k r area →
      (area.location ∈ [90, 89, 92, 91].map (BitVec.ofNat 16) ↔ c!"SAFARI_ZONE" <:+: r.map) →
      (isRseSafariZone area game = true ↔ c!"SAFARI_ZONE" <:+: r.map) := by
    intro game hg hm hp he
    rw [← he]
    have hhas : Game.has game (Game.ruby ||| Game.sapphire) = true := by
      rcases hg with rfl | rfl <;> decide
    unfold isRseSafariZone
    rw [if_pos hhas, decide_eq_true_eq]
    obtain ⟨-, -, hloc⟩ := place_slots hp
    have hk := place_lt hm hp
    have : area.location.toNat < 97 := by
      rw [hloc]; split
      · decide
      · rw [BitVec.toNat_ofNat]; omega
    have hne : ∀ v : BitVec 16, 97 ≤ v.toNat → area.location ≠ v := by rintro v h rfl; omega
    simp [hne 187#16 (by decide), hne 186#16 (by decide), hne 189#16 (by decide), hne 188#16 (by decide)]
  rcases mem_games h with rfl | rfl | rfl | rfl | rfl
  · rw [hrs _ (.inl rfl) (by decide) hp (safari_of_check _ 97 (by decide) _ (by decide) (by decide) ruby_check k r area hp)]
    simp
  · rw [hrs _ (.inr rfl) (by decide) hp (safari_of_check _ 97 (by decide) _ (by decide) (by decide) sapphire_check k r area hp)]
    simp
  · rw [← safari_of_check _ 124 (by decide) _ (by decide) (by decide) emerald_check k r area hp]
    unfold isRseSafariZone
    rw [if_neg (by decide), if_pos (by decide), decide_eq_true_eq]
    simp
  · exact ⟨fun hx => (nomatch hx), fun hx => by revert hx; rintro ⟨h | h | h, -⟩ <;> exact absurd h (by decide)⟩
  · exact ⟨fun hx => (nomatch hx), fun hx => by revert hx; rintro ⟨h | h | h, -⟩ <;> exact absurd h (by decide)⟩

/-! ### C94 -/

/-- the names of the areas that are not skipped -/
def cleanNames (game : BitVec 32) : List Str :=
  ((entriesOf game).filter fun r => !skippedLabel r.label).map fun r => MapName.clean r.map

/-- The names are all different, and none is empty. -/
def namesOk (game : BitVec 32) : Bool :=
  Text.distinctBy (Text.key 54433) (cleanNames game) 0 && (cleanNames game).all fun name => !name.isEmpty

theorem ruby_names : namesOk Game.ruby = true := by decide +kernel
theorem sapphire_names : namesOk Game.sapphire = true := by decide +kernel
theorem emerald_names : namesOk Game.emerald = true := by decide +kernel
theorem fireRed_names : namesOk Game.fireRed = true := by decide +kernel
theorem leafGreen_names : namesOk Game.leafGreen = true := by decide +kernel

theorem names_ok (game : BitVec 32) (n : Nat) (h : (game, n) ∈ games) : namesOk game = true := by
  rcases mem_games h with rfl | rfl | rfl | rfl | rfl
  exacts [ruby_names, sapphire_names, emerald_names, fireRed_names, leafGreen_names]

/-- **C94**: the name at place `k` of the results is empty exactly if the entry is skipped, and a name that is not empty
occurs only once. So the list of names can be searched for a name. -/
theorem C94_names (game : BitVec 32) (n : Nat) (h : (game, n) ∈ games) :
    ∃ names areas, load game = .ok (names, areas) ∧ names.length = n ∧
      (∀ (k : Nat) (r : Data.Raw), (entries game)[k]? = some r → (names[k]? = some [] ↔ Skip r.label)) ∧
      ∀ (j k : Nat) (name : Str), names[j]? = some name → names[k]? = some name → name ≠ [] → j = k := by
  obtain ⟨⟨⟨names, areas⟩, hl⟩, hn⟩ := load_total game n h
  obtain ⟨h1, h2, h3⟩ := load_place game names areas hl
  have hok := names_ok game n h
  rw [namesOk, Bool.and_eq_true, List.all_eq_true] at hok
  have hnd := (Text.distinctBy_spec _ _ _ hok.1).1
  unfold cleanNames at hnd
  rw [List.Nodup, List.pairwise_map, List.pairwise_filter, List.pairwise_iff_getElem] at hnd
  have hempty : ∀ r ∈ entriesOf game, skippedLabel r.label = false → MapName.clean r.map ≠ [] := by
    intro r hr hs he
    have := hok.2 (MapName.clean r.map) (List.mem_map.mpr ⟨r, List.mem_filter.mpr ⟨hr, by rw [hs]; rfl⟩, rfl⟩)
    rw [he] at this
    cases this
  have hskip : ∀ r : Data.Raw, Skip r.label ↔ skippedLabel r.label = true := by
    intro r; rw [← isSkipped_iff, isSkipped_eq]
  have hiff : ∀ (k : Nat) (r : Data.Raw), (entries game)[k]? = some r → (names[k]? = some [] ↔ Skip r.label) := by
    intro k r hr
    obtain ⟨name, area, j1, j2, j3, j4, j5⟩ := h3 k r hr
    rw [j1, Option.some.injEq]
    constructor
    · rintro rfl
      by_contra hs
      rw [entries_eq game n h] at hr
      have hs' : skippedLabel r.label = false := by
        rw [hskip] at hs; simpa using hs
      exact hempty r (List.mem_of_getElem? hr) hs' (j5 hs).1.symm
    · exact fun hs => (j4 hs).1
  refine ⟨names, areas, hl, by omega, hiff, ?_⟩
  have main : ∀ (j k : Nat) (name : Str), names[j]? = some name → names[k]? = some name → name ≠ [] → ¬ j < k := by
    intro j k name hj hk hne hlt
    have hj' := (List.getElem?_eq_some_iff.mp hj).1
    have hk' := (List.getElem?_eq_some_iff.mp hk).1
    have e := entries_eq game n h
    have key : ∀ i, (hi : i < (entriesOf game).length) → names[i]? = some name →
        skippedLabel (entriesOf game)[i].label = false ∧ name = MapName.clean (entriesOf game)[i].map := by
      intro i hi hni
      have hr : (entries game)[i]? = some (entriesOf game)[i] := by rw [e]; exact List.getElem?_eq_getElem hi
      have hns : ¬ Skip (entriesOf game)[i].label := by
        intro hs
        rw [(hiff i _ hr).mpr hs, Option.some.injEq] at hni
        exact hne hni.symm
      obtain ⟨name', area, j1, j2, j3, j4, j5⟩ := h3 i _ hr
      rw [hni, Option.some.injEq] at j1
      subst j1
      refine ⟨?_, (j5 hns).1⟩
      rw [hskip] at hns; simpa using hns
    rw [e] at h1
    have ij : j < (entriesOf game).length := by omega
    have ik : k < (entriesOf game).length := by omega
    obtain ⟨a1, a2⟩ := key j ij hj
    obtain ⟨b1, b2⟩ := key k ik hk
    exact hnd j k ij ik hlt (by rw [a1]; rfl) (by rw [b1]; rfl) (a2.symm.trans b2)
  intro j k name hj hk hne
  rcases Nat.lt_trichotomy j k with h | h | h
  · exact absurd h (main j k name hj hk hne)
  · exact h
  · exact absurd h (main k j name hk hj hne)

/-! ### examples -/

/-- Every place below the number of areas of the game is a `Place`. -/
theorem place_exists (game : BitVec 32) (n : Nat) (h : (game, n) ∈ games) (k : Nat) (hk : k < n) :
    ∃ r area, (entries game)[k]? = some r ∧ Place game k r area := by
  obtain ⟨⟨⟨names, areas⟩, hl⟩, hn⟩ := load_total game n h
  obtain ⟨h1, h2, -⟩ := load_place game names areas hl
  have hi : k < (entries game).length := by omega
  have hj : k < areas.length := by omega
  exact ⟨(entries game)[k], areas[k], List.getElem?_eq_getElem hi,
    List.getElem?_eq_getElem hi, names, areas, hl, List.getElem?_eq_getElem hj⟩

theorem emerald_maps : (entriesOf Game.emerald)[11]?.map Data.Raw.map = some route117Map ∧
    (entriesOf Game.emerald)[10]?.map Data.Raw.map = some c!"MAP_ROUTE116" ∧
    (entriesOf Game.emerald)[73]?.map Data.Raw.map = some c!"MAP_SAFARI_ZONE_NORTH" := by decide +kernel

/-- C92, the exception: there is an area of Emerald whose grass is excluded, so with CUTE_CHARM_M the call never returns. -/
example : ∃ r area, Place Game.emerald 11 r area ∧ Excluded r Encounter.grass ∧
    ∀ fuel, run .numba tables 1 Encounter.grass Lead.cuteCharmM Game.emerald 1234 5678 fuel 30 0 0 1 area = .outOfFuel := by
  obtain ⟨r, area, he, hp⟩ := place_exists Game.emerald 124 (by decide) 11 (by decide)
  have hm : r.map = route117Map := by
    have := emerald_maps.1
    rw [← entries_eq Game.emerald 124 (by decide), he] at this
    exact Option.some.inj this
  have hex : Excluded r Encounter.grass := .inr ⟨hm, by unfold isLand; decide⟩
  exact ⟨r, area, hp, hex, fun fuel => C92_never 11 r area hp _ _ hex _ _ fuel⟩

/-- C92: with a lead that does nothing, the same call returns. -/
example : ∃ r area, Place Game.emerald 11 r area ∧ ∃ states, ∀ fuel, 2 ^ 31 ≤ fuel →
    run .numba tables 1 Encounter.grass Lead.none Game.emerald 1234 5678 fuel 30 0 0 1 area = .ok states := by
  obtain ⟨r, area, he, hp⟩ := place_exists Game.emerald 124 (by decide) 11 (by decide)
  exact ⟨r, area, hp, C92_returns Game.emerald 124 (by decide) 11 r area hp 1 Encounter.grass Lead.none
    (by rintro ⟨-, h, -⟩; revert h; decide) 1234 5678 30 0 0 1 (by norm_num)⟩

/-- C93: area 73 of Emerald is the northern Safari Zone. -/
example : ∃ r area, Place Game.emerald 73 r area ∧ isRseSafariZone area Game.emerald = true := by
  obtain ⟨r, area, he, hp⟩ := place_exists Game.emerald 124 (by decide) 73 (by decide)
  have hm : r.map = c!"MAP_SAFARI_ZONE_NORTH" := by
    have := emerald_maps.2.2
    rw [← entries_eq Game.emerald 124 (by decide), he] at this
    exact Option.some.inj this
  exact ⟨r, area, hp, (C93_safari Game.emerald 124 (by decide) 73 r area hp).mpr
    ⟨.inr (.inr rfl), by rw [hm]; decide⟩⟩

end Verif.Shipped3
