import Verif.Model.Text
import Verif.Props.EncLoad3
/-
C90: the names of the species are all different, so looking one up gives its own number.
-/
namespace Verif.Text
open EncLoad3

/-! ### a check for distinctness that is linear in the length -/

/-- No two entries have the same key, and none has a key in the set of bits `seen`. -/
def distinctBy (f : α → Nat) : List α → Nat → Bool
  | [], _ => true
  | a :: l, seen => !seen.testBit (f a) && distinctBy f l (seen ||| 1 <<< f a)

theorem distinctBy_spec (f : α → Nat) (l : List α) (seen : Nat) (h : distinctBy f l seen = true) :
    l.Nodup ∧ ∀ a ∈ l, seen.testBit (f a) = false := by
  induction l generalizing seen with
  | nil => simp
  | cons a l ih =>
    rw [distinctBy, Bool.and_eq_true, Bool.not_eq_true'] at h
    obtain ⟨h1, h2⟩ := ih _ h.2
    refine ⟨List.nodup_cons.mpr ⟨fun ha => ?_, h1⟩, fun b hb => ?_⟩
    · have := h2 a ha
      rw [Nat.testBit_or, Nat.testBit_shiftLeft] at this
      simp at this
    · rcases List.mem_cons.mp hb with rfl | hb
      · exact h.1
      · have := h2 b hb
        rw [Nat.testBit_or, Bool.or_eq_false_iff] at this
        exact this.1

/-- a key of a string -/
def key (m : Nat) (s : Str) : Nat := s.foldl (fun a c => (a * 1114112 + c.toNat) % m) 0

/-! ### C90 -/

/-- C90: there are 1011 names, all different. -/
theorem C90_distinct : constantCaseSpeciesEn.length = 1011 ∧ constantCaseSpeciesEn.Nodup := by
  refine ⟨by decide +kernel, (distinctBy_spec (key 54433) _ 0 ?_).1⟩
  decide +kernel

/-- C90: `CONSTANT_CASE_SPECIES_EN.index(name)` is `i` exactly when `name` is the constant-case form of the `i`-th line of
the file; any other string raises `ValueError`. -/
theorem C90_index (name : Str) :
    (∀ i, speciesIndex name constantCaseSpeciesEn 0 = .ok i ↔ (Data.speciesEn[i]?).map constantCase = some name) ∧
    (speciesIndex name constantCaseSpeciesEn 0 = .error .valueError ↔ ∀ line ∈ Data.speciesEn, constantCase line ≠ name) := by
  have hidx : ∀ i, speciesIndex name constantCaseSpeciesEn 0 = .ok i ↔
      (Data.speciesEn[i]?).map constantCase = some name := by
    intro i
    rw [speciesIndex_iff, ← List.getElem?_map]
    simp only [Nat.zero_add]
    constructor
    · rintro ⟨t, rfl, h⟩; exact h.1
    · intro h
      refine ⟨i, rfl, h, fun t ht he => ?_⟩
      obtain ⟨hi, h1⟩ := List.getElem?_eq_some_iff.mp h
      obtain ⟨ht', h2⟩ := List.getElem?_eq_some_iff.mp he
      have := List.pairwise_iff_getElem.mp C90_distinct.2 t i ht' hi ht
      exact this (h2.trans h1.symm)
  refine ⟨hidx, fun h line hl he => ?_, fun h => ?_⟩
  · obtain ⟨i, hi, rfl⟩ := List.getElem_of_mem hl
    have := (hidx i).mpr (by rw [List.getElem?_eq_getElem hi, Option.map_some, he])
    rw [h] at this; cases this
  · have herr : ∀ (names : List Str) (i : Nat), (∀ n ∈ names, n ≠ name) → speciesIndex name names i = .error .valueError := by
      intro names
      induction names with
      | nil => intro i _; rfl
      | cons n names ih =>
        intro i hn
        rw [speciesIndex, if_neg (hn n List.mem_cons_self)]
        exact ih _ fun m hm => hn m (List.mem_cons_of_mem _ hm)
    apply herr
    intro n hn
    obtain ⟨line, hl, rfl⟩ := List.mem_map.mp hn
    exact h line hl

/-- Volbeat is number 313, the two Nidoran are 32 and 29, and a name in its usual spelling is not found. -/
example : speciesIndex c!"SPECIES_VOLBEAT" constantCaseSpeciesEn 0 = .ok 313 ∧
    speciesIndex c!"SPECIES_NIDORAN_M" constantCaseSpeciesEn 0 = .ok 32 ∧
    speciesIndex c!"SPECIES_NIDORAN_F" constantCaseSpeciesEn 0 = .ok 29 ∧
    speciesIndex c!"Volbeat" constantCaseSpeciesEn 0 = .error .valueError := by
  simp only [(C90_index _).1, (C90_index _).2]
  decide +kernel

end Verif.Text
