import Verif.Props.Shipped3Maps
import Verif.Props.StateText
/-
C96, continued: every state of a search on the shipped Gen 3 data can be printed.
-/
namespace Verif.Gen3
open EncLoad3 (Str)

/-- C96: a created state can be printed exactly when there is a name for its species. -/
theorem C96_created (mode : Mode) (advance pid species form : Nat) (ivs : Vector (BitVec 8) 6) (ability : Nat)
    (level shiny : BitVec 8) (info : Personal) (st : State)
    (h : State.new mode advance pid species form ivs ability level shiny info = .ok st) :
    (∃ text, str st = .ok text) ↔ st.species.toNat < 1011 := by
  have hp : st.hiddenPower.toNat ≤ 15 := by
    obtain ⟨st', h1, -, h2, -⟩ := C60_type_characteristic mode advance pid species form ivs ability level shiny info
    rw [h] at h1
    cases h1
    exact h2
  rw [new_eq] at h
  have key : st.nature.toNat < 25 ∧ st.abilityIndex.toNat < 299 ∧ st.gender.toNat < 3 := by
    cases h
    refine ⟨?_, ?_, ?_⟩
    · show (BitVec.ofNat 8 (pid % 2 ^ 32 % 25)).toNat < 25
      rw [BitVec.toNat_ofNat]; omega
    · show (BitVec.setWidth 16 (if ability = 0 then info.ability1 else info.ability2)).toNat < 299
      rw [BitVec.toNat_setWidth]
      have := (if ability = 0 then info.ability1 else info.ability2).isLt
      omega
    · show (getGender (BitVec.ofNat 32 pid) info.genderRatio).toNat < 3
      unfold getGender
      split_ifs <;> decide
  have hs : (∃ text, str st = .ok text) ↔ ∃ fields, csv st = .ok fields := by
    constructor
    · rintro ⟨text, ht⟩
      obtain ⟨f, hf, -⟩ := (C96_str st text).mp ht
      exact ⟨f, hf⟩
    · rintro ⟨f, hf⟩
      exact ⟨_, (C96_str st _).mpr ⟨f, hf, rfl⟩⟩
  rw [hs, C96_csv]
  exact ⟨fun h => h.1, fun h => ⟨h, key.1, key.2.1, by omega, key.2.2⟩⟩

end Verif.Gen3

namespace Verif.Shipped3
open EncLoad3 Gen3 Spec.Gen3

/-- **C96**: with the shipped data every state of a returned list can be printed; its species is one of the 386 of Gen 3 (0 if the
area has no list for this type of encounter) and its level at most 100. -/
theorem C96_shipped (game : BitVec 32) (n : Nat) (h : (game, n) ∈ games) (k : Nat) (r : Data.Raw) (area : EncounterArea3)
    (hp : Place game k r area) (method encounter lead : BitVec 8) (tid sid : BitVec 16) (fuel : Nat)
    (seed : BitVec 32) (delay init max : Nat) (hn : init + delay < 2 ^ 32) (states : List State)
    (hrun : run .numba tables method encounter lead game tid sid fuel seed delay init max area = .ok states)
    (st : State) (hst : st ∈ states) :
    (∃ text, str st = .ok text) ∧ st.species.toNat ≤ 386 ∧ (st.species = 0 → source r encounter = none) ∧
      st.level.toNat ≤ 100 := by
  have hs := (place_slots hp).1 encounter
  have wf := wellFormed game n h method encounter lead tid sid area r hs
  obtain ⟨-, ⟨slot, hm, h1, h2, h3, h4⟩, -⟩ :=
    C56_run tables method encounter lead game tid sid fuel area wf seed delay init max hn states hrun st hst
  obtain ⟨info, -, hc⟩ := C56_created _ fuel area wf seed delay init max hn states hrun st hst
  have hz : st.species = 0 → st.species.toNat = 0 := fun h => by rw [h]; rfl
  have key : st.species.toNat ≤ 386 ∧ (st.species = 0 → source r encounter = none) ∧ st.level.toNat ≤ 100 := by
    rcases slotFrom_good (hs slot hm) with ⟨rfl, hnone⟩ | hg
    · have e1 : zeroSlot.species.toNat = 0 := by decide
      have e2 : zeroSlot.maxLevel.toNat = 0 := by decide
      exact ⟨by omega, fun _ => hnone, by omega⟩
    · refine ⟨by omega, fun h0 => ?_, by omega⟩
      have := hz h0
      omega
  exact ⟨(C96_created _ _ _ _ _ _ _ _ _ _ _ hc).mpr (by omega), key⟩

/-- C96: area 11 of Emerald, grass. -/
example : ∃ r area, Place Game.emerald 11 r area ∧ ∃ states : List State, (∀ fuel, 2 ^ 31 ≤ fuel →
    run .numba tables 1 Encounter.grass Lead.none Game.emerald 1234 5678 fuel 30 0 0 1 area = .ok states) ∧
      ∀ st ∈ states, ∃ text, str st = .ok text := by
  obtain ⟨r, area, he, hp⟩ := place_exists Game.emerald 124 (by decide) 11 (by decide)
  obtain ⟨states, h⟩ := C92_returns Game.emerald 124 (by decide) 11 r area hp 1 Encounter.grass Lead.none
    (by rintro ⟨-, h, -⟩; revert h; decide) 1234 5678 30 0 0 1 (by norm_num)
  exact ⟨r, area, hp, states, h, fun st hst => (C96_shipped Game.emerald 124 (by decide) 11 r area hp 1 Encounter.grass
    Lead.none 1234 5678 (2 ^ 31) 30 0 0 1 (by norm_num) states (h _ (le_refl _)) st hst).1⟩

end Verif.Shipped3
