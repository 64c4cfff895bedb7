import Verif.Props.WildGen3Term
/-
C88: what a lead with Cute Charm does in the Gen 3 generator.
-/
namespace Verif.Gen3
open Spec.Gen3

/-- the species has both genders -/
def TwoGenders (info : Personal) : Prop := 0 < info.genderRatio.toNat ∧ info.genderRatio.toNat < 254

instance (info : Personal) : Decidable (TwoGenders info) := by unfold TwoGenders; infer_instance

/-- all species of the encounter list that are in the personal table have both genders -/
def AllTwoGenders (table : List Personal) (area : EncounterArea3) (encounter : BitVec 8) : Prop :=
  ∀ s ∈ slotList area encounter, ∀ info, table[s.species.toNat % 2048]? = some info → TwoGenders info

theorem drawSlot_lead (g : WildGenerator3) (area : EncounterArea3) (h : g.lead = Lead.cuteCharmF ∨ g.lead = Lead.cuteCharmM)
    (seed : BitVec 32) : drawSlot g area [] seed = drawSlot { g with lead := Lead.none } area [] seed := by
  have hl : ¬ (g.lead = Lead.magnetPull ∨ g.lead = Lead.static) ∧ g.lead ≠ Lead.pressure := by
    rcases h with h | h <;> rw [h] <;> decide
  have hn : ¬ (Lead.none = Lead.magnetPull ∨ Lead.none = Lead.static) ∧ Lead.none ≠ Lead.pressure := by decide
  unfold drawSlot calculateHslotLead
  simp only [if_neg hl.1, if_neg hn.1, decide_eq_false hl.2, decide_eq_false hn.2]

theorem generateOne_lead (g : WildGenerator3) (area : EncounterArea3)
    (h : g.lead = Lead.cuteCharmF ∨ g.lead = Lead.cuteCharmM) (ha : AllTwoGenders g.table area g.encounter) (fuel advance : Nat)
    (seed : BitVec 32) :
    generateOne g fuel area [] advance seed = generateOne { g with lead := Lead.none } fuel area [] advance seed := by
  unfold generateOne
  dsimp only
  generalize rockSmashCheck _ _ _ seed = r
  cases r with
  | err e => simp only [Res.err_bind]
  | outOfFuel => simp only [Res.outOfFuel_bind]
  | ok r =>
    obtain ⟨s1, skip⟩ := r
    simp only [Res.ok_bind]
    cases skip with
    | true => simp only [if_true]
    | false =>
      simp only [Bool.false_eq_true, if_false]
      rw [drawSlot_lead g area h]
      cases hd : drawSlot { g with lead := Lead.none } area [] s1 with
      | err e => simp only [Res.err_bind]
      | outOfFuel => simp only [Res.outOfFuel_bind]
      | ok r =>
        obtain ⟨s2, species, form, level, info⟩ := r
        have hinfo : TwoGenders info := by
          unfold drawSlot at hd
          obtain ⟨slot, h1, h2⟩ := calculateHslotLead_eq area g.encounter Lead.none [] (by simp) s1
          have hmem := slotChosen_mem area g.encounter Lead.none [] s1 slot (by simp) h2
          simp only [h1, Res.ok_bind, Res.bind_eq_ok] at hd
          obtain ⟨⟨s3, l⟩, -, hd⟩ := hd
          simp only [and_7ff] at hd
          cases ht : g.table[slot.species.toNat % 2048]? with
          | none => rw [ht] at hd; cases hd
          | some i =>
            rw [ht] at hd
            simp only [Res.pure_eq, Res.ok.injEq, Prod.mk.injEq] at hd
            rw [← hd.2.2.2.2]
            exact ha slot hmem i ht
        have hc : drawCuteCharm g.lead info s2 = .ok (s2, false) := by
          unfold drawCuteCharm
          rw [if_pos h.symm, if_pos ⟨BitVec.lt_def.mpr hinfo.1, BitVec.lt_def.mpr hinfo.2⟩]
          rfl
        have hc' : drawCuteCharm Lead.none info s2 = .ok (s2, false) := by
          unfold drawCuteCharm; rw [if_neg (by decide)]; rfl
        have hn : ∀ s, drawNature g.lead s = drawNature Lead.none s := by
          intro s
          unfold drawNature
          rw [if_neg (by rcases h with h | h <;> rw [h] <;> decide), if_neg (by decide)]
        have hacc : ∀ n, acceptPid g.lead info false species form n = acceptPid Lead.none info false species form n := by
          intro n; funext p; simp [acceptPid]
        simp only [Res.ok_bind, hc, hc', hn, hacc]

/-- C88, what happens: where all species have both genders, a lead with Cute Charm changes nothing at all: every call
gives the same result as without a special lead. -/
theorem C88_no_effect (t : Tables) (method encounter lead : BitVec 8) (h : lead = Lead.cuteCharmF ∨ lead = Lead.cuteCharmM)
    (tid sid : BitVec 16) (area : EncounterArea3) (ha : AllTwoGenders t.e area encounter) (fuel : Nat) (seed : BitVec 32)
    (delay init max : Nat) (mode : Mode) :
    run mode t method encounter lead Game.emerald tid sid fuel seed delay init max area
      = run mode t method encounter Lead.none Game.emerald tid sid fuel seed delay init max area := by
  cases mode with
  | numpy => rfl
  | numba =>
    have hg : ({ WildGenerator3.new t method encounter lead Game.emerald tid sid with lead := Lead.none } : WildGenerator3)
        = WildGenerator3.new t method encounter Lead.none Game.emerald tid sid := rfl
    show generate _ _ _ _ _ _ _ = generate _ _ _ _ _ _ _
    rw [← hg]
    set g := WildGenerator3.new t method encounter lead Game.emerald tid sid with hgd
    have hl : g.lead = lead := rfl
    have hgame : g.game = (4 : BitVec 8) := by rfl
    have hm : getModifiedSlots area g.encounter g.lead (g.game.setWidth 32) g.table = .ok [] := by
      have : leadType g.lead (g.game.setWidth 32) = none := by
        rw [hl, hgame]; rcases h with h | h <;> rw [h] <;> decide
      rw [getModifiedSlots, this]
    have hm' : getModifiedSlots area g.encounter Lead.none (g.game.setWidth 32) g.table = .ok [] := by
      have : leadType Lead.none (g.game.setWidth 32) = none := by rw [hgame]; decide
      rw [getModifiedSlots, this]
    have hloop : ∀ n advance seed states, generateLoop g fuel area [] n advance seed states
        = generateLoop { g with lead := Lead.none } fuel area [] n advance seed states := by
      intro n
      induction n with
      | zero => intro _ _ _; rfl
      | succ n ih =>
        intro advance seed states
        rw [generateLoop, generateLoop, ← generateOne_lead g area (hl ▸ h) ha]
        cases generateOne g fuel area [] advance seed with
        | err e => simp only [Res.err_bind]
        | outOfFuel => simp only [Res.outOfFuel_bind]
        | ok o => cases o <;> simp only [Res.ok_bind, ih]
    unfold generate
    simp only [hm, hm', Res.ok_bind]
    split
    · rfl
    · exact hloop _ _ _ _

/-- C88 as intended: in Emerald with a Cute Charm lead, whenever the roll after slot and level (one in three fails)
succeeds, a wild Pokemon of a species with both genders has the gender opposite to the lead's. -/
def C88Statement : Prop := ∀ (t : Tables) (method encounter lead : BitVec 8) (tid sid : BitVec 16) (fuel : Nat)
  (seed : BitVec 32) (area : EncounterArea3) (states : List State), encounter ≠ Encounter.rockSmash →
  (lead = Lead.cuteCharmF ∨ lead = Lead.cuteCharmM) →
  run .numba t method encounter lead Game.emerald tid sid fuel seed 0 0 1 area = .ok states →
  out 3 seed % 3 ≠ 0 → ∀ st ∈ states, ∀ info, t.e[st.species.toNat]? = some info → TwoGenders info →
    st.gender = if lead = Lead.cuteCharmF then 0 else 1

/-- see `C88_full_false` -/
def charmRun : Res (List State) :=
  run .numba ⟨[], exampleTable, [], []⟩ Method.method1 Encounter.grass Lead.cuteCharmF Game.emerald 0 0 100 14 0 0 1 exampleArea

theorem charmRun_female : ∃ st, charmRun = .ok [st] ∧ st.species = 2 ∧ st.gender = 1 := by
  have h : (match charmRun with | .ok [st] => decide (st.species = 2 ∧ st.gender = 1) | _ => false) = true := by
    decide +kernel
  split at h
  · next st e => exact ⟨st, e, of_decide_eq_true h⟩
  · cases h

/-- C88 is false: with the female lead a successful roll gives a female Pokemon of a species with both genders. -/
theorem C88_full_false : ¬ C88Statement := by
  intro h
  obtain ⟨st, h1, h2, h3⟩ := charmRun_female
  have := h _ _ _ _ _ _ _ _ _ [st] (by decide) (.inl rfl) h1 (by decide +kernel) st (by simp) (exampleInfo 11)
    (by rw [h2]; rfl) (by decide)
  rw [h3] at this
  revert this; decide

/-- C88, the other half: a species with one gender or none, for which Cute Charm should do nothing, is the only kind the
roll acts on. If it succeeds the reported PID is constrained by its low byte (the gender does not depend on it). -/
theorem C88_one_gender (g : WildGenerator3) (hl : g.lead = Lead.cuteCharmF ∨ g.lead = Lead.cuteCharmM) (hr : ¬ rockCheck g)
    (fuel : Nat) (area : EncounterArea3) (wf : WellFormed g area) (advance : Nat) (seed : BitVec 32) (st : State)
    (h : generateOne g fuel area [] advance seed = .ok (some st)) (h3 : out 3 seed % 3 ≠ 0) (info : Personal)
    (hi : g.table[st.species.toNat]? = some info) (h1 : ¬ TwoGenders info) :
    (if g.lead = Lead.cuteCharmF then info.genderRatio.toNat ≤ st.pid.toNat % 256
      else st.pid.toNat % 256 < info.genderRatio.toNat) ∧
    st.gender.toNat = (if info.genderRatio.toNat = 255 then 2 else if info.genderRatio.toNat = 254 then 1 else 0) := by
  obtain ⟨slot, info', j, n, pid, -, rfl, -, -, q3, hw, -, -, q5, -, -, -, q9, -, q11, -⟩ :=
    C56_state g fuel area wf [] (by simp) (by simp) advance seed st h
  rw [q11, q3] at hi
  injection hi with hi
  subst hi
  have hb : beforeCharm g = 2 := by
    unfold beforeCharm beforeSlot slotDraws levelDraws
    rw [if_neg hr, if_neg (by rcases hl with h | h <;> rw [h] <;> decide), if_neg (by rcases hl with h | h <;> rw [h] <;> decide)]
  have hc : charmed g info' seed := ⟨⟨hl.symm, h1⟩, by rw [hb]; exact h3⟩
  refine ⟨by rw [q5]; exact hw.2.1 hc, ?_⟩
  rw [q9]
  have := info'.genderRatio.isLt
  unfold TwoGenders at h1
  unfold specGender
  generalize info'.genderRatio.toNat = r at *
  by_cases a : r = 255
  · rw [if_pos a, if_pos a]
  · by_cases b : r = 254
    · rw [if_neg a, if_neg a, if_pos b, if_pos b]
    · rw [if_neg a, if_neg a, if_neg b, if_neg b, if_pos (by omega)]

example : AllTwoGenders exampleTable exampleArea Encounter.grass := by
  intro s hs info h
  have : ∀ i ∈ exampleTable, TwoGenders i := by decide
  exact this info (List.mem_of_getElem? h)

/-- a table of always-female species -/
def femaleTable : List Personal := exampleTable.map fun i => { i with genderRatio := 254 }

/-- see the next example -/
def femaleGenerator : WildGenerator3 :=
  WildGenerator3.new ⟨[], femaleTable, [], []⟩ Method.method1 Encounter.grass Lead.cuteCharmF Game.emerald 0 0

example : (match generateOne femaleGenerator 10000 exampleArea [] 0 14 with
    | .ok (some st) => decide (254 ≤ st.pid.toNat % 256) | _ => false) = true ∧ out 3 14 % 3 ≠ 0 ∧
    ¬ rockCheck femaleGenerator ∧ ∀ i ∈ femaleTable, ¬ TwoGenders i := by decide +kernel

end Verif.Gen3
