import Verif.Props.Gen3Area
import Verif.Props.State3
import Verif.Props.Gen3Util
/-
C55, C56, C59, C77: the Gen 3 wild generator.
-/
namespace Verif.Gen3
open Spec.Gen3

/-! ### the stages of one advance, as numbered outputs of the generator -/

/-- Is this the Rock Smash check of Ruby, Sapphire and Emerald? -/
def rockCheck (g : WildGenerator3) : Prop :=
  Game.has (g.game.setWidth 32) (Game.ruby ||| Game.sapphire ||| Game.emerald) = true ∧ g.encounter = Encounter.rockSmash

instance (g : WildGenerator3) : Decidable (rockCheck g) := by unfold rockCheck; infer_instance

/-- The advance is skipped: the roll in 0..2879 is at least 16 times the encounter rate. -/
def skipped (g : WildGenerator3) (area : EncounterArea3) (seed : BitVec 32) : Prop :=
  rockCheck g ∧ area.rockRate.toNat * 16 ≤ out 1 seed % 2880

instance (g : WildGenerator3) (area : EncounterArea3) (seed : BitVec 32) : Decidable (skipped g area seed) := by
  unfold skipped; infer_instance

/-- Levels are ordered and species numbers are inside the personal table, for all slots of the encounter list. -/
structure WellFormed (g : WildGenerator3) (area : EncounterArea3) : Prop where
  levels : ∀ s ∈ slotList area g.encounter, s.minLevel.toNat ≤ s.maxLevel.toNat
  species : ∀ s ∈ slotList area g.encounter, s.species.toNat % 2048 < g.table.length

/-- Which slot the draws from `seed` select: the lead's list or the whole list. -/
def SlotChosen (area : EncounterArea3) (encounter lead : BitVec 8) (modified : List Slot3) (seed : BitVec 32)
    (slot : Slot3) : Prop :=
  if lead = Lead.magnetPull ∨ lead = Lead.static then
    if out 1 seed % 2 = 0 ∧ modified ≠ [] then modified[out 2 seed % modified.length]? = some slot
    else (slotList area encounter)[tableIndex (boundariesOf encounter) (out 2 seed % 100)]? = some slot
  else (slotList area encounter)[tableIndex (boundariesOf encounter) (out 1 seed % 100)]? = some slot

/-- number of draws for the slot -/
def slotDraws (lead : BitVec 8) : Nat := if lead = Lead.magnetPull ∨ lead = Lead.static then 2 else 1

/-- level of the slot from the draws after `seed` -/
def levelOf (slot : Slot3) (pressure : Bool) (seed : BitVec 32) : Nat :=
  if pressure then
    if out 2 seed % 2 = 0 then slot.maxLevel.toNat
    else slot.minLevel.toNat + (out 1 seed % (slot.maxLevel.toNat - slot.minLevel.toNat + 1) - 1)
  else slot.minLevel.toNat + out 1 seed % (slot.maxLevel.toNat - slot.minLevel.toNat + 1)

/-- number of draws for the level -/
def levelDraws (lead : BitVec 8) : Nat := if lead = Lead.pressure then 2 else 1

/-- Does the lead consume the Cute Charm draw? -/
def charmDraw (lead : BitVec 8) (info : Personal) : Prop :=
  (lead = Lead.cuteCharmM ∨ lead = Lead.cuteCharmF) ∧ ¬ (0 < info.genderRatio.toNat ∧ info.genderRatio.toNat < 254)

instance (lead : BitVec 8) (info : Personal) : Decidable (charmDraw lead info) := by unfold charmDraw; infer_instance

/-- the nature searched for -/
def natureOf (lead : BitVec 8) (seed : BitVec 32) : Nat :=
  if lead.toNat ≤ 24 then if out 1 seed % 2 = 0 then lead.toNat else out 2 seed % 25 else out 1 seed % 25

/-- number of draws for the nature -/
def natureDraws (lead : BitVec 8) (seed : BitVec 32) : Nat :=
  if lead.toNat ≤ 24 then if out 1 seed % 2 = 0 then 1 else 2 else 1

/-- the 32-bit PID whose halves are outputs `n` and `n + 1` -/
def pidAt (n : Nat) (seed : BitVec 32) : Nat := out n seed + 65536 * out (n + 1) seed

theorem pidAt_lt (n : Nat) (seed : BitVec 32) : pidAt n seed < 2 ^ 32 := by
  have := out_lt n seed; have := out_lt (n + 1) seed; simp only [pidAt]; omega

theorem rockSmashCheck_eq (g : WildGenerator3) (area : EncounterArea3) (seed : BitVec 32) :
    rockSmashCheck (Game.has (g.game.setWidth 32) (Game.ruby ||| Game.sapphire ||| Game.emerald)) g.encounter
        ((getEncounterRate area g.encounter).toNat * 16) seed
      = .ok (after (if rockCheck g then 1 else 0) seed, decide (skipped g area seed)) := by
  by_cases h : rockCheck g
  · have hr : getEncounterRate area g.encounter = area.rockRate := by rw [h.2]; rfl
    have hd : draw 2880 seed = .ok (after 1 seed, BitVec.ofNat 16 (out 1 seed % 2880)) := draw_eq 2880 (by decide) seed
    have hlt : out 1 seed % 2880 < 2 ^ 16 := by omega
    unfold rockCheck at h
    rw [if_pos (show rockCheck g from h), rockSmashCheck, if_pos h, hd, hr]
    simp only [Res.ok_bind, Res.pure_eq, BitVec.toNat_ofNat, Nat.mod_eq_of_lt hlt, skipped, rockCheck, h, and_self, true_and]
  · have hs : ¬ skipped g area seed := fun hs => h hs.1
    rw [if_neg h]
    unfold rockCheck at h
    rw [rockSmashCheck, if_neg h]
    simp only [hs, decide_false]; rfl

theorem slotChosen_mem (area : EncounterArea3) (encounter lead : BitVec 8) (modified : List Slot3) (seed : BitVec 32)
    (slot : Slot3) (hm : ∀ s ∈ modified, s ∈ slotList area encounter)
    (h : SlotChosen area encounter lead modified seed slot) : slot ∈ slotList area encounter := by
  unfold SlotChosen at h
  split at h
  · split at h
    · exact hm _ (List.mem_of_getElem? h)
    · exact List.mem_of_getElem? h
  · exact List.mem_of_getElem? h

theorem calculateHslotLead_eq (area : EncounterArea3) (encounter lead : BitVec 8) (modified : List Slot3)
    (hlen : modified.length < 65536) (seed : BitVec 32) :
    ∃ slot, calculateHslotLead area encounter lead modified seed = .ok (after (slotDraws lead) seed, slot) ∧
      SlotChosen area encounter lead modified seed slot := by
  unfold SlotChosen slotDraws
  by_cases hl : lead = Lead.magnetPull ∨ lead = Lead.static
  · obtain ⟨s, h1, h2⟩ := C53_type_lead area encounter lead hl modified hlen seed
    exact ⟨s, by rw [h1, if_pos hl], by rw [if_pos hl]; exact h2⟩
  · obtain ⟨s, h1, h2⟩ := C53_hslot area encounter seed
    exact ⟨s, by rw [C53_no_type_lead area encounter lead hl, h1, if_neg hl], by rw [if_neg hl]; exact h2⟩

theorem calculateLevel_eq (slot : Slot3) (h : slot.minLevel.toNat ≤ slot.maxLevel.toNat) (lead : BitVec 8)
    (seed : BitVec 32) : calculateLevel slot (lead = Lead.pressure) seed
      = .ok (after (levelDraws lead) seed, levelOf slot (lead = Lead.pressure) seed) := by
  unfold levelDraws levelOf
  by_cases hp : lead = Lead.pressure
  · simp only [hp, decide_true, if_true]; exact C52_pressure slot h seed
  · simp only [hp, decide_false, if_false, Bool.false_eq_true]; exact C52_level slot h seed

theorem levelOf_bounds (slot : Slot3) (h : slot.minLevel.toNat ≤ slot.maxLevel.toNat) (pressure : Bool)
    (seed : BitVec 32) : slot.minLevel.toNat ≤ levelOf slot pressure seed ∧ levelOf slot pressure seed ≤ slot.maxLevel.toNat := by
  have hk := Nat.mod_lt (out 1 seed) (show 0 < slot.maxLevel.toNat - slot.minLevel.toNat + 1 by omega)
  unfold levelOf
  split
  · split <;> omega
  · omega

theorem and_7ff (x : BitVec 16) : (x &&& 0x7FF).toNat = x.toNat % 2048 := by
  rw [BitVec.toNat_and]
  exact Nat.and_two_pow_sub_one_eq_mod x.toNat 11

theorem drawSlot_eq (g : WildGenerator3) (area : EncounterArea3) (wf : WellFormed g area) (modified : List Slot3)
    (hlen : modified.length < 65536) (hm : ∀ s ∈ modified, s ∈ slotList area g.encounter) (seed : BitVec 32) :
    ∃ slot info, SlotChosen area g.encounter g.lead modified seed slot ∧ slot ∈ slotList area g.encounter ∧
      g.table[slot.species.toNat % 2048]? = some info ∧
      drawSlot g area modified seed = .ok (after (slotDraws g.lead + levelDraws g.lead) seed, slot.species &&& 0x7FF,
        slot.species >>> 11, levelOf slot (g.lead = Lead.pressure) (after (slotDraws g.lead) seed), info) := by
  obtain ⟨slot, h1, h2⟩ := calculateHslotLead_eq area g.encounter g.lead modified hlen seed
  have hmem := slotChosen_mem area g.encounter g.lead modified seed slot hm h2
  have hsp := wf.species slot hmem
  refine ⟨slot, g.table[slot.species.toNat % 2048], h2, hmem, List.getElem?_eq_getElem hsp, ?_⟩
  have hinfo : g.table[(slot.species &&& 0x7FF).toNat]? = some g.table[slot.species.toNat % 2048] := by
    rw [and_7ff]; exact List.getElem?_eq_getElem hsp
  simp only [drawSlot, h1, Res.ok_bind, calculateLevel_eq slot (wf.levels slot hmem), hinfo, after_after, Res.pure_eq]
  rw [Nat.add_comm]

theorem drawCuteCharm_eq (lead : BitVec 8) (info : Personal) (seed : BitVec 32) :
    drawCuteCharm lead info seed = .ok (after (if charmDraw lead info then 1 else 0) seed,
      decide (charmDraw lead info ∧ out 1 seed % 3 ≠ 0)) := by
  have hd : draw 3 seed = .ok (after 1 seed, BitVec.ofNat 16 (out 1 seed % 3)) := draw_eq 3 (by decide) seed
  have hr : (0 < info.genderRatio ∧ info.genderRatio < 254) ↔ (0 < info.genderRatio.toNat ∧ info.genderRatio.toNat < 254) :=
    Iff.rfl
  have hz := ofNat16_eq_zero (out 1 seed % 3) (by omega)
  unfold drawCuteCharm charmDraw
  by_cases hl : lead = Lead.cuteCharmM ∨ lead = Lead.cuteCharmF
  · by_cases hg : 0 < info.genderRatio.toNat ∧ info.genderRatio.toNat < 254
    · rw [if_pos hl, if_pos (hr.2 hg)]
      simp only [hl, hg, true_and, not_true, if_false, false_and, decide_false]; rfl
    · rw [if_pos hl, if_neg (fun h => hg (hr.1 h)), hd]
      simp only [hl, hg, not_false_iff, true_and, and_self, if_true, Res.ok_bind, Res.pure_eq]
      congr 2
      by_cases h0 : out 1 seed % 3 = 0
      · simp [h0]
      · have : BitVec.ofNat 16 (out 1 seed % 3) ≠ 0 := fun h => h0 (hz.1 h)
        simp only [bne, h0, ne_eq, not_false_iff, decide_true, beq_eq_false_iff_ne.2 this, Bool.not_false]
  · rw [if_neg hl]
    simp only [hl, false_and, if_false, decide_false]; rfl

theorem drawNature_eq (lead : BitVec 8) (seed : BitVec 32) :
    drawNature lead seed = .ok (after (natureDraws lead seed) seed, BitVec.ofNat 16 (natureOf lead seed)) := by
  have h2 : draw 2 seed = .ok (after 1 seed, BitVec.ofNat 16 (out 1 seed % 2)) := draw_eq 2 (by decide) seed
  have h25 : ∀ s, draw 25 s = .ok (after 1 s, BitVec.ofNat 16 (out 1 s % 25)) := draw_eq 25 (by decide)
  have hz := ofNat16_eq_zero (out 1 seed % 2) (by omega)
  have hle : (lead ≤ Lead.synchronizeQuirky) ↔ lead.toNat ≤ 24 := Iff.rfl
  unfold drawNature natureDraws natureOf
  by_cases hl : lead.toNat ≤ 24
  · rw [if_pos (hle.2 hl), if_pos hl, if_pos hl, h2]
    simp only [Res.ok_bind]
    by_cases h0 : out 1 seed % 2 = 0
    · rw [if_pos (hz.2 h0), if_pos h0, if_pos h0]
      simp only [Res.pure_eq]
      congr 2
      apply BitVec.eq_of_toNat_eq
      rw [BitVec.toNat_setWidth, BitVec.toNat_ofNat]
    · rw [if_neg (fun h => h0 (hz.1 h)), if_neg h0, if_neg h0, h25, after_after, out_after]
  · rw [if_neg (fun h => hl (hle.1 h)), if_neg hl, if_neg hl, h25]

theorem natureOf_lt (lead : BitVec 8) (seed : BitVec 32) : natureOf lead seed < 25 := by
  unfold natureOf; split
  · split <;> omega
  · omega

theorem drawPid_eq (seed : BitVec 32) : drawPid seed = (after 2 seed, BitVec.ofNat 32 (pidAt 1 seed)) := by
  simp only [drawPid, u16_eq, after_after, out_after, pidAt]
  refine Prod.ext rfl ?_
  apply BitVec.eq_of_toNat_eq
  have h1 := out_lt 1 seed
  have h2 := out_lt (1 + 1) seed
  show (_ : BitVec 32).toNat = _
  rw [BitVec.toNat_or, BitVec.toNat_shiftLeft, BitVec.toNat_setWidth, BitVec.toNat_setWidth, BitVec.toNat_ofNat,
    BitVec.toNat_ofNat, BitVec.toNat_ofNat, Nat.mod_eq_of_lt (a := out 1 seed) (by omega),
    Nat.mod_eq_of_lt (a := out 1 seed) (by omega), Nat.mod_eq_of_lt (a := out (1 + 1) seed) (by omega),
    Nat.mod_eq_of_lt (a := out (1 + 1) seed) (by omega), Nat.shiftLeft_eq,
    Nat.mod_eq_of_lt (a := out (1 + 1) seed * 2 ^ 16) (by omega),
    Nat.mod_eq_of_lt (a := out 1 seed + 65536 * out (1 + 1) seed) (by omega),
    Nat.or_comm, Nat.mul_comm, ← Nat.two_pow_add_eq_or_of_lt (i := 16) (by omega)]
  omega

theorem pidAt_after (n m : Nat) (seed : BitVec 32) : pidAt n (after m seed) = pidAt (n + m) seed := by
  simp only [pidAt, out_after]
  rw [show n + 1 + m = n + m + 1 by omega]

/-- The search returns the first accepted PID. -/
theorem pidSearch_ok (accept : BitVec 32 → Bool) (fuel : Nat) (seed s' p : BitVec 32) :
    pidSearch accept fuel seed = .ok (s', p) ↔ ∃ j < fuel, s' = after (2 * j + 2) seed ∧
      p = BitVec.ofNat 32 (pidAt (2 * j + 1) seed) ∧ accept p = true ∧
      ∀ i < j, accept (BitVec.ofNat 32 (pidAt (2 * i + 1) seed)) = false := by
  induction fuel generalizing seed with
  | zero => simp [pidSearch]
  | succ fuel ih =>
    rw [pidSearch]
    simp only [drawPid_eq]
    by_cases ha : accept (BitVec.ofNat 32 (pidAt 1 seed)) = true
    · rw [if_pos ha]
      constructor
      · intro h
        injection h with h
        obtain ⟨rfl, rfl⟩ := Prod.mk.inj h
        exact ⟨0, by omega, rfl, rfl, ha, by omega⟩
      · rintro ⟨j, _, h1, h2, _, h4⟩
        cases j with
        | zero => rw [h1, h2]
        | succ j => have := h4 0 (by omega); rw [this] at ha; cases ha
    · rw [if_neg ha, ih]
      constructor
      · rintro ⟨j, hj, h1, h2, h3, h4⟩
        rw [after_after] at h1
        rw [pidAt_after] at h2
        refine ⟨j + 1, by omega, h1, h2, h3, fun i hi => ?_⟩
        cases i with
        | zero => simpa using ha
        | succ i => have := h4 i (by omega); rwa [pidAt_after] at this
      · rintro ⟨j, hj, h1, h2, h3, h4⟩
        cases j with
        | zero => rw [h2] at h3; exact absurd h3 ha
        | succ j =>
          refine ⟨j, by omega, ?_, ?_, h3, fun i hi => ?_⟩
          · rw [after_after]; exact h1
          · rw [pidAt_after]; exact h2
          · rw [pidAt_after]; exact h4 (i + 1) (by omega)

/-- It runs out of fuel exactly when every PID tried is rejected; it never raises. -/
theorem pidSearch_outOfFuel (accept : BitVec 32 → Bool) (fuel : Nat) (seed : BitVec 32) :
    pidSearch accept fuel seed = .outOfFuel ↔
      ∀ i < fuel, accept (BitVec.ofNat 32 (pidAt (2 * i + 1) seed)) = false := by
  induction fuel generalizing seed with
  | zero => simp [pidSearch]
  | succ fuel ih =>
    rw [pidSearch]
    simp only [drawPid_eq]
    by_cases ha : accept (BitVec.ofNat 32 (pidAt 1 seed)) = true
    · rw [if_pos ha]
      constructor
      · intro h; cases h
      · intro h; have := h 0 (by omega); rw [this] at ha; cases ha
    · rw [if_neg ha, ih]
      constructor
      · intro h i hi
        cases i with
        | zero => simpa using ha
        | succ i => have := h i (by omega); rwa [pidAt_after] at this
      · intro h i hi
        rw [pidAt_after]; exact h (i + 1) (by omega)

theorem pidSearch_cases (accept : BitVec 32 → Bool) (fuel : Nat) (seed : BitVec 32) :
    pidSearch accept fuel seed = .outOfFuel ∨ ∃ s' p, pidSearch accept fuel seed = .ok (s', p) := by
  induction fuel generalizing seed with
  | zero => exact Or.inl rfl
  | succ fuel ih =>
    rw [pidSearch]
    split
    · exact Or.inr ⟨_, _, rfl⟩
    · exact ih _

/-! ### one advance -/

/-- draws before the slot is chosen -/
def beforeSlot (g : WildGenerator3) : Nat := if rockCheck g then 1 else 0

/-- draws before the Cute Charm check -/
def beforeCharm (g : WildGenerator3) : Nat := beforeSlot g + slotDraws g.lead + levelDraws g.lead

/-- draws before the nature is chosen: one for a Cute Charm check, one in the Safari Zone of Ruby, Sapphire, Emerald -/
def beforeNature (g : WildGenerator3) (area : EncounterArea3) (info : Personal) : Nat :=
  beforeCharm g + (if charmDraw g.lead info then 1 else 0) + (if isRseSafariZone area (g.game.setWidth 32) then 1 else 0)

/-- draws before the first PID -/
def beforePid (g : WildGenerator3) (area : EncounterArea3) (info : Personal) (seed : BitVec 32) : Nat :=
  beforeNature g area info + natureDraws g.lead (after (beforeNature g area info) seed)

/-- Cute Charm is active: two rolls out of three. -/
def charmed (g : WildGenerator3) (info : Personal) (seed : BitVec 32) : Prop :=
  charmDraw g.lead info ∧ out (beforeCharm g + 1) seed % 3 ≠ 0

instance (g : WildGenerator3) (info : Personal) (seed : BitVec 32) : Decidable (charmed g info seed) := by
  unfold charmed; infer_instance

/-- The letter of an Unown PID. -/
def letterOf (pid : Nat) : Nat :=
  (64 * (pid / 2 ^ 24 % 4) + 16 * (pid / 2 ^ 16 % 4) + 4 * (pid / 2 ^ 8 % 4) + pid % 4) % 28

/-- The PIDs the search accepts: the required nature, the gender test if Cute Charm is active (as the code has it), the
letter for Unown. -/
def Wanted (lead : BitVec 8) (info : Personal) (charm : Prop) (species form nature pid : Nat) : Prop :=
  pid % 25 = nature ∧
  (charm → if lead = Lead.cuteCharmF then info.genderRatio.toNat ≤ pid % 256 else pid % 256 < info.genderRatio.toNat) ∧
  (species = 201 → letterOf pid = form)

theorem unownCheck_iff (pid : BitVec 32) (form : BitVec 8) :
    unownCheck pid form = true ↔ letterOf pid.toNat = form.toNat := by
  constructor
  · intro h; exact (C50_letter pid form h).symm
  · intro h
    obtain ⟨f, hf, _⟩ := C50_unique pid
    have := C50_letter pid f hf
    have e : f = form := BitVec.eq_of_toNat_eq (by rw [this, ← h]; rfl)
    exact e ▸ hf

theorem cuteCharmCheck_iff (lead : BitVec 8) (pid : BitVec 32) (info : Personal) :
    cuteCharmCheck lead pid info = true ↔
      if lead = Lead.cuteCharmF then info.genderRatio.toNat ≤ pid.toNat % 256
      else pid.toNat % 256 < info.genderRatio.toNat := by
  have e1 : (pid &&& 0xFF).toNat = pid.toNat % 256 := by
    rw [BitVec.toNat_and]; exact Nat.and_two_pow_sub_one_eq_mod pid.toNat 8
  have e2 : (info.genderRatio.setWidth 32).toNat = info.genderRatio.toNat := by
    rw [BitVec.toNat_setWidth, Nat.mod_eq_of_lt (by have := info.genderRatio.isLt; omega)]
  have h1 : ((pid &&& 0xFF) ≥ info.genderRatio.setWidth 32) ↔ info.genderRatio.toNat ≤ pid.toNat % 256 := by
    rw [ge_iff_le, BitVec.le_def, e1, e2]
  have h2 : (pid &&& 0xFF < info.genderRatio.setWidth 32) ↔ pid.toNat % 256 < info.genderRatio.toNat := by
    rw [BitVec.lt_def, e1, e2]
  unfold cuteCharmCheck
  split
  · simp only [decide_eq_true_eq]; exact h1
  · simp only [decide_eq_true_eq]; exact h2

theorem acceptPid_iff (lead : BitVec 8) (info : Personal) (charm : Prop) [Decidable charm] (species form : BitVec 16)
    (hform : form.toNat < 256) (nature : Nat) (hn : nature < 25) (pid : BitVec 32) :
    acceptPid lead info (decide charm) species form (BitVec.ofNat 16 nature) pid = true ↔
      Wanted lead info charm species.toNat form.toNat nature pid.toNat := by
  have en : (BitVec.ofNat 16 nature).toNat = nature := by rw [BitVec.toNat_ofNat]; omega
  have es : species = 201 ↔ species.toNat = 201 := by rw [← BitVec.toNat_inj]; rfl
  have hu := unownCheck_iff pid (form.setWidth 8)
  have ef : (form.setWidth 8).toNat = form.toNat := by rw [BitVec.toNat_setWidth, Nat.mod_eq_of_lt hform]
  rw [ef] at hu
  have hc := cuteCharmCheck_iff lead pid info
  unfold acceptPid Wanted
  rw [← hu, ← hc, ← es, en]
  by_cases h1 : pid.toNat % 25 = nature <;> by_cases h2 : charm <;> by_cases h3 : cuteCharmCheck lead pid info = true <;>
    by_cases h4 : species = 201 <;> by_cases h5 : unownCheck pid (form.setWidth 8) = true <;> simp_all

theorem generateOne_none (g : WildGenerator3) (fuel : Nat) (area : EncounterArea3) (modified : List Slot3)
    (advance : Nat) (seed : BitVec 32) :
    generateOne g fuel area modified advance seed = .ok none ↔ skipped g area seed := by
  simp only [generateOne, rockSmashCheck_eq, Res.ok_bind]
  by_cases hs : skipped g area seed
  · simp [hs]
  · simp only [hs, decide_false, Bool.false_eq_true, if_false, iff_false]
    intro h
    simp only [Res.bind_eq_ok] at h
    obtain ⟨⟨s1, sp, fo, le, info⟩, -, ⟨s2, cc⟩, -, ⟨s3, na⟩, -, ⟨s4, pid⟩, -, h⟩ := h
    dsimp only at h
    split at h
    · rw [Res.bind_eq_ok] at h
      obtain ⟨st, -, h⟩ := h
      cases h
    · cases h

/-- All stages together: a skipped advance, or a slot of the list, and then the PID search from a known position. -/
theorem generateOne_eq (g : WildGenerator3) (area : EncounterArea3) (wf : WellFormed g area)
    (modified : List Slot3) (hlen : modified.length < 65536) (hm : ∀ s ∈ modified, s ∈ slotList area g.encounter)
    (seed : BitVec 32) (hs : ¬ skipped g area seed) :
    ∃ slot info, SlotChosen area g.encounter g.lead modified (after (beforeSlot g) seed) slot ∧
      slot ∈ slotList area g.encounter ∧ g.table[slot.species.toNat % 2048]? = some info ∧
      ∀ fuel advance, generateOne g fuel area modified advance seed =
        (pidSearch (acceptPid g.lead info (decide (charmed g info seed)) (slot.species &&& 0x7FF) (slot.species >>> 11)
          (BitVec.ofNat 16 (natureOf g.lead (after (beforeNature g area info) seed)))) fuel
          (after (beforePid g area info seed) seed) >>= fun r =>
        Res.ofExcept (State.new .numba advance r.2.toNat (slot.species.toNat % 2048) (slot.species.toNat / 2048)
          (drawIvs g.method r.1) (r.2 &&& 1).toNat
          (BitVec.ofNat 8 (levelOf slot (g.lead = Lead.pressure) (after (beforeSlot g + slotDraws g.lead) seed)))
          (getShiny r.2 g.tsv) info) >>= fun st => Res.ok (some st)) := by
  obtain ⟨slot, info, h1, h2, h3, h4⟩ := drawSlot_eq g area wf modified hlen hm (after (beforeSlot g) seed)
  refine ⟨slot, info, h1, h2, h3, fun fuel advance => ?_⟩
  have hlev : levelOf slot (g.lead = Lead.pressure) (after (beforeSlot g + slotDraws g.lead) seed) < 256 := by
    have := (levelOf_bounds slot (wf.levels slot h2) (g.lead = Lead.pressure)
      (after (beforeSlot g + slotDraws g.lead) seed)).2
    have := slot.maxLevel.isLt
    omega
  have e1 : (slot.species >>> 11).toNat = slot.species.toNat / 2048 := by
    rw [BitVec.toNat_ushiftRight, Nat.shiftRight_eq_div_pow]
  have hb : after (slotDraws g.lead + levelDraws g.lead) (after (beforeSlot g) seed) = after (beforeCharm g) seed := by
    rw [after_after, beforeCharm]; congr 1; omega
  have hb2 : after (slotDraws g.lead) (after (beforeSlot g) seed) = after (beforeSlot g + slotDraws g.lead) seed := by
    rw [after_after, Nat.add_comm]
  have hb3 : (if isRseSafariZone area (g.game.setWidth 32) = true
      then next (after (if charmDraw g.lead info then 1 else 0) (after (beforeCharm g) seed))
      else after (if charmDraw g.lead info then 1 else 0) (after (beforeCharm g) seed))
      = after (beforeNature g area info) seed := by
    rw [after_after, beforeNature]
    split
    · rw [next_eq, after_after]; congr 1; omega
    · congr 1; omega
  have hb4 : after (natureDraws g.lead (after (beforeNature g area info) seed)) (after (beforeNature g area info) seed)
      = after (beforePid g area info seed) seed := by
    rw [after_after, beforePid, Nat.add_comm]
  have hb5 : decide (charmDraw g.lead info ∧ out 1 (after (beforeCharm g) seed) % 3 ≠ 0) = decide (charmed g info seed) := by
    rw [out_after, Nat.add_comm]; rfl
  have hb0 : after (if rockCheck g then 1 else 0) seed = after (beforeSlot g) seed := rfl
  simp only [generateOne, rockSmashCheck_eq, Res.ok_bind, hs, decide_false, Bool.false_eq_true, if_false, hb0, h4, hb,
    hb2, drawCuteCharm_eq, hb3, hb5, drawNature_eq, hb4, hlev, if_true, and_7ff, e1, Res.pure_eq]

/-! ### C56 -/

theorem drawIvs_eq (method : BitVec 8) (seed : BitVec 32) :
    let w1 := out (if method = Method.method2 then 2 else 1) seed
    let w2 := out ((if method = Method.method2 then 2 else 1) + (if method = Method.method4 then 2 else 1)) seed
    (drawIvs method seed).toList.map BitVec.toNat
      = [w1 % 32, w1 / 32 % 32, w1 / 1024 % 32, w2 / 32 % 32, w2 / 1024 % 32, w2 % 32] := by
  intro w1 w2
  have e1 : (if method = Method.method2 then next seed else seed) = after (if method = Method.method2 then 1 else 0) seed := by
    split
    · exact next_eq seed
    · rfl
  have hm : ∀ x : Nat, x < 65536 → ((BitVec.ofNat 16 x &&& 0x1F).setWidth 8).toNat = x % 32 ∧
      (((BitVec.ofNat 16 x >>> 5) &&& 0x1F).setWidth 8).toNat = x / 32 % 32 ∧
      (((BitVec.ofNat 16 x >>> 10) &&& 0x1F).setWidth 8).toNat = x / 1024 % 32 := by
    intro x hx
    have key : ∀ y : BitVec 16, ((y &&& 0x1F).setWidth 8).toNat = y.toNat % 32 := by
      intro y
      rw [BitVec.toNat_setWidth, BitVec.toNat_and, show (0x1F : BitVec 16).toNat = 2 ^ 5 - 1 by rfl,
        Nat.and_two_pow_sub_one_eq_mod]
      omega
    refine ⟨?_, ?_, ?_⟩
    · rw [key, BitVec.toNat_ofNat]; omega
    · rw [key, BitVec.toNat_ushiftRight, BitVec.toNat_ofNat, Nat.shiftRight_eq_div_pow]; omega
    · rw [key, BitVec.toNat_ushiftRight, BitVec.toNat_ofNat, Nat.shiftRight_eq_div_pow]; omega
  have h1 := hm w1 (out_lt _ _)
  have h2 := hm w2 (out_lt _ _)
  have ew1 : out 1 (after (if method = Method.method2 then 1 else 0) seed) = w1 := by
    rw [out_after]; simp only [w1]; split <;> rfl
  have ew2 : out 1 (if method = Method.method4 then next (after 1 (after (if method = Method.method2 then 1 else 0) seed))
      else after 1 (after (if method = Method.method2 then 1 else 0) seed)) = w2 := by
    simp only [w2]
    split
    · rw [next_eq, after_after, after_after, out_after]; congr 1; split <;> omega
    · rw [after_after, out_after]; congr 1; split <;> omega
  simp only [drawIvs, e1, u16_eq, ew1, ew2]
  show [_, _, _, _, _, _] = _
  rw [h1.1, h1.2.1, h1.2.2, h2.1, h2.2.1, h2.2.2]

/-- C56: a reported state, field by field. `n` is the position of the draw that is the low half of its PID: the first
position after the earlier draws, in steps of two, whose PID is wanted. The IVs come from the draws following the PID,
with one draw dropped before the first (Method 2) or between the two (Method 4). -/
theorem C56_state (g : WildGenerator3) (fuel : Nat) (area : EncounterArea3) (wf : WellFormed g area)
    (modified : List Slot3) (hlen : modified.length < 65536) (hm : ∀ s ∈ modified, s ∈ slotList area g.encounter)
    (advance : Nat) (seed : BitVec 32) (st : State)
    (h : generateOne g fuel area modified advance seed = .ok (some st)) :
    ∃ slot info j, ∃ n pid, n = beforePid g area info seed + 2 * j + 1 ∧ pid = pidAt n seed ∧
      slot ∈ slotList area g.encounter ∧
      SlotChosen area g.encounter g.lead modified (after (beforeSlot g) seed) slot ∧
      g.table[slot.species.toNat % 2048]? = some info ∧
      Wanted g.lead info (charmed g info seed) (slot.species.toNat % 2048) (slot.species.toNat / 2048)
        (natureOf g.lead (after (beforeNature g area info) seed)) pid ∧
      (∀ i < j, ¬ Wanted g.lead info (charmed g info seed) (slot.species.toNat % 2048) (slot.species.toNat / 2048)
        (natureOf g.lead (after (beforeNature g area info) seed)) (pidAt (beforePid g area info seed + 2 * i + 1) seed)) ∧
      st.advance = BitVec.ofNat 32 advance ∧
      st.pid.toNat = pid ∧ st.nature.toNat = pid % 25 ∧ st.ability.toNat = pid % 2 ∧
      st.abilityIndex.toNat = (if pid % 2 = 0 then info.ability1 else info.ability2).toNat ∧
      st.gender.toNat = specGender pid info.genderRatio.toNat ∧
      st.shiny.toNat = (if (pid / 2 ^ 16) ^^^ (pid % 2 ^ 16) ^^^ g.tsv.toNat = 0 then 2
        else if (pid / 2 ^ 16) ^^^ (pid % 2 ^ 16) ^^^ g.tsv.toNat < 8 then 1 else 0) ∧
      st.species.toNat = slot.species.toNat % 2048 ∧ st.form.toNat = slot.species.toNat / 2048 ∧
      st.level.toNat = levelOf slot (g.lead = Lead.pressure) (after (beforeSlot g + slotDraws g.lead) seed) ∧
      slot.minLevel.toNat ≤ st.level.toNat ∧ st.level.toNat ≤ slot.maxLevel.toNat ∧
      (let w1 := out (n + (if g.method = Method.method2 then 3 else 2)) seed
       let w2 := out (n + (if g.method = Method.method2 then 3 else 2) + (if g.method = Method.method4 then 2 else 1)) seed
       st.ivs.toList.map BitVec.toNat
         = [w1 % 32, w1 / 32 % 32, w1 / 1024 % 32, w2 / 32 % 32, w2 / 1024 % 32, w2 % 32]) := by
  have hs : ¬ skipped g area seed := by
    intro hs
    rw [(generateOne_none g fuel area modified advance seed).2 hs] at h
    cases h
  obtain ⟨slot, info, h1, h2, h3, h4⟩ := generateOne_eq g area wf modified hlen hm seed hs
  rw [h4] at h
  simp only [Res.bind_eq_ok] at h
  obtain ⟨⟨s', p⟩, h5, st', h6, h7⟩ := h
  injection h7 with h7
  injection h7 with h7
  subst h7
  rw [new_eq] at h6
  injection h6 with h6
  obtain ⟨j, hj, hs', hp, hacc, hrej⟩ := (pidSearch_ok _ _ _ _ _).1 h5
  have hsp : slot.species.toNat < 65536 := slot.species.isLt
  have e1 : (slot.species >>> 11).toNat = slot.species.toNat / 2048 := by
    rw [BitVec.toNat_ushiftRight, Nat.shiftRight_eq_div_pow]
  have hacc' := fun q => acceptPid_iff g.lead info (charmed g info seed) (slot.species &&& 0x7FF) (slot.species >>> 11)
    (by rw [e1]; omega) _ (natureOf_lt g.lead (after (beforeNature g area info) seed)) q
  simp only [and_7ff, e1] at hacc'
  rw [pidAt_after] at hp
  rw [after_after] at hs'
  have hn : 2 * j + 1 + beforePid g area info seed = beforePid g area info seed + 2 * j + 1 := by omega
  rw [hn] at hp
  have hpl := pidAt_lt (beforePid g area info seed + 2 * j + 1) seed
  have hpn : p.toNat = pidAt (beforePid g area info seed + 2 * j + 1) seed := by
    rw [hp, BitVec.toNat_ofNat, Nat.mod_eq_of_lt hpl]
  have hand : (p &&& 1).toNat = p.toNat % 2 := by
    rw [BitVec.toNat_and]; exact Nat.and_two_pow_sub_one_eq_mod p.toNat 1
  have hlb := levelOf_bounds slot (wf.levels slot h2) (g.lead = Lead.pressure)
      (after (beforeSlot g + slotDraws g.lead) seed)
  have hml := slot.maxLevel.isLt
  refine ⟨slot, info, j, _, _, rfl, rfl, h2, h1, h3, ?_, ?_, ?_⟩
  · rw [← hpn]; exact (hacc' p).1 hacc
  · intro i hi hw
    have := hrej i hi
    rw [pidAt_after, show 2 * i + 1 + beforePid g area info seed = beforePid g area info seed + 2 * i + 1 by omega] at this
    have h' := (hacc' (BitVec.ofNat 32 (pidAt (beforePid g area info seed + 2 * i + 1) seed))).2
    rw [BitVec.toNat_ofNat, Nat.mod_eq_of_lt (pidAt_lt _ _)] at h'
    rw [h' hw] at this
    cases this
  · subst h6
    have hpp : p.toNat < 2 ^ 32 := p.isLt
    refine ⟨rfl, ?_, ?_, ?_, ?_, ?_, ?_, ?_, ?_, ?_, ?_, ?_, ?_⟩
    · simp only [BitVec.toNat_ofNat]; rw [Nat.mod_eq_of_lt hpp, hpn]
    · simp only [BitVec.toNat_ofNat]; rw [Nat.mod_eq_of_lt hpp, hpn]; omega
    · simp only [BitVec.toNat_ofNat]; rw [hand, hpn]; omega
    · simp only [hand, hpn, BitVec.toNat_setWidth]
      rw [Nat.mod_eq_of_lt]
      have := (if pidAt (beforePid g area info seed + 2 * j + 1) seed % 2 = 0 then info.ability1 else info.ability2).isLt
      omega
    · rw [BitVec.ofNat_toNat, BitVec.setWidth_eq, C48_gender, hpn]
    · have := C49_shiny p g.tsv
      simp only [hpn] at this
      show (getShiny p g.tsv).toNat = _
      rw [this]
      generalize (pidAt (beforePid g area info seed + 2 * j + 1) seed / 2 ^ 16 ^^^
        pidAt (beforePid g area info seed + 2 * j + 1) seed % 2 ^ 16 ^^^ g.tsv.toNat) = x
      by_cases hx : x = 0
      · simp [hx]
      · by_cases hx8 : x < 8 <;> simp [hx, hx8]
    · simp only [BitVec.toNat_ofNat]; omega
    · simp only [BitVec.toNat_ofNat]; omega
    · simp only [BitVec.toNat_ofNat]; omega
    · simp only [BitVec.toNat_ofNat]; omega
    · simp only [BitVec.toNat_ofNat]; omega
    · have := drawIvs_eq g.method s'
      simp only at this ⊢
      rw [this, hs', out_after, out_after]
      have e : (if g.method = Method.method2 then 2 else 1) + (2 * j + 2 + beforePid g area info seed)
          = beforePid g area info seed + 2 * j + 1 + (if g.method = Method.method2 then 3 else 2) := by
        split <;> omega
      have e' : (if g.method = Method.method2 then 2 else 1) + (if g.method = Method.method4 then 2 else 1)
            + (2 * j + 2 + beforePid g area info seed)
          = beforePid g area info seed + 2 * j + 1 + (if g.method = Method.method2 then 3 else 2)
            + (if g.method = Method.method4 then 2 else 1) := by
        split <;> omega
      rw [e, e']

/-! ### C55 -/

theorem filterLoop_mem (table : List Personal) (t : BitVec 8) (l acc m : List Slot3)
    (h : filterLoop table t l acc = .ok m) :
    (∀ s ∈ m, s ∈ acc ∨ s ∈ l) ∧ m.length ≤ acc.length + l.length := by
  induction l generalizing acc with
  | nil => simp only [filterLoop] at h; cases h; simp
  | cons s l ih =>
    rw [filterLoop] at h
    split at h
    · cases h
    · split at h
      · obtain ⟨h1, h2⟩ := ih _ h
        refine ⟨fun x hx => ?_, by simp at h2 ⊢; omega⟩
        have := h1 x hx
        simp only [List.mem_append, List.mem_cons, List.not_mem_nil, or_false] at this ⊢
        tauto
      · obtain ⟨h1, h2⟩ := ih _ h
        refine ⟨fun x hx => ?_, by simp at h2 ⊢; omega⟩
        have := h1 x hx
        simp only [List.mem_cons] at this ⊢
        tauto

/-- The lead's list contains only slots of the encounter's list. -/
theorem modified_mem (area : EncounterArea3) (encounter lead : BitVec 8) (game : BitVec 32) (table : List Personal)
    (m : List Slot3) (h : getModifiedSlots area encounter lead game table = .ok m) :
    (∀ s ∈ m, s ∈ slotList area encounter) ∧ m.length < 65536 := by
  rw [getModifiedSlots] at h
  cases hl : leadType lead game with
  | none => rw [hl] at h; cases h; simp
  | some t =>
    rw [hl] at h
    have fin : ∀ n (v : Vector Slot3 n), n ≤ 12 → slotList area encounter = v.toList →
        filterLoop table t v.toList [] = .ok m → (∀ s ∈ m, s ∈ slotList area encounter) ∧ m.length < 65536 := by
      intro n v hn hv hf
      obtain ⟨h1, h2⟩ := filterLoop_mem table t _ _ m hf
      refine ⟨fun s hs => ?_, ?_⟩
      · rcases h1 s hs with h | h
        · simp at h
        · rw [hv]; exact h
      · simp at h2; omega
    dsimp only at h
    by_cases e6 : encounter = Encounter.oldRod
    · rw [if_pos e6] at h; exact fin _ area.fishOld (by omega) (by rw [e6]; rfl) h
    by_cases e7 : encounter = Encounter.goodRod
    · rw [if_neg e6, if_pos e7] at h; exact fin _ area.fishGood (by omega) (by rw [e7]; rfl) h
    by_cases e8 : encounter = Encounter.superRod
    · rw [if_neg e6, if_neg e7, if_pos e8] at h; exact fin _ area.fishSuper (by omega) (by rw [e8]; rfl) h
    by_cases e3 : encounter = Encounter.rockSmash
    · rw [if_neg e6, if_neg e7, if_neg e8, if_pos e3] at h; exact fin _ area.rock (by omega) (by rw [e3]; rfl) h
    by_cases e4 : encounter = Encounter.surfing
    · rw [if_neg e6, if_neg e7, if_neg e8, if_neg e3, if_pos e4] at h
      exact fin _ area.water (by omega) (by rw [e4]; rfl) h
    rw [if_neg e6, if_neg e7, if_neg e8, if_neg e3, if_neg e4] at h
    exact fin _ area.land (by omega) (slotList_other area encounter e3 e4 e6 e7 e8).1 h

theorem after_zero (seed : BitVec 32) : after 0 seed = seed := rfl

/-- After a skipped advance nothing more is reported: the generator is not stepped, so every later advance repeats the
same failed check. -/
theorem generateLoop_skipped (g : WildGenerator3) (fuel : Nat) (area : EncounterArea3) (modified : List Slot3)
    (n advance : Nat) (seed : BitVec 32) (states : List State) (hs : skipped g area seed) :
    generateLoop g fuel area modified n advance seed states = .ok states := by
  induction n generalizing advance with
  | zero => rfl
  | succ n ih =>
    rw [generateLoop, (generateOne_none g fuel area modified advance seed).2 hs]
    exact ih (advance + 1)

theorem generateLoop_ok (g : WildGenerator3) (fuel : Nat) (area : EncounterArea3) (modified : List Slot3)
    (n advance : Nat) (seed : BitVec 32) (states l : List State) :
    generateLoop g fuel area modified n advance seed states = .ok l ↔
      ∃ l', l = states ++ l' ∧ l'.length ≤ n ∧
        (∀ k (hk : k < l'.length), generateOne g fuel area modified (advance + k) (after k seed) = .ok (some l'[k])) ∧
        (l'.length < n → skipped g area (after l'.length seed)) := by
  induction n generalizing advance seed states with
  | zero =>
    simp only [generateLoop, Nat.le_zero, List.length_eq_zero_iff, Nat.not_lt_zero, false_implies, and_true]
    constructor
    · intro h; cases h; exact ⟨[], by simp⟩
    · rintro ⟨l', h1, rfl, _⟩; simp [h1]
  | succ n ih =>
    by_cases hs : skipped g area seed
    · rw [generateLoop_skipped g fuel area modified (n + 1) advance seed states hs]
      constructor
      · intro h; cases h
        exact ⟨[], by simp, by simp, by simp, fun _ => hs⟩
      · rintro ⟨l', h1, _, h3, _⟩
        cases l' with
        | nil => simp [h1]
        | cons a l' =>
          have := h3 0 (by simp)
          rw [after_zero, (generateOne_none g fuel area modified (advance + 0) seed).2 hs] at this
          cases this
    · have hstep : after 1 seed = next seed := (next_eq seed).symm
      rw [generateLoop]
      cases hone : generateOne g fuel area modified advance seed with
      | err e =>
        simp only [Res.err_bind, reduceCtorEq, false_iff]
        rintro ⟨l', h1, h2, h3, h4⟩
        cases l' with
        | nil => exact hs (h4 (by simp))
        | cons a l' =>
          have := h3 0 (by simp)
          rw [after_zero, Nat.add_zero, hone] at this
          cases this
      | outOfFuel =>
        simp only [Res.outOfFuel_bind, reduceCtorEq, false_iff]
        rintro ⟨l', h1, h2, h3, h4⟩
        cases l' with
        | nil => exact hs (h4 (by simp))
        | cons a l' =>
          have := h3 0 (by simp)
          rw [after_zero, Nat.add_zero, hone] at this
          cases this
      | ok o =>
        cases o with
        | none => exact absurd ((generateOne_none g fuel area modified advance seed).1 hone) hs
        | some st =>
          simp only [Res.ok_bind]
          rw [ih]
          constructor
          · rintro ⟨l', h1, h2, h3, h4⟩
            refine ⟨st :: l', by simp [h1], by simpa using h2, fun k hk => ?_, fun h => ?_⟩
            · cases k with
              | zero => exact hone
              | succ k =>
                have := h3 k (by simpa using hk)
                rw [← hstep, after_after] at this
                rw [show advance + (k + 1) = advance + 1 + k by omega]
                exact this
            · have := h4 (by simpa using h)
              rw [← hstep, after_after] at this
              exact this
          · rintro ⟨l', h1, h2, h3, h4⟩
            cases l' with
            | nil => exact absurd (h4 (by simp)) hs
            | cons a l' =>
              have h0 := h3 0 (by simp)
              rw [after_zero, Nat.add_zero, hone] at h0
              injection h0 with h0
              injection h0 with h0
              subst h0
              refine ⟨l', by simp [h1], by simpa using h2, fun k hk => ?_, fun h => ?_⟩
              · have := h3 (k + 1) (by simpa using hk)
                rw [← hstep, after_after, show advance + 1 + k = advance + (k + 1) by omega]
                exact this
              · have := h4 (by simpa using h)
                rw [← hstep, after_after]
                exact this

theorem jump_eq (n : Nat) (seed : BitVec 32) (hn : n < 2 ^ 32) :
    Lcrng.jump Lcrng.pokeRNGParams n seed = (after n seed, .ok (after n seed)) :=
  Lcrng.C01_jump Lcrng.pokeRNGParams n seed hn

theorem generate_eq (g : WildGenerator3) (fuel : Nat) (seed : BitVec 32) (delay init max : Nat) (area : EncounterArea3)
    (hn : init + delay < 2 ^ 32) :
    generate g fuel seed delay init max area =
      getModifiedSlots area g.encounter g.lead (g.game.setWidth 32) g.table >>= fun modified =>
        generateLoop g fuel area modified max init (after (init + delay) seed) [] := by
  simp only [generate, jump_eq _ seed hn]

/-- C55, exactly what a call returns (for every encounter type): the list has one state per advance from the first on,
the `k`-th being the encounter of advance `init + k`, computed from the generator at `init + delay + k` steps, and it is
only shorter than `max` when the Rock Smash check fails at the advance where it ends. -/
theorem C55_exact (g : WildGenerator3) (fuel : Nat) (seed : BitVec 32) (delay init max : Nat) (area : EncounterArea3)
    (hn : init + delay < 2 ^ 32) (states : List State) :
    generate g fuel seed delay init max area = .ok states ↔
      ∃ modified, getModifiedSlots area g.encounter g.lead (g.game.setWidth 32) g.table = .ok modified ∧
        states.length ≤ max ∧
        (∀ k (hk : k < states.length), generateOne g fuel area modified (init + k) (after (init + delay + k) seed)
          = .ok (some states[k])) ∧
        (states.length < max → skipped g area (after (init + delay + states.length) seed)) := by
  rw [generate_eq g fuel seed delay init max area hn, Res.bind_eq_ok]
  have e : ∀ k, after k (after (init + delay) seed) = after (init + delay + k) seed := fun k => by
    rw [after_after, Nat.add_comm]
  constructor
  · rintro ⟨m, h1, h2⟩
    obtain ⟨l', h3, h4, h5, h6⟩ := (generateLoop_ok _ _ _ _ _ _ _ _ _).1 h2
    simp only [List.nil_append] at h3
    subst h3
    simp only [e] at h5 h6
    exact ⟨m, h1, h4, h5, h6⟩
  · rintro ⟨m, h1, h4, h5, h6⟩
    refine ⟨m, h1, (generateLoop_ok _ _ _ _ _ _ _ _ _).2 ⟨states, rfl, h4, ?_, ?_⟩⟩
    · simp only [e]; exact h5
    · simp only [e]; exact h6

/-- A start of 2^32 advances or more (the sum of two 32-bit arguments is not reduced) is outside the jump table: every call that
gets past the slot filter raises `IndexError`, and no call returns. -/
theorem C55_far (g : WildGenerator3) (fuel : Nat) (seed : BitVec 32) (delay init max : Nat) (area : EncounterArea3)
    (hn : 2 ^ 32 ≤ init + delay) :
    (∀ modified, getModifiedSlots area g.encounter g.lead (g.game.setWidth 32) g.table = .ok modified →
      generate g fuel seed delay init max area = .err .indexError) ∧
    ∀ states, generate g fuel seed delay init max area ≠ .ok states := by
  have h : (Lcrng.jump Lcrng.pokeRNGParams (init + delay) seed).2 = .error .indexError :=
    Lcrng.C01_jump_too_far _ _ _ (by decide) hn
  have key : ∀ modified, getModifiedSlots area g.encounter g.lead (g.game.setWidth 32) g.table = .ok modified →
      generate g fuel seed delay init max area = .err .indexError := by
    intro m hm
    rw [generate, hm, Res.ok_bind]
    generalize Lcrng.jump Lcrng.pokeRNGParams (init + delay) seed = r at h
    obtain ⟨a, b⟩ := r
    simp only at h
    rw [h]
  refine ⟨key, fun states hs => ?_⟩
  cases hm : getModifiedSlots area g.encounter g.lead (g.game.setWidth 32) g.table with
  | ok m => rw [key m hm] at hs; cases hs
  | err e => rw [generate, hm] at hs; cases hs
  | outOfFuel => rw [generate, hm] at hs; cases hs

example : 2 ^ 32 ≤ (0x80000000 : BitVec 32).toNat + (0x80000000 : BitVec 32).toNat := by decide

/-- C55, the part that holds: outside the Rock Smash check of Ruby, Sapphire and Emerald every advance is reported.
Missing: Rock Smash in these games, where the claim is false (`C55_full_false`). -/
theorem C55_partial (g : WildGenerator3) (hg : ¬ rockCheck g) (fuel : Nat) (seed : BitVec 32) (delay init max : Nat)
    (area : EncounterArea3) (hn : init + delay < 2 ^ 32) (states : List State)
    (h : generate g fuel seed delay init max area = .ok states) :
    ∃ modified, getModifiedSlots area g.encounter g.lead (g.game.setWidth 32) g.table = .ok modified ∧
      states.length = max ∧ ∀ k (hk : k < states.length),
        generateOne g fuel area modified (init + k) (after (init + delay + k) seed) = .ok (some states[k]) := by
  obtain ⟨m, h1, h2, h3, h4⟩ := (C55_exact g fuel seed delay init max area hn states).1 h
  refine ⟨m, h1, ?_, h3⟩
  rcases Nat.lt_or_ge states.length max with hlt | hge
  · exact absurd (h4 hlt).1 hg
  · omega

theorem generateLoop_add (g : WildGenerator3) (hg : ¬ rockCheck g) (fuel : Nat) (area : EncounterArea3)
    (modified : List Slot3) (m n advance : Nat) (seed : BitVec 32) (states : List State) :
    generateLoop g fuel area modified (m + n) advance seed states =
      generateLoop g fuel area modified m advance seed [] >>= fun a =>
        generateLoop g fuel area modified n (advance + m) (after m seed) [] >>= fun b => Res.ok (states ++ a ++ b) := by
  have hns : ∀ s, ¬ skipped g area s := fun s hs => hg hs.1
  have happ : ∀ (n advance : Nat) (seed : BitVec 32) (states : List State),
      generateLoop g fuel area modified n advance seed states
        = generateLoop g fuel area modified n advance seed [] >>= fun b => Res.ok (states ++ b) := by
    intro n
    induction n with
    | zero => intro _ _ states; simp [generateLoop]
    | succ n ih =>
      intro advance seed states
      rw [generateLoop, generateLoop]
      cases hone : generateOne g fuel area modified advance seed with
      | err e => rfl
      | outOfFuel => rfl
      | ok o =>
        cases o with
        | none => exact absurd ((generateOne_none g fuel area modified advance seed).1 hone) (hns _)
        | some st =>
          simp only [Res.ok_bind, List.nil_append]
          rw [ih _ _ (states ++ [st]), ih _ _ [st]]
          cases generateLoop g fuel area modified n (advance + 1) (next seed) [] <;> simp
  induction m generalizing advance seed states with
  | zero =>
    rw [Nat.zero_add, happ]
    simp [generateLoop, after_zero]
  | succ m ih =>
    rw [show m + 1 + n = m + n + 1 by omega, generateLoop, generateLoop]
    cases hone : generateOne g fuel area modified advance seed with
    | err e => rfl
    | outOfFuel => rfl
    | ok o =>
      cases o with
      | none => exact absurd ((generateOne_none g fuel area modified advance seed).1 hone) (hns _)
      | some st =>
        simp only [Res.ok_bind, List.nil_append]
        rw [ih, happ m (advance + 1) (next seed) [st]]
        have e : after m (next seed) = after (m + 1) seed := by rw [next_eq, after_after]
        rw [e, show advance + 1 + m = advance + (m + 1) by omega]
        cases generateLoop g fuel area modified m (advance + 1) (next seed) [] with
        | err e => rfl
        | outOfFuel => rfl
        | ok a =>
          simp only [Res.ok_bind]
          cases generateLoop g fuel area modified n (advance + (m + 1)) (after (m + 1) seed) [] <;> simp

/-- C55: a range can be split into two calls (again outside the Rock Smash check); exceptions and non-termination
included. -/
theorem C55_split_partial (g : WildGenerator3) (hg : ¬ rockCheck g) (fuel : Nat) (seed : BitVec 32)
    (delay init m n : Nat) (area : EncounterArea3) (hn : init + delay + m < 2 ^ 32) :
    generate g fuel seed delay init (m + n) area =
      generate g fuel seed delay init m area >>= fun a =>
        generate g fuel seed delay (init + m) n area >>= fun b => Res.ok (a ++ b) := by
  rw [generate_eq _ _ _ _ _ _ _ (by omega), generate_eq _ _ _ _ _ _ _ (by omega), generate_eq _ _ _ _ _ _ _ (by omega)]
  cases getModifiedSlots area g.encounter g.lead (g.game.setWidth 32) g.table with
  | err e => rfl
  | outOfFuel => rfl
  | ok modified =>
    simp only [Res.ok_bind]
    rw [generateLoop_add g hg, after_after, show m + (init + delay) = init + m + delay by omega]
    simp only [List.nil_append]

/-- C55 fails for Rock Smash: once the check fails at one advance, the rest of the range is not reported at all. -/
theorem C55_stops (g : WildGenerator3) (fuel : Nat) (seed : BitVec 32) (delay init max k : Nat) (area : EncounterArea3)
    (hn : init + delay < 2 ^ 32) (hk : k ≤ max) (hs : skipped g area (after (init + delay + k) seed)) (states : List State) :
    generate g fuel seed delay init max area = .ok states ↔ generate g fuel seed delay init k area = .ok states := by
  rw [C55_exact g fuel seed delay init max area hn, C55_exact g fuel seed delay init k area hn]
  constructor
  · rintro ⟨m, h1, h2, h3, h4⟩
    have hle : states.length ≤ k := by
      by_contra hgt
      have := h3 k (by omega)
      rw [(generateOne_none _ _ _ _ _ _).2 hs] at this
      cases this
    exact ⟨m, h1, hle, h3, fun h => h4 (by omega)⟩
  · rintro ⟨m, h1, h2, h3, h4⟩
    refine ⟨m, h1, by omega, h3, fun h => ?_⟩
    rcases Nat.lt_or_ge states.length k with hlt | hge
    · exact h4 hlt
    · have : states.length = k := by omega
      rw [this]; exact hs

/-- C56 for a whole call, all encounter types: every state of the list has the fields of `C56_state`, and a label in the
range. -/
theorem C56_generate (g : WildGenerator3) (fuel : Nat) (area : EncounterArea3) (wf : WellFormed g area) (seed : BitVec 32)
    (delay init max : Nat) (hn : init + delay < 2 ^ 32) (states : List State)
    (h : generate g fuel seed delay init max area = .ok states) (st : State) (hst : st ∈ states) :
    ∃ k < max, st.advance = BitVec.ofNat 32 (init + k) ∧
    ∃ slot ∈ slotList area g.encounter, ∃ info n, g.table[slot.species.toNat % 2048]? = some info ∧
      (let s := after (init + delay + k) seed
       let pid := pidAt n s
       let w1 := out (n + (if g.method = Method.method2 then 3 else 2)) s
       let w2 := out (n + (if g.method = Method.method2 then 3 else 2) + (if g.method = Method.method4 then 2 else 1)) s
       st.pid.toNat = pid ∧ st.nature.toNat = pid % 25 ∧ st.ability.toNat = pid % 2 ∧
       st.gender.toNat = specGender pid info.genderRatio.toNat ∧
       st.shiny.toNat = (if (pid / 2 ^ 16) ^^^ (pid % 2 ^ 16) ^^^ g.tsv.toNat = 0 then 2
        else if (pid / 2 ^ 16) ^^^ (pid % 2 ^ 16) ^^^ g.tsv.toNat < 8 then 1 else 0) ∧
       st.species.toNat = slot.species.toNat % 2048 ∧ st.form.toNat = slot.species.toNat / 2048 ∧
       slot.minLevel.toNat ≤ st.level.toNat ∧ st.level.toNat ≤ slot.maxLevel.toNat ∧
       st.ivs.toList.map BitVec.toNat
         = [w1 % 32, w1 / 32 % 32, w1 / 1024 % 32, w2 / 32 % 32, w2 / 1024 % 32, w2 % 32]) := by
  obtain ⟨m, h1, h2, h3, -⟩ := (C55_exact g fuel seed delay init max area hn states).1 h
  obtain ⟨hm, hlen⟩ := modified_mem _ _ _ _ _ _ h1
  obtain ⟨k, hk, rfl⟩ := List.getElem_of_mem hst
  obtain ⟨slot, info, j, n, pid, rfl, rfl, q1, -, q3, -, -, q4, q5, q6, q7, -, q9, q10, q11, q12, -, q14, q15, q16⟩ :=
    C56_state g fuel area wf m hlen hm _ _ _ (h3 k hk)
  exact ⟨k, by omega, q4, slot, q1, info, _, q3, q5, q6, q7, q9, q10, q11, q12, q14, q15, q16⟩

theorem generateOne_new (g : WildGenerator3) (fuel : Nat) (area : EncounterArea3) (wf : WellFormed g area)
    (modified : List Slot3) (hlen : modified.length < 65536) (hm : ∀ s ∈ modified, s ∈ slotList area g.encounter)
    (advance : Nat) (seed : BitVec 32) (st : State)
    (h : generateOne g fuel area modified advance seed = .ok (some st)) :
    ∃ info, g.table[st.species.toNat]? = some info ∧
      State.new .numba st.advance.toNat st.pid.toNat st.species.toNat st.form.toNat st.ivs st.ability.toNat st.level st.shiny
        info = .ok st := by
  have hs : ¬ skipped g area seed := by
    intro hs
    rw [(generateOne_none g fuel area modified advance seed).2 hs] at h
    cases h
  obtain ⟨slot, info, h1, h2, h3, h4⟩ := generateOne_eq g area wf modified hlen hm seed hs
  rw [h4] at h
  simp only [Res.bind_eq_ok] at h
  obtain ⟨⟨s', p⟩, h5, st', h6, h7⟩ := h
  injection h7 with h7
  injection h7 with h7
  subst h7
  have h6' : State.new .numba advance p.toNat (slot.species.toNat % 2048) (slot.species.toNat / 2048)
      (drawIvs g.method s') (p &&& 1).toNat
      (BitVec.ofNat 8 (levelOf slot (g.lead = Lead.pressure) (after (beforeSlot g + slotDraws g.lead) seed)))
      (getShiny p g.tsv) info = .ok st' := by
    cases hx : State.new .numba advance p.toNat (slot.species.toNat % 2048) (slot.species.toNat / 2048)
      (drawIvs g.method s') (p &&& 1).toNat
      (BitVec.ofNat 8 (levelOf slot (g.lead = Lead.pressure) (after (beforeSlot g + slotDraws g.lead) seed)))
      (getShiny p g.tsv) info with
    | error e => rw [hx] at h6; cases h6
    | ok x => rw [hx] at h6; injection h6 with h6; rw [h6]
  have hsp : st'.species.toNat = slot.species.toNat % 2048 := by
    have h6 := h6'
    rw [new_eq] at h6
    cases h6
    simp only [BitVec.toNat_ofNat]
    omega
  refine ⟨info, by rw [hsp]; exact h3, new_again _ _ _ _ _ _ _ ?_ _ _ _ _ h6'⟩
  have : (p &&& 1).toNat = p.toNat % 2 := by
    rw [BitVec.toNat_and]; exact Nat.and_two_pow_sub_one_eq_mod p.toNat 1
  omega

/-- C56: every state of the list is the one created from its own PID, IVs, level etc. and the personal entry of its species;
so C60 and C61 give its stats, Hidden Power and characteristic. -/
theorem C56_created (g : WildGenerator3) (fuel : Nat) (area : EncounterArea3) (wf : WellFormed g area) (seed : BitVec 32)
    (delay init max : Nat) (hn : init + delay < 2 ^ 32) (states : List State)
    (h : generate g fuel seed delay init max area = .ok states) (st : State) (hst : st ∈ states) :
    ∃ info, g.table[st.species.toNat]? = some info ∧
      State.new .numba st.advance.toNat st.pid.toNat st.species.toNat st.form.toNat st.ivs st.ability.toNat st.level st.shiny
        info = .ok st := by
  obtain ⟨m, h1, h2, h3, -⟩ := (C55_exact g fuel seed delay init max area hn states).1 h
  obtain ⟨hm, hlen⟩ := modified_mem _ _ _ _ _ _ h1
  obtain ⟨k, hk, rfl⟩ := List.getElem_of_mem hst
  exact generateOne_new g fuel area wf m hlen hm _ _ _ (h3 k hk)

/-- C56 in terms of the arguments of the constructor: a state is shiny according to its PID and the trainer's ids. -/
theorem C56_run (t : Tables) (method encounter lead : BitVec 8) (game : BitVec 32) (tid sid : BitVec 16) (fuel : Nat)
    (area : EncounterArea3) (wf : WellFormed (WildGenerator3.new t method encounter lead game tid sid) area)
    (seed : BitVec 32) (delay init max : Nat) (hn : init + delay < 2 ^ 32) (states : List State)
    (h : run .numba t method encounter lead game tid sid fuel seed delay init max area = .ok states)
    (st : State) (hst : st ∈ states) :
    (∃ k < max, st.advance = BitVec.ofNat 32 (init + k) ∧ ∃ n,
      let s := after (init + delay + k) seed
      let w1 := out (n + (if method = Method.method2 then 3 else 2)) s
      let w2 := out (n + (if method = Method.method2 then 3 else 2) + (if method = Method.method4 then 2 else 1)) s
      st.pid.toNat = pidAt n s ∧ st.ivs.toList.map BitVec.toNat
        = [w1 % 32, w1 / 32 % 32, w1 / 1024 % 32, w2 / 32 % 32, w2 / 1024 % 32, w2 % 32]) ∧
    (∃ slot ∈ slotList area encounter, st.species.toNat = slot.species.toNat % 2048 ∧
      st.form.toNat = slot.species.toNat / 2048 ∧
      slot.minLevel.toNat ≤ st.level.toNat ∧ st.level.toNat ≤ slot.maxLevel.toNat) ∧
    st.nature.toNat = st.pid.toNat % 25 ∧ st.ability.toNat = st.pid.toNat % 2 ∧
    (let x := (st.pid.toNat / 2 ^ 16) ^^^ (st.pid.toNat % 2 ^ 16) ^^^ tid.toNat ^^^ sid.toNat
     st.shiny.toNat = if x = 0 then 2 else if x < 8 then 1 else 0) := by
  obtain ⟨k, hk, ha, slot, hs, info, n, hi, h1, h2, h3, h4, h5, h6, h7, h8, h9, h10⟩ :=
    C56_generate (WildGenerator3.new t method encounter lead game tid sid) fuel area wf seed delay init max hn states h st hst
  have htsv : (WildGenerator3.new t method encounter lead game tid sid).tsv.toNat = tid.toNat ^^^ sid.toNat :=
    BitVec.toNat_xor _ _
  rw [htsv] at h5
  refine ⟨⟨k, hk, ha, n, h1, h10⟩, ⟨slot, hs, h6, h7, h8, h9⟩, by rw [h1]; exact h2, by rw [h1]; exact h3, ?_⟩
  rw [h1]
  simp only [Nat.xor_assoc] at h5 ⊢
  exact h5

/-! ### C59 -/

/-- C59: outside Emerald the constructed generator, hence the whole run, does not depend on the lead (for every game
value whose low byte does not contain the Emerald bit). -/
theorem C59_lead (mode : Mode) (t : Tables) (method encounter lead lead' : BitVec 8) (game : BitVec 32)
    (tid sid : BitVec 16) (fuel : Nat) (seed : BitVec 32) (delay init max : Nat) (area : EncounterArea3)
    (h : game.toNat / 4 % 2 = 0) :
    run mode t method encounter lead game tid sid fuel seed delay init max area
      = run mode t method encounter lead' game tid sid fuel seed delay init max area := by
  have hb : Game.has ((game.setWidth 8).setWidth 32) Game.emerald = false := by
    have e : (game.setWidth 8).setWidth 32 &&& Game.emerald = 0 := by
      apply BitVec.eq_of_getLsbD_eq
      intro i hi
      have hg : game.getLsbD 2 = false := by
        rw [BitVec.getLsbD, Nat.testBit_eq_decide_div_mod_eq]; simp; omega
      have hem : ∀ i < 32, Game.emerald.getLsbD i = decide (i = 2) := by decide
      rw [BitVec.getLsbD_and, hem i hi, BitVec.getLsbD_setWidth, BitVec.getLsbD_setWidth]
      by_cases h2 : i = 2
      · subst h2; rw [hg]; simp
      · simp [h2]
    simp [Game.has, e]
  have : ∀ l, WildGenerator3.new t method encounter l game tid sid
      = WildGenerator3.new t method encounter Lead.none game tid sid := by
    intro l
    simp only [WildGenerator3.new, hb]
    rfl
  unfold run
  rw [this lead, this lead']

example : Game.ruby.toNat / 4 % 2 = 0 ∧ Game.sapphire.toNat / 4 % 2 = 0 ∧ Game.fireRed.toNat / 4 % 2 = 0 ∧
    Game.leafGreen.toNat / 4 % 2 = 0 := by decide

/-- In Emerald the lead does matter. -/
theorem C59_emerald (t : Tables) (method encounter : BitVec 8) (tid sid : BitVec 16) (lead : BitVec 8) :
    (WildGenerator3.new t method encounter lead Game.emerald tid sid).lead = lead := rfl

end Verif.Gen3
