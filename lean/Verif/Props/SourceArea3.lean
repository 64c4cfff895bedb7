import Verif.Py.Area3Slots
/-
C133 for gen3/encounter_area_3.py (see `Verif/Props/SourceText.lean`), compiled code only.
-/
namespace Verif.Py
open Verif Lcrng Gen3

/-- C133: `calculate_hslot` and `calculate_hslot_lead`. The generator is the object `x`; it is left with the model's seed. The encounter
type and the lead may be given by any values that stand for the numbers. -/
theorem C133_area3_slots (F D fuel depth : Nat) (hD : 3 ≤ D) (hd : 3 ≤ depth) (area : EncounterArea3) (x : String) (s : BitVec 32) (v u : Val)
    (e k : BitVec 8) (hv : toInt v = some (e.toNat : Int)) (hu : toInt u = some (k.toNat : Int)) (w : World)
    (hx : get x w.arrays = some (Area3.rngArr s)) :
    Area3.Gives w x Area3.slotVal (calculateHslot area e s)
        (run (Area3.prog F D) .numba fuel depth "calculate_hslot" [Area3.areaVal area, .arr x, v] w)
      ∧ ∀ slots : List Slot3, slots.length < 2 ^ 16 → Area3.Gives w x Area3.slotVal (calculateHslotLead area e k slots s)
        (run (Area3.prog F D) .numba fuel depth "calculate_hslot_lead" [Area3.areaVal area, .arr x, v, u, Area3.slotsVal slots] w) :=
  ⟨Area3.call_hslot hD (by omega) area x s v e hv w hx, fun slots hs => Area3.call_hslot_lead hD hd area x s v u e k slots hv hu hs w hx⟩

/-- C133: `calculate_level`. The result is the number of the model, of some type (see `Verif/Py/Area3Level.lean`); the local variables of
the caller are as they were. -/
theorem C133_area3_level (F D fuel depth : Nat) (hD : 3 ≤ D) (hd : 2 ≤ depth) (slot : Slot3) (x : String) (s : BitVec 32) (pressure : Bool) (w : World)
    (hx : get x w.arrays = some (Area3.rngArr s)) :
    Area3.GivesNat w x (calculateLevel slot pressure s)
        (run (Area3.prog F D) .numba fuel depth "calculate_level" [Area3.slotVal slot, .arr x, .bool pressure] w)
      ∧ (run (Area3.prog F D) .numba fuel depth "calculate_level" [Area3.slotVal slot, .arr x, .bool pressure] w).2.locals = w.locals :=
  Area3.call_level hD hd slot x s pressure w hx

/-- C133: `get_modified_slots`, `is_rse_safari_zone` and `get_encounter_rate` change nothing and return the values of the model, or raise
its error. -/
theorem C133_area3_tables (F D fuel depth : Nat) (hD : 3 ≤ D) (hd : 2 ≤ depth) (area : EncounterArea3) (v u gv : Val) (e k : BitVec 8) (g : BitVec 32)
    (table : List Personal) (hv : toInt v = some (e.toNat : Int)) (hu : toInt u = some (k.toNat : Int)) (hg : Area3.IsGame gv g) (w : World) :
    run (Area3.prog F D) .numba fuel depth "get_modified_slots" [Area3.areaVal area, v, u, gv, Area3.tableOfInfo table] w
        = (Area3.excOf Area3.slotsVal (getModifiedSlots area e k g table), w)
      ∧ run (Area3.prog F D) .numba fuel depth "is_rse_safari_zone" [Area3.areaVal area, gv] w = (.ok (.bool (isRseSafariZone area g)), w)
      ∧ run (Area3.prog F D) .numba fuel depth "get_encounter_rate" [Area3.areaVal area, v] w = (.ok (.sc false 8 (getEncounterRate area e)), w) :=
  ⟨Area3.call_modified hD hd area v u gv e k g table hv hu hg w, Area3.call_safari hD hd area gv g hg w, Area3.call_rate hD hd area v e hv w⟩

/-- the generator `rng`, with a seed -/
def rngWorld (s : BitVec 32) : World := ⟨[], [], [("rng", Area3.rngArr s)]⟩

example (s : BitVec 32) : get "rng" (rngWorld s).arrays = some (Area3.rngArr s) := rfl
/-- a member of an enumeration, and a `uint8` -/
example : toInt (literal .numba 6) = some (Encounter.oldRod.toNat : Int) ∧ toInt (.sc false 8 Lead.static) = some (Lead.static.toNat : Int) := by decide
/-- a game as a constant, as a `uint32` and as a `uint64` -/
example (g : BitVec 32) : Area3.IsGame (literal .numba g.toNat) g ∧ Area3.IsGame (.sc false 32 g) g ∧ Area3.IsGame (.sc false 64 (g.setWidth 64)) g := by
  refine ⟨⟨true, 64, _, rfl, ?_⟩, ⟨false, 32, g, rfl, rfl⟩, ⟨false, 64, _, rfl, ?_⟩⟩
  · apply BitVec.eq_of_toNat_eq
    simp [conv]
  · simp [conv]

/-- levels 20 to 24 with Pressure: the text returns 21 for this seed, the number drawn less one, after two draws -/
example : ∃ v w', run (Area3.prog 0 3) .numba 0 2 "calculate_level" [Area3.slotVal ⟨20, 24, 25⟩, .arr "rng", .bool true] (rngWorld 0xC) = (.ok v, w')
    ∧ toInt v = some 21 ∧ get "rng" w'.arrays = some (Area3.rngArr 0x091DB856) := by
  obtain ⟨h, -⟩ := C133_area3_level 0 3 0 2 (by decide) (by decide) ⟨20, 24, 25⟩ "rng" 0xC true (rngWorld 0xC) rfl
  rw [show calculateLevel ⟨20, 24, 25⟩ true 0xC = .ok (0x091DB856, 21) by decide +kernel] at h
  obtain ⟨v, h1, h2, -, h4⟩ := h
  generalize run (Area3.prog 0 3) .numba 0 2 "calculate_level" [Area3.slotVal ⟨20, 24, 25⟩, .arr "rng", .bool true] (rngWorld 0xC) = o at h2 h4
  obtain ⟨q, w'⟩ := o
  exact ⟨v, w', by rw [show q = .ok v from h2], h1, by rw [show w'.arrays = _ from h4]; rfl⟩

end Verif.Py
