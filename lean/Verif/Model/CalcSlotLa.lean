import Verif.Model.EncLoadLa
import Verif.Model.Fp
import Verif.Spec.Float32
/-
Model of data/encounter/encounter_area_la.py:33-55 (`EncounterAreaLA.calc_slot`).

With numba the weights are float64: uint32 * float32 gives float64, so does float64 * float32, and `np.sum` adds the
elements in order. All values are multiples of 2^-447 below 2^320, hence never subnormal or infinite. `rand` is a
float32 or float64 number. Infinite and NaN multipliers are not modelled (`.other`). numba does not check the indices
`time` and `weather` (`indexError` here). An empty table leaves `i` unset (`.other`).

Without numba `self.slots` is a plain structured array (line 41), which has no attribute `base_probability`.
-/
namespace Verif.CalcSlotLa
open EncLoadLa Fp

/-- one element of `probabilities`, `encounter_area_la.py:45-49` -/
def probability (slot : SlotLA) (time weather : Nat) : Except PyErr ℚ :=
  match slot.timeMultipliers[time]?, slot.weatherMultipliers[weather]? with
  | some t, some w =>
    match f32Value t, f32Value w with
    | some t, some w => .ok (rnd 53 (rnd 53 (slot.baseProbability.toNat * t) * w))
    | _, _ => .error .other
  | _, _ => .error .indexError

/-- `probabilities` -/
def probabilities (time weather : Nat) : List SlotLA → Except PyErr (List ℚ)
  | [] => .ok []
  | s :: ss => do
    let p ← probability s time weather
    pure (p :: (← probabilities time weather ss))

/-- `np.sum` -/
def total (ps : List ℚ) : ℚ := ps.foldl (fun c p => rnd 53 (c + p)) 0

/-- the loop, `encounter_area_la.py:51-54`: the value of `i` after it -/
def pick : Nat → ℚ → List ℚ → Nat
  | i, _, [] => i - 1
  | i, s, p :: ps => if s < p then i else pick (i + 1) (rnd 53 (s - p)) ps

/-- the index chosen, `encounter_area_la.py:50-54` -/
def choose (rand : ℚ) (ps : List ℚ) : Nat := pick 0 (rnd 53 (rand * total ps)) ps

/-- `EncounterAreaLA.calc_slot`, `encounter_area_la.py:43-55` -/
def calcSlot (mode : Mode) (slots : List SlotLA) (rand : ℚ) (time weather : Nat) : Except PyErr SlotLA :=
  match mode with
  | .numpy => .error .attributeError
  | .numba =>
    match probabilities time weather slots with
    | .error e => .error e
    | .ok ps =>
      match slots[choose rand ps]? with
      | none => .error .other
      | some s => .ok s

end Verif.CalcSlotLa
