import Verif.Py.CalcSlot
import Verif.Props.CalcSlotLa
import Verif.Props.ShippedLa
/-
C133 for `EncounterAreaLA.calc_slot` (see `Verif/Props/SourceText.lean`), compiled code only.
-/
namespace Verif.Py
open Verif EncLoadLa CalcSlotLa ShippedLa ShippedLaSpec

/-- C133: `calc_slot` returns the slot the model chooses, or raises on an empty table as the model does, and changes nothing. `time` and
`weather` may have any integer type, `rand` is a `float32` or a double; the products exist (indices in range, finite multipliers). -/
theorem C133_calc_slot (fuel depth : Nat) (hd : 2 ≤ depth) (slots : List SlotLA) (ps : List ℚ) (time weather : Nat) (tv wv rv : Val) (rand : ℚ)
    (ht : toInt tv = some (time : Int)) (hw : toInt wv = some (weather : Int)) (hr : rv = .f32 rand ∨ rv = .flt rand)
    (hps : probabilities time weather slots = .ok ps) (hn : slots.length < 2 ^ 63) (w : World)
    (hf : get "slots" w.fields = some (.tup (slots.map CalcSlot.slotVal))) :
    run CalcSlot.prog .numba fuel depth "calc_slot" [rv, tv, wv] w = ((calcSlot .numba slots rand time weather).map CalcSlot.slotVal, w) :=
  CalcSlot.call_calc_slot fuel depth hd slots ps time weather tv wv rv rand ht hw hr hps hn w hf

/-- the text on slots of weight 30, 0 and 70: 1/4 gives the first, 5/16 the third -/
example : run CalcSlot.prog .numba 0 2 "calc_slot" [.f32 (1 / 4), literal .numba 0, literal .numba 0]
      ⟨[], [("slots", .tup (goodSlots.map CalcSlot.slotVal))], []⟩
      = (.ok (CalcSlot.slotVal (slotOf 1 30#32)), ⟨[], [("slots", .tup (goodSlots.map CalcSlot.slotVal))], []⟩)
    ∧ run CalcSlot.prog .numba 0 2 "calc_slot" [.f32 (5 / 16), literal .numba 0, literal .numba 0]
      ⟨[], [("slots", .tup (goodSlots.map CalcSlot.slotVal))], []⟩
      = (.ok (CalcSlot.slotVal (slotOf 3 70#32)), ⟨[], [("slots", .tup (goodSlots.map CalcSlot.slotVal))], []⟩) := by
  have hp : ∃ ps, probabilities 0 0 goodSlots = .ok ps := by
    have h : (probabilities 0 0 goodSlots).toOption.isSome = true := by decide +kernel
    cases e : probabilities 0 0 goodSlots with
    | error x => rw [e] at h; cases h
    | ok ps => exact ⟨ps, rfl⟩
  obtain ⟨ps, hp⟩ := hp
  have h1 : calcSlot .numba goodSlots (1 / 4) 0 0 = .ok (slotOf 1 30#32) := by decide +kernel
  have h3 : calcSlot .numba goodSlots (5 / 16) 0 0 = .ok (slotOf 3 70#32) := by decide +kernel
  constructor
  · rw [C133_calc_slot 0 2 (by decide) goodSlots ps 0 0 _ _ _ (1 / 4) rfl rfl (.inl rfl) hp (by decide) _ rfl, h1]
    rfl
  · rw [C133_calc_slot 0 2 (by decide) goodSlots ps 0 0 _ _ _ (5 / 16) rfl rfl (.inl rfl) hp (by decide) _ rfl, h3]
    rfl

/-- C133 with C106: on every shipped table, at every time and weather at which some slot can appear, and for every `float32` number `r`
in `[0, 1)`, the text of `calc_slot` returns the slot whose interval of the exact weights contains `r`. -/
theorem C133_calc_slot_shipped (area : Nat) (h : 1 ≤ area ∧ area ≤ 5) (L : List (BitVec 64 × List SlotLA)) (hL : encounterTables area = .ok L)
    (t : BitVec 64 × List SlotLA) (ht : t ∈ L) (time weather : Nat) (h4 : time < 4) (h9 : weather < 9) (hd : ¬ Dead area t.1.toNat time weather)
    (fuel depth : Nat) (hdep : 2 ≤ depth) (tv wv : Val) (htv : toInt tv = some (time : Int)) (hwv : toInt wv = some (weather : Int)) (w : World)
    (hf : get "slots" w.fields = some (.tup (t.2.map CalcSlot.slotVal))) :
    ∃ ws, List.Forall₂ (Weight time weather) t.2 ws ∧ 0 < ws.sum ∧ ∀ r, Fp.IsFp 24 r → 0 ≤ r → r < 1 →
      ∃ i, ∃ h : i < t.2.length, run CalcSlot.prog .numba fuel depth "calc_slot" [.f32 r, tv, wv] w = (.ok (CalcSlot.slotVal t.2[i]), w) ∧
        (ws.take i).sum ≤ r * ws.sum ∧ r * ws.sum < (ws.take (i + 1)).sum := by
  obtain ⟨ws, h1, h2, h3⟩ := C106_exact_partial area h L hL t ht time weather h4 h9 hd
  obtain ⟨L', hL', -, -, hlen⟩ := C104_loads area h
  obtain rfl : L = L' := by rw [hL] at hL'; exact Except.ok.inj hL'
  refine ⟨ws, h1, h2, fun r r1 r2 r3 => ?_⟩
  obtain ⟨i, hi, e, e1, e2⟩ := h3 r r1 r2 r3
  refine ⟨i, hi, ?_, e1, e2⟩
  cases hp : probabilities time weather t.2 with
  | error x => simp [calcSlot, hp] at e
  | ok ps =>
    rw [C133_calc_slot fuel depth hdep t.2 ps time weather tv wv _ r htv hwv (.inl rfl) hp (lt_of_le_of_lt (hlen t ht).2.1 (by norm_num)) w hf, e]
    rfl

/-- there is such a table: one of area 1 at dawn in sunny weather -/
example : ∃ L, encounterTables 1 = .ok L ∧ ∃ t ∈ L, ¬ Dead 1 t.1.toNat 0 1
    ∧ ∃ i, ∃ h : i < t.2.length, run CalcSlot.prog .numba 0 2 "calc_slot" [.f32 (1 / 2), literal .numba 0, literal .numba 1]
      ⟨[], [("slots", .tup (t.2.map CalcSlot.slotVal))], []⟩
      = (.ok (CalcSlot.slotVal t.2[i]), ⟨[], [("slots", .tup (t.2.map CalcSlot.slotVal))], []⟩) := by
  obtain ⟨L, h1, t, ht, hd⟩ := exists_alive
  obtain ⟨ws, -, -, h3⟩ := C133_calc_slot_shipped 1 (by omega) L h1 t ht 0 1 (by omega) (by omega) hd 0 2 (by omega) (literal .numba 0) (literal .numba 1)
    rfl rfl ⟨[], [("slots", .tup (t.2.map CalcSlot.slotVal))], []⟩ rfl
  obtain ⟨i, hi, e, -, -⟩ := h3 (1 / 2) ⟨1, -1, by norm_num, by norm_num⟩ (by norm_num) (by norm_num)
  exact ⟨L, h1, t, ht, hd, i, hi, e⟩

end Verif.Py
