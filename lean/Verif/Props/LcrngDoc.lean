import Verif.Props.Lcrng
/-
C121: the distributions the documentation of the shipped classes names.
-/
namespace Verif.Lcrng
open Spec

/-- the distributions the documentation names -/
inductive Documented where
  | modulo
  | reciprocalDivision
  | multiplicationShift

/-- the value it gives for a draw of `bits` bits -/
def Documented.value : Documented → (bits draw maximum : Nat) → Nat
  | .modulo, _, u, m => u % m
  | .reciprocalDivision, bits, u, m => u / ((2 ^ bits - 1) / m + 1)
  | .multiplicationShift, bits, u, m => u * m / 2 ^ bits

/-- the docstrings of `lcrng/__init__.py` (and the table in the README) -/
def documented : String → Option Documented
  | "PokeRNGMod" | "PokeRNGRMod" => some .modulo
  | "PokeRNGDiv" | "PokeRNGRDiv" => some .reciprocalDivision
  | "ARNG" | "ARNGR" => some .modulo
  | "XDRNG" | "XDRNGR" => some .modulo
  | "BWRNG" | "BWRNGR" => some .multiplicationShift
  | _ => none

/-- the generator of a shipped class: multiplier and increment of the forward class -/
def multAdd : String → Nat × Nat
  | "PokeRNGMod" | "PokeRNGRMod" | "PokeRNGDiv" | "PokeRNGRDiv" => (0x41C64E6D, 0x6073)
  | "ARNG" | "ARNGR" => (0x6C078965, 1)
  | "XDRNG" | "XDRNGR" => (0x343FD, 0x269EC3)
  | _ => (0x5D588B656C078965, 0x269EC3)

/-- the reversed classes -/
def reversed : List String := ["PokeRNGRMod", "PokeRNGRDiv", "ARNGR", "XDRNGR", "BWRNGR"]

/-- `y` is the state after `x`: the step of the forward class, or back -/
def Step (name : String) (x y : BitVec w) : Prop :=
  if name ∈ reversed then lcg w (multAdd name).1 (multAdd name).2 y = x else lcg w (multAdd name).1 (multAdd name).2 x = y

/-- A call of `next_rand(maximum)` of the class of this name goes to the next state and returns the documented value of its high
bits. -/
def Draws32 (name : String) (c : ClassDecl 32) (d : Dist32) : Prop :=
  ∃ e p, documented name = some e ∧ c.params = .ok p ∧ ∀ (mode : Mode) (maximum : BitVec 16) (seed : BitVec 32), 2 ≤ maximum.toNat →
    ∃ r, (nextRand32 mode p d maximum seed).2 = .ok r ∧ Step name seed (nextRand32 mode p d maximum seed).1 ∧
      r.toNat = e.value 16 ((nextRand32 mode p d maximum seed).1.toNat / 2 ^ 16) maximum.toNat

/-- the same for the 64-bit classes -/
def Draws64 (name : String) (c : ClassDecl 64) (d : Dist64) : Prop :=
  ∃ e p, documented name = some e ∧ c.params = .ok p ∧ ∀ (maximum : BitVec 32) (seed : BitVec 64),
    ∃ r, (nextRand64 p d maximum seed).2 = .ok r ∧ Step name seed (nextRand64 p d maximum seed).1 ∧
      r.toNat = e.value 32 ((nextRand64 p d maximum seed).1.toNat / 2 ^ 32) maximum.toNat

/-- Full C121: every shipped class draws as documented. False for ARNG and ARNGR. -/
def C121_full : Prop := (∀ x ∈ distOf, Draws32 x.1 x.2.1 x.2.2) ∧ ∀ x ∈ distOf64, Draws64 x.1 x.2.1 x.2.2

private theorem step_forward (name : String) (p : Params w) (h : name ∉ reversed) (ha : p.mult.toNat = (multAdd name).1)
    (hb : p.add.toNat = (multAdd name).2) (x : BitVec w) : Step name x (lcg w p.mult.toNat p.add.toNat x) := by
  rw [Step, if_neg h, ha, hb]

private theorem step_reversed (name : String) (c : ClassDecl w) (p : Params w) (h : name ∈ reversed) (hr : c.reverse = true)
    (hp : c.params = .ok p) (hodd : c.mult.toNat % 2 = 1) (ha : c.mult.toNat = (multAdd name).1) (hb : c.add.toNat = (multAdd name).2)
    (x : BitVec w) : Step name x (lcg w p.mult.toNat p.add.toNat x) := by
  rw [Step, if_pos h, ← ha, ← hb]
  obtain ⟨q, hq, _, h2⟩ := C04_reverse_next c.add c.mult hodd
  rw [ClassDecl.params, hr, hq] at hp
  cases hp
  have := h2 x
  rwa [next_eq_lcg p] at this

private theorem step_class (name : String) (c : ClassDecl w) (h : c.reverse = decide (name ∈ reversed))
    (hodd : c.mult.toNat % 2 = 1) (ha : c.mult.toNat = (multAdd name).1) (hb : c.add.toNat = (multAdd name).2) :
    ∃ p, c.params = .ok p ∧ ∀ x : BitVec w, Step name x (lcg w p.mult.toNat p.add.toNat x) := by
  cases hr : c.reverse with
  | false =>
    refine ⟨{ add := c.add, mult := c.mult }, by simp [ClassDecl.params, init, hr], ?_⟩
    exact step_forward name _ (by rw [hr] at h; exact of_decide_eq_false h.symm) ha hb
  | true =>
    obtain ⟨q, hq, _⟩ := C04_reverse_next c.add c.mult hodd
    have hp : c.params = .ok q := by rw [ClassDecl.params, hr, hq]
    exact ⟨q, hp, step_reversed name c q (by rw [hr] at h; exact of_decide_eq_true h.symm) hr hp hodd ha hb⟩

private theorem draws_modulo (name : String) (c : ClassDecl 32) (h : c.reverse = decide (name ∈ reversed))
    (hodd : c.mult.toNat % 2 = 1) (ha : c.mult.toNat = (multAdd name).1) (hb : c.add.toNat = (multAdd name).2)
    (hd : documented name = some .modulo) : Draws32 name c .modulo := by
  obtain ⟨p, hp, hs⟩ := step_class name c h hodd ha hb
  refine ⟨_, p, hd, hp, fun mode maximum seed hm => ?_⟩
  obtain ⟨r, h1, h2, _⟩ := C06_modulo mode p maximum seed (by rintro rfl; simp at hm)
  rw [h1]
  exact ⟨r, rfl, hs seed, h2⟩

private theorem draws_reciprocal (name : String) (c : ClassDecl 32) (h : c.reverse = decide (name ∈ reversed))
    (hodd : c.mult.toNat % 2 = 1) (ha : c.mult.toNat = (multAdd name).1) (hb : c.add.toNat = (multAdd name).2)
    (hd : documented name = some .reciprocalDivision) : Draws32 name c .reciprocalDivision := by
  obtain ⟨p, hp, hs⟩ := step_class name c h hodd ha hb
  refine ⟨_, p, hd, hp, fun mode maximum seed hm => ?_⟩
  obtain ⟨r, h1, h2, _⟩ := C07_reciprocal_partial mode p maximum seed hm
  rw [h1]
  exact ⟨r, rfl, hs seed, h2⟩

private theorem draws_shift (name : String) (c : ClassDecl 64) (h : c.reverse = decide (name ∈ reversed))
    (hodd : c.mult.toNat % 2 = 1) (ha : c.mult.toNat = (multAdd name).1) (hb : c.add.toNat = (multAdd name).2)
    (hd : documented name = some .multiplicationShift) : Draws64 name c .multiplicationShift := by
  obtain ⟨p, hp, hs⟩ := step_class name c h hodd ha hb
  refine ⟨_, p, hd, hp, fun maximum seed => ?_⟩
  obtain ⟨r, h1, h2, _⟩ := C08_mul_shift p maximum seed
  rw [h1]
  exact ⟨r, rfl, hs seed, h2⟩

/-- C121 for all the classes but ARNG and ARNGR. -/
theorem C121_draws_partial :
    (∀ x ∈ distOf, x.1 ≠ "ARNG" → x.1 ≠ "ARNGR" → Draws32 x.1 x.2.1 x.2.2) ∧
    (∀ x ∈ distOf64, Draws64 x.1 x.2.1 x.2.2) ∧
    distOf.map Prod.fst ++ distOf64.map Prod.fst =
      ["PokeRNGMod", "PokeRNGDiv", "PokeRNGRMod", "PokeRNGRDiv", "ARNG", "ARNGR", "XDRNG", "XDRNGR", "BWRNG", "BWRNGR"] := by
  refine ⟨?_, ?_, by decide⟩
  · intro x hx h1 h2
    simp only [distOf, List.mem_cons, List.not_mem_nil, or_false] at hx
    rcases hx with rfl | rfl | rfl | rfl | rfl | rfl | rfl | rfl
    · exact draws_modulo _ _ (by decide) (by decide) (by decide) (by decide) rfl
    · exact draws_reciprocal _ _ (by decide) (by decide) (by decide) (by decide) rfl
    · exact draws_modulo _ _ (by decide) (by decide) (by decide) (by decide) rfl
    · exact draws_reciprocal _ _ (by decide) (by decide) (by decide) (by decide) rfl
    · exact absurd rfl h1
    · exact absurd rfl h2
    · exact draws_modulo _ _ (by decide) (by decide) (by decide) (by decide) rfl
    · exact draws_modulo _ _ (by decide) (by decide) (by decide) (by decide) rfl
  · intro x hx
    simp only [distOf64, List.mem_cons, List.not_mem_nil, or_false] at hx
    rcases hx with rfl | rfl
    · exact draws_shift _ _ (by decide) (by decide) (by decide) (by decide) rfl
    · exact draws_shift _ _ (by decide) (by decide) (by decide) (by decide) rfl

/-- ARNG and ARNGR are made without a distribution: every call of `next_rand` raises and leaves the state as it was. -/
theorem C121_arng : ∀ x ∈ distOf, x.1 = "ARNG" ∨ x.1 = "ARNGR" → ∀ (mode : Mode) (p : Params 32) (maximum : BitVec 16)
    (seed : BitVec 32), nextRand32 mode p x.2.2 maximum seed = (seed, .error .notImplemented) := by
  intro x hx h
  simp only [distOf, List.mem_cons, List.not_mem_nil, or_false] at hx
  rcases hx with rfl | rfl | rfl | rfl | rfl | rfl | rfl | rfl
  case inr.inr.inr.inr.inl => intros; rfl
  case inr.inr.inr.inr.inr.inl => intros; rfl
  all_goals exact absurd h (by decide)

theorem C121_full_false : ¬ C121_full := fun h => by
  obtain ⟨e, p, _, _, h⟩ := h.1 ("ARNG", arng, .none) (by simp [distOf])
  obtain ⟨r, hr, _⟩ := h .numba 2 0 (by decide)
  cases hr

example : ("XDRNGR", xdrngR, Dist32.modulo) ∈ distOf ∧ "XDRNGR" ≠ "ARNG" ∧ "XDRNGR" ≠ "ARNGR" := by
  refine ⟨by simp [distOf], by decide, by decide⟩

end Verif.Lcrng
