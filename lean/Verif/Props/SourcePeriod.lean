import Verif.Props.SourceText
import Verif.Props.Lcrng
import Verif.Props.TinyMtPeriod
import Verif.Props.XoroshiroPeriod
import Verif.Props.Xorshift128Period
/-
C133 with C05, C81, C83 and C84: the periods of the generators, for the text of `next`.
-/
namespace Verif.Py

/-- the world after `n` calls of the text of `next` -/
def afterNext (P : Prog) (mode : Mode) (fuel depth n : Nat) (w : World) : World := (fun w => (run P mode fuel depth "next" [] w).2)^[n] w

theorem afterNext_rep {σ : Type} {P : Prog} {mode : Mode} {rep : σ → Obj → Prop} {d : Nat} (step : σ → σ) (out : σ → Except PyErr Val)
    (h : ∀ s, Calls P mode rep 0 d "next" [] s (out s) (step s)) (fuel depth : Nat) (hd : d ≤ depth) (n : Nat) :
    ∀ s o, rep s o → ∃ o', rep (step^[n] s) o' ∧ ∀ l, afterNext P mode fuel depth n (o.world l) = o'.world l := by
  induction n with
  | zero => exact fun s o ho => ⟨o, ho, fun l => rfl⟩
  | succ n ih =>
    intro s o ho
    obtain ⟨o1, h1, e1⟩ := h s fuel depth (Nat.zero_le _) hd o ho
    obtain ⟨o2, h2, e2⟩ := ih (step s) o1 h1
    refine ⟨o2, h2, fun l => ?_⟩
    rw [← e2 l, afterNext, Function.iterate_succ_apply, e1 l]
    rfl

/-- an object represents one state -/
theorem Xoroshiro.Rep.unique {s t : Verif.Xoroshiro.State} {o : Obj} (hs : Xoroshiro.Rep s o) (ht : Xoroshiro.Rep t o) : s = t := by
  obtain ⟨m, rfl, rfl⟩ := hs
  obtain ⟨m', e, rfl⟩ := ht
  simp only [Xoroshiro.obj, Obj.mk.injEq, List.cons.injEq, Prod.mk.injEq, Arr.w64.injEq, true_and, and_true] at e
  rw [e]

theorem Xorshift.Rep.unique {s t : Xorshift128.State} {o : Obj} (hs : Xorshift.Rep s o) (ht : Xorshift.Rep t o) : s = t := by
  obtain ⟨m, rfl, rfl⟩ := hs
  obtain ⟨m', e, rfl⟩ := ht
  simp only [Obj.mk.injEq, List.cons.injEq, Prod.mk.injEq, Arr.w32.injEq, true_and, and_true] at e
  rw [e]

theorem TinyMt.Rep.unique {s t : TinyMt.State} {o : Obj} (hs : TinyMt.Rep s o) (ht : TinyMt.Rep t o) : s = t := by
  obtain ⟨m, rfl, rfl⟩ := hs
  obtain ⟨m', e, rfl⟩ := ht
  simp only [TinyMt.obj, Obj.mk.injEq, List.cons.injEq, Prod.mk.injEq, Arr.w32.injEq, true_and, and_true] at e
  rw [e]

theorem Lcrng32.Rep.unique {s t : BitVec 32} {o : Obj} (hs : Lcrng32.Rep s o) (ht : Lcrng32.Rep t o) : s = t := by
  rw [Lcrng32.Rep] at hs ht
  subst hs
  simpa using ht

theorem Lcrng64.Rep.unique {s t : BitVec 64} {o : Obj} (hs : Lcrng64.Rep s o) (ht : Lcrng64.Rep t o) : s = t := by
  rw [Lcrng64.Rep] at hs ht
  subst hs
  simpa using ht

/-- C133 with C81: calls of the text of `next` bring an object of `Xoroshiro128PlusRejection`, and one of `SplitMixXoroshiro128Plus`, back to its state (other than zero)
after multiples of 2^128 - 1 calls and at no other time. -/
theorem C133_xoroshiro_period (mode : Mode) (s : Verif.Xoroshiro.State) (hs : s ≠ ⟨0, 0⟩) (o : Obj) (h : Xoroshiro.Rep s o) (fuel depth : Nat) (hd : 2 ≤ depth) (n : Nat) :
    (∃ o', (∀ l, afterNext Xoroshiro.Rejection.prog mode fuel depth n (o.world l) = o'.world l) ∧ (Xoroshiro.Rep s o' ↔ 2 ^ 128 - 1 ∣ n)) ∧
    ∃ o', (∀ l, afterNext Xoroshiro.SplitMix.prog mode fuel depth n (o.world l) = o'.world l) ∧ (Xoroshiro.Rep s o' ↔ 2 ^ 128 - 1 ∣ n) := by
  have key : ∀ o', Xoroshiro.Rep ((Verif.Xoroshiro.step mode)^[n] s) o' → (Xoroshiro.Rep s o' ↔ 2 ^ 128 - 1 ∣ n) := fun o' h' => by
    rw [← Verif.Xoroshiro.C81_period mode s hs n, Verif.Xoroshiro.advance]
    exact ⟨fun e => h'.unique e, fun e => e ▸ h'⟩
  obtain ⟨o1, r1, e1⟩ := afterNext_rep (Verif.Xoroshiro.step mode) _ (fun s => (C133_xoroshiro mode s).2.1) fuel depth hd n s o h
  obtain ⟨o2, r2, e2⟩ := afterNext_rep (Verif.Xoroshiro.step mode) _ (fun s => (C133_splitmix mode s).2.2.1) fuel depth hd n s o h
  exact ⟨⟨o1, e1, key o1 r1⟩, ⟨o2, e2, key o2 r2⟩⟩

/-- C133 with C83: the same for `Xorshift128`. -/
theorem C133_xorshift_period (mode : Mode) (s : Xorshift128.State) (hs : s ≠ ⟨0, 0, 0, 0⟩) (o : Obj) (h : Xorshift.Rep s o) (fuel depth : Nat) (hd : 1 ≤ depth) (n : Nat) :
    ∃ o', (∀ l, afterNext Xorshift.prog mode fuel depth n (o.world l) = o'.world l) ∧ (Xorshift.Rep s o' ↔ 2 ^ 128 - 1 ∣ n) := by
  obtain ⟨o1, r1, e1⟩ := afterNext_rep (fun s => (Xorshift128.next mode s).1) _ (fun s => (C133_xorshift mode s).2.1) fuel depth hd n s o h
  refine ⟨o1, e1, ?_⟩
  rw [← Xorshift128.C83_period mode s hs n, Xorshift128.advance]
  exact ⟨fun e => r1.unique e, fun e => e ▸ r1⟩

/-- C133 with C05: the text of `next` of every 32-bit linear congruential class that satisfies the conditions of Hull and Dobell (all shipped ones, `C05_shipped`)
returns to its seed after multiples of 2^32 calls and at no other time. -/
theorem C133_lcrng32_period (mode : Mode) (c : Lcrng.ClassDecl 32) (hc : Lcrng.HullDobell c) (seed : BitVec 32) (o : Obj) (h : Lcrng32.Rep seed o) (r : Fun)
    (fuel depth : Nat) (hd : 1 ≤ depth) (n : Nat) :
    ∃ p, c.params = .ok p ∧ ∃ o', (∀ l, afterNext (Lcrng32.prog p r) mode fuel depth n (o.world l) = o'.world l) ∧ (Lcrng32.Rep seed o' ↔ 2 ^ 32 ∣ n) := by
  obtain ⟨p, hp, hper⟩ := Lcrng.C05_period c hc
  obtain ⟨o1, r1, e1⟩ := afterNext_rep (Lcrng.next p) _ (fun s => (C133_lcrng32 mode p s).2.1 r) fuel depth hd n seed o h
  refine ⟨p, hp, o1, e1, ?_⟩
  rw [← hper n seed]
  exact ⟨fun e => r1.unique e, fun e => e ▸ r1⟩

/-- C133 with C05: the same for the 64-bit classes and 2^64. -/
theorem C133_lcrng64_period (mode : Mode) (c : Lcrng.ClassDecl 64) (hc : Lcrng.HullDobell c) (seed : BitVec 64) (o : Obj) (h : Lcrng64.Rep seed o) (r : Fun)
    (fuel depth : Nat) (hd : 1 ≤ depth) (n : Nat) :
    ∃ p, c.params = .ok p ∧ ∃ o', (∀ l, afterNext (Lcrng64.prog p r) mode fuel depth n (o.world l) = o'.world l) ∧ (Lcrng64.Rep seed o' ↔ 2 ^ 64 ∣ n) := by
  obtain ⟨p, hp, hper⟩ := Lcrng.C05_period c hc
  obtain ⟨o1, r1, e1⟩ := afterNext_rep (Lcrng.next p) _ (fun s => (C133_lcrng64 mode p s).2.1 r) fuel depth hd n seed o h
  refine ⟨p, hp, o1, e1, ?_⟩
  rw [← hper n seed]
  exact ⟨fun e => r1.unique e, fun e => e ▸ r1⟩

/-- C133 with C84: the text of `TinyMersenneTwister`. After `re_init(seed)`, for every seed and whatever the array contained, `next` comes back to the state it started
from after multiples of 2^127 - 1 calls and at no other time. -/
theorem C133_tinymt_period (mode : Mode) (seed : BitVec 32) (s : TinyMt.State) (o : Obj) (h : TinyMt.Rep s o) (fuel depth : Nat) (hd : 2 ≤ depth) :
    ∃ t o1, TinyMt.Rep t o1 ∧ (∀ l, run TinyMt.prog mode fuel depth "re_init" [.sc false 32 seed] (o.world l) = (.ok .none, o1.world l)) ∧
      ∀ n, ∃ o', (∀ l, afterNext TinyMt.prog mode fuel depth n (o1.world l) = o'.world l) ∧ (TinyMt.Rep t o' ↔ 2 ^ 127 - 1 ∣ n) := by
  obtain ⟨o1, r1, e1⟩ := (C133_tinymt mode s).1 seed fuel depth (by omega) hd o h
  refine ⟨_, o1, r1, e1, fun n => ?_⟩
  obtain ⟨o2, r2, e2⟩ := afterNext_rep (Verif.TinyMt.shuffle mode) _ (fun s => (C133_tinymt mode s).2.2.2.1) fuel depth hd n _ o1 r1
  refine ⟨o2, e2, ?_⟩
  rw [← Verif.TinyMt.C84_every_seed mode s seed n, Verif.TinyMt.advance, Verif.TinyMt.new]
  exact ⟨fun e => r2.unique e, fun e => e ▸ r2⟩

/-- objects with states other than zero, and a shipped class -/
example : Xoroshiro.Rep ⟨1, 2⟩ (Xoroshiro.obj fun i => if i = 0 then 1 else 2) ∧
    Xorshift.Rep ⟨1, 2, 3, 4⟩ ⟨[("state", .arr "state")], [("state", .w32 4 ⟨fun i => BitVec.ofNat 32 (i + 1)⟩)]⟩ ∧
    TinyMt.Rep ⟨9, 9, 9, 9⟩ (TinyMt.obj ⟨fun _ => 9⟩) ∧ Lcrng32.Rep 5 ⟨[("seed", .sc false 32 5)], []⟩ ∧ Lcrng.HullDobell Lcrng.pokeRNG ∧
    Lcrng64.Rep 5 ⟨[("seed", .sc false 64 5)], []⟩ ∧ Lcrng.HullDobell Lcrng.bwrng :=
  ⟨⟨_, rfl, rfl⟩, ⟨_, rfl, rfl⟩, ⟨_, rfl, rfl⟩, rfl, Lcrng.C05_shipped.1, rfl, Lcrng.C05_shipped.2.2.2.2.2.2.1⟩

end Verif.Py
