import Verif.Props.SourcePeriod
import Verif.Props.MtPeriod
import Verif.Props.SfmtExact
/-
C133 with C99 and C110: the periods of the outputs of mt.py and sfmt.py, for the text of `next`.
-/
namespace Verif.Py
open SfmtPeriod (Repeats)

/-- what the text of `next` returns after `n` calls of it -/
def nextOut (P : Prog) (mode : Mode) (fuel depth : Nat) (w : World) (n : Nat) : Except PyErr Val :=
  (run P mode fuel depth "next" [] (afterNext P mode fuel depth n w)).1

theorem wide_inj {mode : Mode} {x y : BitVec 32} (h : wide mode x = wide mode y) : x = y := by
  cases mode with
  | numpy => simpa [wide] using h
  | numba =>
    simp only [wide, Val.sc.injEq, heq_eq_eq, true_and] at h
    have := congrArg (BitVec.setWidth 32) h
    simpa using this

theorem map_inj {α β : Type} {f : α → β} (hf : ∀ x y, f x = f y → x = y) {a b : Except PyErr α} (h : a.map f = b.map f) : a = b := by
  cases a <;> cases b <;> simp_all [Except.map]
  exact hf _ _ h

/-- the text of `next` and a model function repeat in the same way if one is an injective image of the other -/
theorem repeats_iff {α β : Type} {f : Nat → Except PyErr α} {g : Nat → Except PyErr β} {φ : α → β} (hφ : ∀ x y, φ x = φ y → x = y) (h : ∀ n, g n = (f n).map φ)
    (p : Nat) : Repeats g p ↔ Repeats f p := by
  constructor
  · rintro ⟨M, hM⟩
    exact ⟨M, fun n hn => map_inj hφ (by rw [← h, ← h, hM n hn])⟩
  · rintro ⟨M, hM⟩
    exact ⟨M, fun n hn => by rw [h, h, hM n hn]⟩

/-- C133 with C99: the text of mt.py, compiled or not. After `re_init(seed)`, whatever the array contained, the values returned by `next` repeat (from any point on)
exactly with the multiples of 2^19937 - 1. -/
theorem C133_mt_period (mode : Mode) (seed : BitVec 32) (s : Mt.State) (o : Obj) (h : Mt.Rep s o) (fuel depth : Nat) (hd : 2 ≤ depth) (l : List (String × Val))
    (N : Nat) (hN : N = 2 ^ 19937 - 1) (p : Nat) :
    Repeats (nextOut Mt.prog mode fuel depth (run Mt.prog mode fuel depth "re_init" [.sc false 32 seed] (o.world l)).2) p ↔ N ∣ p := by
  obtain ⟨o1, r1, e1⟩ := (C133_mt mode s).1 seed fuel depth (by omega) (by omega) o h
  have key : ∀ n, nextOut Mt.prog mode fuel depth (o1.world l) n = (MtPeriod.output s.state seed n).map (wide mode) := fun n => by
    obtain ⟨o2, r2, e2⟩ := afterNext_rep (fun s => (Verif.Mt.next s).1) _ (fun s => (C133_mt mode s).2.2.1) fuel depth hd n _ o1 r1
    obtain ⟨o3, -, e3⟩ := (C133_mt mode _).2.2.1 fuel depth (by omega) hd o2 r2
    rw [nextOut, e2, e3]
    rfl
  rw [e1, repeats_iff (fun _ _ => wide_inj) key]
  constructor
  · rintro ⟨M, hM⟩
    exact MtPeriod.C99_least s.state seed N hN p M hM
  · rintro ⟨c, rfl⟩
    refine ⟨0, fun n _ => ?_⟩
    induction c with
    | zero => rw [Nat.mul_zero, Nat.add_zero]
    | succ c ih => rw [Nat.mul_succ, ← Nat.add_assoc, MtPeriod.C99_period s.state seed _ N hN, ih]

/-- C133 with C110: the same for the text of sfmt.py (with the Python text of `sfmt_shuffle`): the multiples of 2 (2^19937 - 1) d, where d is one of six
numbers that depends on the seed alone. -/
theorem C133_sfmt_period (seed : BitVec 32) : ∃ d ∈ [1, 7, 8191, 7 * 8191, 32767, 32767 * 8191], ∀ (mode : Mode) (s : Sfmt.State) (o : Obj), Sfmt.Rep mode s o →
    ∀ (fuel depth : Nat), 3 ≤ depth → ∀ (l : List (String × Val)) (N : Nat), N = 2 ^ 19937 - 1 → ∀ p,
    Repeats (nextOut Sfmt.prog mode fuel depth (run Sfmt.prog mode fuel depth "re_init" [.sc false 32 seed] (o.world l)).2) p ↔ 2 * (N * d) ∣ p := by
  obtain ⟨d, hd, H⟩ := SfmtPeriod.C110_exact seed
  refine ⟨d, hd, fun mode s o h fuel depth hdep l N hN p => ?_⟩
  obtain ⟨o1, r1, e1⟩ := (C133_sfmt mode s).1 seed fuel depth (by omega) (by omega) o h
  have e0 : Verif.Sfmt.reInit s seed = Verif.Sfmt.new s.state seed := by rw [Verif.Sfmt.new, Verif.Sfmt.reInit, Verif.Sfmt.reInit]
  rw [e0] at r1
  have key : ∀ n, nextOut Sfmt.prog mode fuel depth (o1.world l) n = (SfmtPeriod.output s.state seed n).map (.sc false 64) := fun n => by
    obtain ⟨o2, r2, e2⟩ := afterNext_rep (fun s => (Verif.Sfmt.next s).1) _ (fun s => (C133_sfmt mode s).2.2.1) fuel depth hdep n _ o1 r1
    obtain ⟨o3, -, e3⟩ := (C133_sfmt mode _).2.2.1 fuel depth (by omega) hdep o2 r2
    rw [nextOut, e2, e3, SfmtPeriod.output, SfmtPeriod.after]
  rw [e1, repeats_iff (fun _ _ e => by simpa using e) key]
  exact H s.state N hN p

/-- new objects, whatever memory contains -/
example (m : Mem) : Mt.Rep ⟨m, 624⟩ (Mt.obj m 624) ∧ Sfmt.Rep .numpy ⟨m, 624⟩ (Sfmt.obj m (.sc false 16 624)) := ⟨⟨624, rfl, rfl⟩, ⟨_, rfl, .inl ⟨624, rfl, rfl⟩⟩⟩

end Verif.Py
