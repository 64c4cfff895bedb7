import Verif.Model.RngList
import Mathlib.Algebra.Order.Ring.Nat
import Mathlib.Tactic.Ring
import Mathlib.Data.Nat.Bitwise
/-
C36, C37, C118 and the RNGList part of C12.
-/
namespace Verif.RngList

variable {G : Type}

/-- generator state after `n` outputs -/
def after (next : G → G × BitVec v) (g : G) : Nat → G
  | 0 => g
  | n + 1 => (next (after next g n)).1

/-- output number `k` (from 0) of the generator started in `g` -/
def stream (next : G → G × BitVec v) (g : G) (k : Nat) : BitVec v := (next (after next g k)).2

/-- output number `k` as a value of `t` bits -/
def cached (t : Nat) (next : G → G × BitVec v) (g : G) (k : Nat) : BitVec t := (stream next g k).setWidth t

/-- The specification: a window that starts at output number `base` of the generator, and a reading position in it. -/
structure Window where
  base : Nat
  pos : Nat

/-- operations of the list -/
inductive Op where
  | get
  | advance (n : BitVec 32)
  | advanceState
  | advanceStates (n : BitVec 32)
  | reInit

/-- effect on the window, and the number of the output returned (if any) -/
def Window.step (size : Nat) (w : Window) : Op → Window × Option Nat
  | .get => ({ w with pos := (w.pos + 1) % size }, some (w.base + w.pos))
  | .advance n => ({ w with pos := (w.pos + n.toNat) % size }, none)
  | .advanceState => ({ base := w.base + 1, pos := 0 }, none)
  | .advanceStates n => (if n = 0#32 then w else { base := w.base + n.toNat, pos := 0 }, none)
  | .reInit => ({ base := w.base + size, pos := 0 }, none)

/-- the values returned in a history, according to the specification -/
def Window.run (size : Nat) (x : Nat → BitVec t) : Window → List Op → List (BitVec t)
  | _, [] => []
  | w, o :: os => match (w.step size o).2 with
    | some k => x k :: Window.run size x (w.step size o).1 os
    | none => Window.run size x (w.step size o).1 os

/-- one call on the model, with the value returned (if any) -/
def stepOp (mode : Mode) (next : G → G × BitVec v) (size : Nat) (s : State t G) : Op → State t G × Option (BitVec t)
  | .get => ((getValue mode size s).1, some (getValue mode size s).2)
  | .advance n => (advance mode size n s, none)
  | .advanceState => (advanceState mode next size s, none)
  | .advanceStates n => (advanceStates mode next size n.toNat s, none)
  | .reInit => (reInit next size s, none)

/-- the values returned in a history of calls on the model -/
def runOps (mode : Mode) (next : G → G × BitVec v) (size : Nat) : State t G → List Op → List (BitVec t)
  | _, [] => []
  | s, o :: os => match (stepOp mode next size s o).2 with
    | some v => v :: runOps mode next size (stepOp mode next size s o).1 os
    | none => runOps mode next size (stepOp mode next size s o).1 os

/-- refinement relation -/
structure Rep (next : G → G × BitVec v) (g : G) (size : Nat) (s : State t G) (w : Window) : Prop where
  rng : s.rng = after next g (w.base + size)
  hhead : s.head < size
  hpos : w.pos < size
  hptr : s.pointer = (s.head + w.pos) % size
  hlist : ∀ j, j < size → s.list ((s.head + j) % size) = cached t next g (w.base + j)

@[simp] theorem Cells.set_same (m : Cells t) (i : Nat) (x : BitVec v) : (m.set i x) i = x.setWidth t := by simp [Cells.set]
theorem Cells.set_ne (m : Cells t) {i j : Nat} (x : BitVec v) (h : j ≠ i) : (m.set i x) j = m j := by simp [Cells.set, h]

theorem after_succ (next : G → G × BitVec v) (g : G) (n : Nat) : (next (after next g n)).1 = after next g (n + 1) := rfl

theorem fill_spec (next : G → G × BitVec v) (g : G) (n i b : Nat) (m : Cells t) :
    (fill next n i (after next g b) m).1 = after next g (b + n) ∧
    ∀ j, (fill next n i (after next g b) m).2 j = if i ≤ j ∧ j < i + n then cached t next g (b + (j - i)) else m j := by
  induction n generalizing i b m with
  | zero => exact ⟨rfl, fun j => by rw [if_neg (by omega)]; rfl⟩
  | succ n ih =>
    have := ih (i + 1) (b + 1) (m.set i (next (after next g b)).2)
    rw [fill, after_succ]
    refine ⟨by rw [this.1]; congr 1; omega, ?_⟩
    intro j
    rw [this.2 j]
    by_cases h1 : j = i
    · subst h1
      rw [if_neg (by omega), if_pos (by omega), Cells.set_same, Nat.sub_self]
      rfl
    · rw [Cells.set_ne _ _ h1]
      by_cases h2 : i + 1 ≤ j ∧ j < i + 1 + n
      · rw [if_pos h2, if_pos (by omega)]
        congr 1
        omega
      · rw [if_neg h2, if_neg (by omega)]

/-- sizes for which the `uint16` fields suffice; without numba, sizes that are modelled -/
def Fits (mode : Mode) (size : Nat) : Prop := match mode with
  | .numba => size ≤ 2 ^ 16
  | .numpy => size ≤ 2 ^ 32

theorem store_lt {mode : Mode} {size : Nat} (h : Fits mode size) {v : Nat} (hv : v < size) : store mode v = v := by
  cases mode with
  | numpy => rfl
  | numba => exact Nat.mod_eq_of_lt (Nat.lt_of_lt_of_le hv h)

theorem dvd_of_le {k m : Nat} (h : 2 ^ k ≤ 2 ^ m) : 2 ^ k ∣ 2 ^ m := pow_dvd_pow _ ((Nat.pow_le_pow_iff_right (by omega)).1 h)

theorem mask (k p : Nat) : p &&& (2 ^ k - 1) = p % 2 ^ k := Nat.and_two_pow_sub_one_eq_mod p k

theorem rep_reInit (next : G → G × BitVec v) (g : G) (size : Nat) (hs : 0 < size) (s : State t G) (b : Nat)
    (h : s.rng = after next g b) : Rep next g size (reInit next size s) { base := b, pos := 0 } := by
  have := fill_spec next g size 0 b s.list
  rw [← h] at this
  constructor
  · exact this.1
  · exact hs
  · exact hs
  · simp [reInit]
  · intro j hj
    simp only [reInit, Nat.zero_add, Nat.mod_eq_of_lt hj]
    rw [this.2 j, if_pos (by omega)]
    simp

theorem rep_advanceState (mode : Mode) (next : G → G × BitVec v) (g : G) (k : Nat) (hf : Fits mode (2 ^ k)) (s : State t G)
    (w : Window) (h : Rep next g (2 ^ k) s w) :
    Rep next g (2 ^ k) (advanceState mode next (2 ^ k) s) { base := w.base + 1, pos := 0 } := by
  obtain ⟨h1, h2, h3, h4, h5⟩ := h
  generalize hN : 2 ^ k = N at *
  have hlt : (s.head + 1) % N < N := Nat.mod_lt _ (by omega)
  have hm : ∀ p, p &&& (N - 1) = p % N := fun p => by rw [← hN]; exact mask k p
  constructor
  · simp only [advanceState, h1]
    rw [after_succ]
    congr 1
    omega
  · simp only [advanceState, hm, store_lt hf hlt]; exact hlt
  · simp only; omega
  · simp only [advanceState, hm, store_lt hf hlt, Nat.add_zero, Nat.mod_mod]
  · intro j hj
    simp only [advanceState, hm, store_lt hf hlt]
    have e : ((s.head + 1) % N + j) % N = (s.head + (j + 1)) % N := by
      rw [Nat.mod_add_mod]; congr 1; omega
    rw [e]
    by_cases hj' : j + 1 < N
    · have hne : (s.head + (j + 1)) % N ≠ s.head := by
        intro h
        by_cases hc : s.head + (j + 1) < N
        · rw [Nat.mod_eq_of_lt hc] at h; omega
        · rw [Nat.mod_eq_sub_mod (by omega), Nat.mod_eq_of_lt (by omega)] at h; omega
      rw [Cells.set_ne _ _ hne, h5 (j + 1) hj']
      congr 1
      omega
    · have e2 : (s.head + (j + 1)) % N = s.head := by
        rw [show j + 1 = N by omega, Nat.add_mod_right, Nat.mod_eq_of_lt h2]
      rw [e2, Cells.set_same, h1]
      rw [show w.base + 1 + j = w.base + N by omega]
      rfl

theorem rep_advanceStates (mode : Mode) (next : G → G × BitVec v) (g : G) (k : Nat) (hf : Fits mode (2 ^ k)) (n : Nat) :
    ∀ (s : State t G) (w : Window), Rep next g (2 ^ k) s w → Rep next g (2 ^ k) (advanceStates mode next (2 ^ k) n s)
      (if n = 0 then w else { base := w.base + n, pos := 0 }) := by
  induction n with
  | zero => intro s w h; exact h
  | succ n ih =>
    intro s w h
    have := ih _ _ (rep_advanceState mode next g k hf s w h)
    rw [advanceStates, if_neg (by omega)]
    by_cases hn : n = 0
    · subst hn; exact this
    · rw [if_neg hn] at this
      simp only [Nat.add_assoc, Nat.add_comm 1 n] at this
      exact this

theorem rep_step (mode : Mode) (next : G → G × BitVec v) (g : G) (k : Nat) (hf : Fits mode (2 ^ k)) (s : State t G)
    (w : Window) (h : Rep next g (2 ^ k) s w) (o : Op) :
    Rep next g (2 ^ k) (stepOp mode next (2 ^ k) s o).1 (w.step (2 ^ k) o).1 ∧
    (stepOp mode next (2 ^ k) s o).2 = (w.step (2 ^ k) o).2.map (cached t next g) := by
  have hpos : 0 < 2 ^ k := Nat.two_pow_pos k
  have hmod : ∀ p, p % 2 ^ k < 2 ^ k := fun p => Nat.mod_lt _ hpos
  cases o with
  | get =>
    obtain ⟨h1, h2, h3, h4, h5⟩ := h
    refine ⟨⟨h1, h2, hmod _, ?_, h5⟩, ?_⟩
    · have hp : s.pointer < 2 ^ k := by rw [h4]; exact hmod _
      have e : store mode (store mode (s.pointer + 1) &&& (2 ^ k - 1)) = (s.pointer + 1) % 2 ^ k := by
        rw [mask, store_lt hf (hmod _)]
        cases mode with
        | numpy => rfl
        | numba => exact Nat.mod_mod_of_dvd _ (dvd_of_le (m := 16) hf)
      simp only [stepOp, getValue, Window.step, e]
      rw [h4, Nat.mod_add_mod, Nat.add_mod_mod, Nat.add_assoc]
    · simp only [stepOp, getValue, Window.step, Option.map_some]
      rw [h4, h5 w.pos h3]
  | advance n =>
    obtain ⟨h1, h2, h3, h4, h5⟩ := h
    refine ⟨⟨h1, h2, hmod _, ?_, h5⟩, rfl⟩
    simp only [stepOp, advance, Window.step]
    rw [mask, store_lt hf (hmod _), h4, Nat.mod_add_mod, Nat.add_mod_mod, Nat.add_assoc]
  | advanceState => exact ⟨rep_advanceState mode next g k hf s w h, rfl⟩
  | advanceStates n =>
    refine ⟨?_, rfl⟩
    have := rep_advanceStates mode next g k hf n.toNat s w h
    simp only [stepOp, Window.step]
    by_cases hn : n = 0#32
    · rw [if_pos hn]; rwa [if_pos (by rw [hn]; rfl)] at this
    · rw [if_neg hn]; rwa [if_neg (by rw [← BitVec.toNat_inj] at hn; exact hn)] at this
  | reInit => exact ⟨rep_reInit next g _ hpos s _ h.rng, rfl⟩

theorem rep_run (mode : Mode) (next : G → G × BitVec v) (g : G) (k : Nat) (hf : Fits mode (2 ^ k)) (ops : List Op) :
    ∀ (s : State t G) (w : Window), Rep next g (2 ^ k) s w →
      runOps mode next (2 ^ k) s ops = Window.run (2 ^ k) (cached t next g) w ops := by
  induction ops with
  | nil => intro s w _; rfl
  | cons o os ih =>
    intro s w h
    obtain ⟨h1, h2⟩ := rep_step mode next g k hf s w h o
    rw [runOps, Window.run, h2]
    cases (w.step (2 ^ k) o).2 with
    | none => exact ih _ _ h1
    | some n => simp only [Option.map_some]; rw [ih _ _ h1]

/-- sizes accepted by `build_rnglist` are exactly the powers of two -/
theorem sizeOk_iff (size : Nat) : sizeOk size = true ↔ ∃ k, size = 2 ^ k := by
  constructor
  · intro h
    simp only [sizeOk, Bool.and_eq_true, bne_iff_ne, beq_iff_eq] at h
    have := Nat.and_sub_one_eq_zero_iff_isPowerOfTwo h.1 |>.mp h.2
    obtain ⟨k, hk⟩ := this
    exact ⟨k, hk⟩
  · rintro ⟨k, rfl⟩
    have := Nat.two_pow_pos k
    simp only [sizeOk, Bool.and_eq_true, bne_iff_ne, beq_iff_eq]
    exact ⟨by omega, by rw [mask, Nat.mod_self]⟩

/-- `build` succeeds for the powers of two, under numba only with `np.uint32` as type of the list -/
theorem build_iff (mode : Mode) (t size : Nat) :
    build mode t size = .ok () ↔ (∃ k, size = 2 ^ k) ∧ (mode = .numba → t = 32) := by
  rw [← sizeOk_iff]
  unfold build
  cases sizeOk size with
  | false => simp
  | true => cases mode <;> simp

/-- C36: in every history of calls on a list of an accepted size (at most 65536 under numba), the values returned are the
generator's own outputs (as values of the type of the list) at the positions given by the sliding window, whatever the
generator. -/
theorem C36_sliding_window (mode : Mode) (next : G → G × BitVec v) (size : Nat) (hsize : build mode t size = .ok ())
    (hf : Fits mode size) (junk : Cells t) (g : G) (ops : List Op) :
    runOps mode next size (new next size junk g) ops = Window.run size (cached t next g) { base := 0, pos := 0 } ops := by
  obtain ⟨⟨k, rfl⟩, _⟩ := (build_iff mode t size).mp hsize
  exact rep_run mode next g k hf ops _ _ (rep_reInit next g _ (Nat.two_pow_pos k) _ 0 rfl)

/-- state after a history -/
def stateAfter (mode : Mode) (next : G → G × BitVec v) (size : Nat) (s : State t G) (ops : List Op) : State t G :=
  ops.foldl (fun s o => (stepOp mode next size s o).1) s

/-- C36: all list accesses are in bounds in every history. -/
theorem C36_in_bounds (mode : Mode) (next : G → G × BitVec v) (size : Nat) (hsize : build mode t size = .ok ())
    (hf : Fits mode size) (junk : Cells t) (g : G) (ops : List Op) :
    (stateAfter mode next size (new next size junk g) ops).head < size ∧
    (stateAfter mode next size (new next size junk g) ops).pointer < size := by
  obtain ⟨⟨k, rfl⟩, _⟩ := (build_iff mode t size).mp hsize
  have key : ∀ (ops : List Op) (s : State t G) (w : Window), Rep next g (2 ^ k) s w →
      ∃ w', Rep next g (2 ^ k) (stateAfter mode next (2 ^ k) s ops) w' := by
    intro ops
    induction ops with
    | nil => intro s w h; exact ⟨w, h⟩
    | cons o os ih => intro s w h; exact ih _ _ (rep_step mode next g k hf s w h o).1
  obtain ⟨w, hw⟩ := key ops _ _ (rep_reInit next g (2 ^ k) (Nat.two_pow_pos k)
    { rng := g, list := junk, head := 0, pointer := 0 } 0 rfl)
  refine ⟨hw.hhead, ?_⟩
  have := hw.hptr
  rw [new, this]
  exact Nat.mod_lt _ (Nat.two_pow_pos k)

-- a counter as the generator, size 4: read, skip, slide, read
example : runOps .numba (fun n : BitVec 32 => (n + 1, n)) 4 (new (fun n : BitVec 32 => (n + 1, n)) 4 (⟨fun _ => 99⟩ : Cells 32) 0)
    [.get, .get, .advance 3, .get, .advanceState, .get, .advanceStates 5, .get] = [0, 1, 1, 1, 6] := by decide
-- 64-bit outputs in a list of 16-bit values, without numba
example : runOps .numpy (fun n : BitVec 64 => (n + 0xFFFF, n)) 4
    (new (fun n : BitVec 64 => (n + 0xFFFF, n)) 4 (⟨fun _ => 99⟩ : Cells 16) 0)
    [.get, .get, .advance 0xFFFFFFFF, .get] = [0, 0xFFFF, 0xFFFF] := by decide
example : build .numba 32 4 = .ok () ∧ Fits .numba 4 := ⟨by decide, show 4 ≤ _ by decide⟩
example : build .numpy 16 4 = .ok () ∧ Fits .numpy 4 := ⟨by decide, show 4 ≤ _ by decide⟩

/-- Full C37: every accepted size gives a window of that size, in both modes. False under numba above 65536. -/
def C37_full : Prop := ∀ (G : Type) (v t : Nat) (mode : Mode) (next : G → G × BitVec v) (size : Nat), build mode t size = .ok () →
  ∀ (junk : Cells t) (g : G) (ops : List Op),
    runOps mode next size (new next size junk g) ops = Window.run size (cached t next g) { base := 0, pos := 0 } ops

/-- C37: the assertion accepts exactly the powers of two, and all of them work except, under numba, those above 65536.
Without numba, sizes above `2 ^ 32` are not modelled. -/
theorem C37_sizes_partial (size : Nat) : (sizeOk size = true ↔ ∃ k, size = 2 ^ k) ∧
    ∀ (G : Type) (v t : Nat) (mode : Mode) (next : G → G × BitVec v), build mode t size = .ok () → Fits mode size →
      ∀ (junk : Cells t) (g : G) (ops : List Op),
        runOps mode next size (new next size junk g) ops = Window.run size (cached t next g) { base := 0, pos := 0 } ops :=
  ⟨sizeOk_iff size, fun _ _ _ mode next hs hf junk g ops => C36_sliding_window mode next size hs hf junk g ops⟩

/-- C37 under numba for every larger power of two, whatever the generator: after `advance(65536)` the list reads
output 0 again instead of output 65536. -/
theorem C37_numba_wraps (next : G → G × BitVec v) (k : Nat) (hk : 16 < k) (junk : Cells t) (g : G) :
    runOps .numba next (2 ^ k) (new next (2 ^ k) junk g) [.advance 0x10000, .get] = [cached t next g 0] ∧
    Window.run (2 ^ k) (cached t next g) { base := 0, pos := 0 } [.advance 0x10000, .get] = [cached t next g 65536] := by
  have hlt : 2 ^ 16 < 2 ^ k := Nat.pow_lt_pow_right (by omega) hk
  have hpos : 0 < 2 ^ k := Nat.two_pow_pos k
  have e : (0x10000 : BitVec 32).toNat = 65536 := by decide
  have hp : store .numba ((0 + 65536) &&& (2 ^ k - 1)) = 0 := by
    rw [mask, Nat.mod_eq_of_lt (by omega)]; rfl
  constructor
  · have hr := (rep_reInit next g (2 ^ k) hpos { rng := g, list := junk, head := 0, pointer := 0 } 0 rfl)
    have h0 := hr.hlist 0 hpos
    have hh : (reInit next (2 ^ k) { rng := g, list := junk, head := 0, pointer := 0 }).head = 0 := rfl
    rw [hh] at h0
    simp only [Nat.add_zero, Nat.zero_mod] at h0
    simp only [runOps, stepOp, getValue, advance, new, e]
    have hq : (reInit next (2 ^ k) { rng := g, list := junk, head := 0, pointer := 0 }).pointer = 0 := rfl
    rw [hq, hp, h0]
  · simp only [Window.run, Window.step, e, Nat.zero_add]
    rw [Nat.mod_eq_of_lt (by omega)]

theorem C37_full_false : ¬ C37_full := by
  intro h
  have h1 := h (BitVec 32) 32 32 .numba (fun n => (n + 1, n)) (2 ^ 17) ((build_iff _ _ _).mpr ⟨⟨17, rfl⟩, fun _ => rfl⟩) ⟨fun _ => 0⟩ 0
    [.advance 0x10000, .get]
  have h2 := C37_numba_wraps (fun n : BitVec 32 => (n + 1, n)) 17 (by omega) (⟨fun _ => 0⟩ : Cells 32) 0
  rw [h2.1, h2.2] at h1
  have hs : ∀ k, after (fun n : BitVec 32 => (n + 1, n)) 0 k = BitVec.ofNat 32 k := by
    intro k
    induction k with
    | zero => rfl
    | succ k ih =>
      rw [after, ih]
      apply BitVec.eq_of_toNat_eq
      simp [BitVec.toNat_add, BitVec.toNat_ofNat]
  simp only [cached, stream, hs] at h1
  revert h1
  decide

/-- Full C118: lists of every unsigned type can be built and show the outputs of the generator as values of this type. False
under numba. -/
def C118_full : Prop := ∀ (mode : Mode) (t : Nat), t ∈ [8, 16, 32, 64] → ∀ size, size ≤ 2 ^ 16 → sizeOk size = true →
  build mode t size = .ok () ∧ ∀ (G : Type) (v : Nat) (next : G → G × BitVec v) (junk : Cells t) (g : G) (ops : List Op),
    runOps mode next size (new next size junk g) ops = Window.run size (cached t next g) { base := 0, pos := 0 } ops

/-- C118 without numba, and under numba for `np.uint32`: the only accepted type there. -/
theorem C118_types_partial (t size : Nat) (hsize : sizeOk size = true) (h16 : size ≤ 2 ^ 16) (mode : Mode) :
    (build mode t size = .ok () ↔ mode = .numpy ∨ t = 32) ∧
    (build mode t size = .ok () → ∀ (G : Type) (v : Nat) (next : G → G × BitVec v) (junk : Cells t) (g : G) (ops : List Op),
      runOps mode next size (new next size junk g) ops = Window.run size (cached t next g) { base := 0, pos := 0 } ops) := by
  refine ⟨?_, fun hb G v next junk g ops => C36_sliding_window mode next size hb ?_ junk g ops⟩
  · rw [build_iff, ← sizeOk_iff]
    cases mode <;> simp [hsize]
  · cases mode with
    | numba => exact h16
    | numpy => exact h16.trans (by decide)

example : sizeOk 16 = true ∧ 16 ≤ 2 ^ 16 := by decide

/-- The outputs of the 64-bit generators (`next` of Xoroshiro128+ and of the SFMT) cannot be cached under numba. -/
theorem C118_full_false : ¬ C118_full := fun h => by
  have := (h .numba 64 (by decide) 16 (by decide) (by decide)).1
  revert this
  decide

/-- A list whose type is as wide as the outputs of the generator shows them unchanged. -/
theorem C118_same_width (next : G → G × BitVec t) (g : G) (k : Nat) : cached t next g k = stream next g k :=
  BitVec.setWidth_eq _

/-- C12 (RNGList): `re_init` leaves the same object as building a new list around the same generator object. -/
theorem C12_rnglist_re_init (next : G → G × BitVec v) (size : Nat) (s : State t G) (junk : Cells t) :
    let a := reInit next size s
    let b := new next size junk s.rng
    a.rng = b.rng ∧ a.head = b.head ∧ a.pointer = b.pointer ∧ ∀ j, j < size → a.list j = b.list j := by
  have h1 := fill_spec next s.rng size 0 0 s.list
  have h2 := fill_spec next s.rng size 0 0 junk
  refine ⟨?_, rfl, rfl, ?_⟩
  · exact h1.1.trans h2.1.symm
  · intro j hj
    have e1 := h1.2 j
    have e2 := h2.2 j
    rw [if_pos (by omega)] at e1 e2
    exact e1.trans e2.symm

end Verif.RngList
