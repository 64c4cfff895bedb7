import Verif.Py.Lcrng32
import Verif.Py.Lcrng64
import Verif.Py.TinyMt
import Verif.Py.RngList
import Verif.Py.Xorshift
import Verif.Py.Xoroshiro
import Verif.Props.Lcrng
import Verif.Props.Xorshift128
import Verif.Props.Xoroshiro
import Verif.Props.RngList
/-
C133: the Python text of the generators, read as syntax trees (`Verif/Py/Source.lean`) and run by one set of rules for integer
operations (`Verif/Py/Semantics.lean`), computes what the hand-written model functions compute, in both modes, on every state and
for all arguments of the annotated types.
-/
namespace Verif.Py

/-! ### linear congruential generators -/

/-- C133: `LCRNG32` -/
theorem C133_lcrng32 (mode : Mode) (p : Lcrng.Params 32) (s : BitVec 32) :
    (∀ r seed, Calls (Lcrng32.prog p r) mode Lcrng32.Rep 0 1 "re_init" [.sc false 32 seed] s (.ok .none) (Lcrng.reInit s seed)) ∧
    (∀ r, Calls (Lcrng32.prog p r) mode Lcrng32.Rep 0 1 "next" [] s (.ok (.sc false 32 (Lcrng.next p s))) (Lcrng.next p s)) ∧
    (∀ r (adv : BitVec 32), Calls (Lcrng32.prog p r) mode Lcrng32.Rep 0 2 "advance" [.sc false 32 adv] s
      (.ok (.sc false 32 (Lcrng.advance p adv.toNat s))) (Lcrng.advance p adv.toNat s)) ∧
    (∀ r, Calls (Lcrng32.prog p r) mode Lcrng32.Rep 0 2 "next_u16" [] s (.ok (.sc false 16 (Lcrng.nextU16 p s).2))
      (Lcrng.nextU16 p s).1) ∧
    (∀ r adv v, Dist mode v adv → Calls (Lcrng32.prog p r) mode Lcrng32.Rep (adv + 1) 1 "jump" [v] s
      ((Lcrng.jump p adv s).2.map (.sc false 32)) (Lcrng.jump p adv s).1) ∧
    (∀ maximum, Calls (Lcrng32.prog p Source.LCRNG32.next_rand_modulo) mode Lcrng32.Rep 0 3 "next_rand" [.sc false 16 maximum] s
      ((Lcrng.nextRand32 mode p .modulo maximum s).2.map (short mode)) (Lcrng.nextRand32 mode p .modulo maximum s).1) ∧
    (∀ maximum, Calls (Lcrng32.prog p Source.LCRNG32.next_rand_division) mode Lcrng32.Rep 0 3 "next_rand" [.sc false 16 maximum] s
      ((Lcrng.nextRand32 mode p .reciprocalDivision maximum s).2.map (short mode))
      (Lcrng.nextRand32 mode p .reciprocalDivision maximum s).1) :=
  ⟨fun r seed => Lcrng32.reInit_source mode p r s seed, fun r => Lcrng32.next_source mode p r s,
    fun r adv => Lcrng32.advance_source mode p r s adv, fun r => Lcrng32.nextU16_source mode p r s,
    fun r adv v h => Lcrng32.jump_source mode p r s adv v h, fun m => Lcrng32.nextRand_modulo_source mode p s m,
    fun m => Lcrng32.nextRand_division_source mode p s m⟩

/-- C133: `LCRNG64` -/
theorem C133_lcrng64 (mode : Mode) (p : Lcrng.Params 64) (s : BitVec 64) :
    (∀ r seed, Calls (Lcrng64.prog p r) mode Lcrng64.Rep 0 1 "re_init" [.sc false 64 seed] s (.ok .none) (Lcrng.reInit s seed)) ∧
    (∀ r, Calls (Lcrng64.prog p r) mode Lcrng64.Rep 0 1 "next" [] s (.ok (.sc false 64 (Lcrng.next p s))) (Lcrng.next p s)) ∧
    (∀ r (adv : BitVec 64), Calls (Lcrng64.prog p r) mode Lcrng64.Rep 0 2 "advance" [.sc false 64 adv] s
      (.ok (.sc false 64 (Lcrng.advance p adv.toNat s))) (Lcrng.advance p adv.toNat s)) ∧
    (∀ r, Calls (Lcrng64.prog p r) mode Lcrng64.Rep 0 2 "next_u32" [] s (.ok (.sc false 32 (Lcrng.nextU32 p s).2))
      (Lcrng.nextU32 p s).1) ∧
    (∀ r adv v, Dist mode v adv → Calls (Lcrng64.prog p r) mode Lcrng64.Rep (adv + 1) 1 "jump" [v] s
      ((Lcrng.jump p adv s).2.map (.sc false 64)) (Lcrng.jump p adv s).1) ∧
    (∀ maximum, Calls (Lcrng64.prog p Source.LCRNG64.next_rand) mode Lcrng64.Rep 0 3 "next_rand" [.sc false 32 maximum] s
      ((Lcrng.nextRand64 p .multiplicationShift maximum s).2.map (.sc false 32))
      (Lcrng.nextRand64 p .multiplicationShift maximum s).1) :=
  ⟨fun r seed => Lcrng64.reInit_source mode p r s seed, fun r => Lcrng64.next_source mode p r s,
    fun r adv => Lcrng64.advance_source mode p r s adv, fun r => Lcrng64.nextU32_source mode p r s,
    fun r adv v h => Lcrng64.jump_source mode p r s adv v h, fun m => Lcrng64.nextRand_source mode p s m⟩

/-- the distances with which `jump` can be called: an `np.uint64` in compiled code, a Python integer or `np.uint32` otherwise -/
example : Dist .numba (.sc false 64 0xFFFFFFFFFFFFFFFF#64) 0xFFFFFFFFFFFFFFFF ∧ Dist .numpy (.int 100000) 100000
    ∧ Dist .numpy (.sc false 32 70000#32) 70000 :=
  ⟨.numba 64 _ (by decide), .int 100000, .numpy 32 70000#32 (by decide)⟩

/-- An `np.uint64`, the annotated type of the distance, is not among them in plain Python: `adv & 1` has no common integer type,
and `jump` raises `TypeError` for every distance but 0. -/
theorem C133_jump_uint64 (p : Lcrng.Params 64) (r : Fun) (s adv : BitVec 64) (h : adv ≠ 0) :
    Calls (Lcrng64.prog p r) .numpy Lcrng64.Rep 1 1 "jump" [.sc false 64 adv] s (.error .typeError) s := by
  refine calls_of Source.LCRNG64.jump rfl ?_
  rintro fuel depth hn - _ rfl
  refine ⟨_, rfl, fun l => ?_⟩
  obtain ⟨n, rfl⟩ : ∃ n, fuel = n + 1 := ⟨fuel - 1, by omega⟩
  have h' : ¬ adv = 0#64 := h
  simp [py, Obj.world, Source.LCRNG64.jump, whileLoop, h']

/-- Source text against source text: in compiled code, on one object, `jump(n)` and `advance(n)` return the same value and leave the
same object. -/
theorem C133_jump_is_advance (p : Lcrng.Params 64) (r : Fun) (s n : BitVec 64) :
    ∃ v s', Calls (Lcrng64.prog p r) .numba Lcrng64.Rep (n.toNat + 1) 2 "jump" [.sc false 64 n] s (.ok v) s' ∧
      Calls (Lcrng64.prog p r) .numba Lcrng64.Rep (n.toNat + 1) 2 "advance" [.sc false 64 n] s (.ok v) s' := by
  have h1 := Lcrng.C01_jump p n.toNat s n.isLt
  have h2 := Lcrng.C03_advance p n.toNat s n.isLt
  have a := Lcrng64.jump_source .numba p r s n.toNat _ (.numba 64 n (le_refl _))
  have b := Lcrng64.advance_source .numba p r s n
  rw [h1] at a
  rw [h2] at b
  exact ⟨_, _, fun f d hf hd => a f d hf (by omega), fun f d hf hd => b f d (by omega) hd⟩

/-! ### xorshift generators -/

/-- C133: `Xorshift128`; the bounds of `next_float_randrange` are `float32` numbers, its result is a double -/
theorem C133_xorshift (mode : Mode) (s : Xorshift128.State) :
    (∀ a b c d, Calls Xorshift.prog mode Xorshift.Rep 0 1 "re_init" [.sc false 32 a, .sc false 32 b, .sc false 32 c, .sc false 32 d] s
      (.ok .none) (Xorshift128.reInit s a b c d)) ∧
    Calls Xorshift.prog mode Xorshift.Rep 0 1 "next" [] s (.ok (.sc false 32 (Xorshift128.next mode s).2)) (Xorshift128.next mode s).1 ∧
    Calls Xorshift.prog mode Xorshift.Rep 0 1 "previous" [] s (.ok (.sc false 32 (Xorshift128.previous mode s).2))
      (Xorshift128.previous mode s).1 ∧
    (∀ adv : BitVec 32, Calls Xorshift.prog mode Xorshift.Rep 0 2 "advance" [.sc false 32 adv] s (.ok .none)
      (Xorshift128.advance mode s adv.toNat)) ∧
    (∀ maximum, Calls Xorshift.prog mode Xorshift.Rep 0 2 "next_rand" [.sc false 32 maximum] s
      ((Xorshift128.nextRand mode s maximum).2.map (wide mode)) (Xorshift128.nextRand mode s maximum).1) ∧
    (∀ lo hi, Calls Xorshift.prog mode Xorshift.Rep 0 2 "next_randrange" [.sc true 32 lo, .sc true 32 hi] s
      ((Xorshift128.nextRandrange mode s lo hi).2.map (.sc false 32)) (Xorshift128.nextRandrange mode s lo hi).1) ∧
    (∀ maximum, Calls Xorshift.prog mode Xorshift.Rep 0 3 "next_alternate_rand" [.sc false 32 maximum] s
      ((Xorshift128.nextAlternateRand mode s maximum).2.map (wide mode)) (Xorshift128.nextAlternateRand mode s maximum).1) ∧
    (∀ lo hi, Calls Xorshift.prog mode Xorshift.Rep 0 2 "next_float_randrange" [.f32 lo, .f32 hi] s
      (.ok (.flt (Xorshift128.nextFloatRandrange mode s lo hi).2)) (Xorshift128.nextFloatRandrange mode s lo hi).1) :=
  ⟨Xorshift.reInit_source mode s, Xorshift.next_source mode s, Xorshift.previous_source mode s, Xorshift.advance_source mode s,
    Xorshift.nextRand_source mode s, Xorshift.nextRandrange_source mode s, Xorshift.nextAlternateRand_source mode s,
    Xorshift.nextFloat_source mode s⟩

/-- Source text against source text: in both modes, on every object, `previous()` after `next()` returns the same value, and the words
of the state are as they were. -/
theorem C133_undo (mode : Mode) (s : Xorshift128.State) :
    ∃ x s', Calls Xorshift.prog mode Xorshift.Rep 0 1 "next" [] s (.ok (.sc false 32 x)) s' ∧
      Calls Xorshift.prog mode Xorshift.Rep 0 1 "previous" [] s' (.ok (.sc false 32 x)) s := by
  have h := Xorshift.previous_source mode (Xorshift128.next mode s).1
  rw [Xorshift128.previous_next] at h
  exact ⟨_, _, Xorshift.next_source mode s, h⟩

/-- an object with the words 5, 6, 7, 8 -/
example : Xorshift.Rep ⟨5, 6, 7, 8⟩ ⟨[("state", .arr "state")], [("state", .w32 4 ⟨fun i => BitVec.ofNat 32 (i + 5)⟩)]⟩ := ⟨_, rfl, rfl⟩

open Verif.Xoroshiro in
/-- C133: `Xoroshiro128PlusRejection`; for `next_rand`, if the loop of the model ends -/
theorem C133_xoroshiro (mode : Mode) (s : State) :
    (∀ a b, Calls Xoroshiro.Rejection.prog mode Xoroshiro.Rep 0 1 "re_init" [.sc false 64 a, .sc false 64 b] s (.ok .none)
      (Rejection.reInit s a b)) ∧
    Calls Xoroshiro.Rejection.prog mode Xoroshiro.Rep 0 2 "next" [] s (.ok (.sc false 64 (Rejection.next mode s).2))
      (Rejection.next mode s).1 ∧
    Calls Xoroshiro.Rejection.prog mode Xoroshiro.Rep 0 2 "previous" [] s (.ok (.sc false 64 (Rejection.previous mode s).2))
      (Rejection.previous mode s).1 ∧
    (∀ adv : BitVec 64, Calls Xoroshiro.Rejection.prog mode Xoroshiro.Rep 0 3 "advance" [.sc false 64 adv] s (.ok .none)
      (advance mode s adv.toNat)) ∧
    (∀ v, Calls Xoroshiro.Rejection.prog mode Xoroshiro.Rep 0 1 "bit_mask" [.sc false 32 v] s
      (.ok (Xoroshiro.Rejection.mask mode (Rejection.bitMask mode v))) s) ∧
    (∀ maximum n s' v, Rejection.nextRand mode n s maximum = some (s', v) →
      Calls Xoroshiro.Rejection.prog mode Xoroshiro.Rep n 3 "next_rand" [.sc false 32 maximum] s (.ok (.sc false 64 v)) s') :=
  ⟨Xoroshiro.Rejection.reInit_source mode s, Xoroshiro.Rejection.next_source mode s, Xoroshiro.Rejection.previous_source mode s,
    Xoroshiro.Rejection.advance_source mode s, Xoroshiro.Rejection.bitMask_source mode s,
    fun m n s' v h => Xoroshiro.Rejection.nextRand_source mode s s' m n v h⟩

/-- a draw of `next_rand` that ends -/
example : (Xoroshiro.Rejection.nextRand .numba 1 ⟨1, 2⟩ 100).map Prod.snd = some 3 := by decide

open Verif.Xoroshiro in
/-- C133: `SplitMixXoroshiro128Plus` -/
theorem C133_splitmix (mode : Mode) (s : State) :
    (∀ a, Calls Xoroshiro.SplitMix.prog mode Xoroshiro.Rep 0 2 "re_init" [.sc false 64 a] s (.ok .none) (SplitMix.reInit s a)) ∧
    (∀ a b, Calls Xoroshiro.SplitMix.prog mode Xoroshiro.Rep 0 1 "splitmix" [.sc false 64 a, .sc false 64 b] s
      (.ok (.sc false 64 (SplitMix.splitmix a b))) s) ∧
    Calls Xoroshiro.SplitMix.prog mode Xoroshiro.Rep 0 2 "next" [] s (.ok (.sc false 32 (SplitMix.next mode s).2))
      (SplitMix.next mode s).1 ∧
    Calls Xoroshiro.SplitMix.prog mode Xoroshiro.Rep 0 2 "previous" [] s (.ok (.sc false 32 (SplitMix.previous mode s).2))
      (SplitMix.previous mode s).1 ∧
    (∀ adv : BitVec 64, Calls Xoroshiro.SplitMix.prog mode Xoroshiro.Rep 0 3 "advance" [.sc false 64 adv] s (.ok .none)
      (advance mode s adv.toNat)) ∧
    (∀ maximum, Calls Xoroshiro.SplitMix.prog mode Xoroshiro.Rep 0 3 "next_rand" [.sc false 32 maximum] s
      ((SplitMix.nextRand mode s maximum).2.map (wide mode)) (SplitMix.nextRand mode s maximum).1) :=
  ⟨Xoroshiro.SplitMix.reInit_source mode s, Xoroshiro.SplitMix.splitmix_source mode s, Xoroshiro.SplitMix.next_source mode s,
    Xoroshiro.SplitMix.previous_source mode s, Xoroshiro.SplitMix.advance_source mode s, Xoroshiro.SplitMix.nextRand_source mode s⟩

/-! ### Mersenne Twisters -/

/-- C133: `MersenneTwister`; the loop of `advance` has as many rounds as there are blocks to shuffle -/
theorem C133_mt (mode : Mode) (s : Mt.State) :
    (∀ seed, Calls Mt.prog mode Mt.Rep 0 1 "re_init" [.sc false 32 seed] s (.ok .none) (Verif.Mt.reInit s seed)) ∧
    Calls Mt.prog mode Mt.Rep 0 1 "shuffle" [] s (.ok .none) (Verif.Mt.shuffle s) ∧
    Calls Mt.prog mode Mt.Rep 0 2 "next" [] s ((Verif.Mt.next s).2.map (wide mode)) (Verif.Mt.next s).1 ∧
    (∀ adv : BitVec 32, Calls Mt.prog mode Mt.Rep (Verif.Mt.advTotal mode adv s.index / 624 + 1) 2 "advance" [.sc false 32 adv] s
      (.ok .none) (Verif.Mt.advance mode s adv)) ∧
    (∀ maximum, Calls Mt.prog mode Mt.Rep 0 3 "next_rand" [.sc false 32 maximum] s
      ((Verif.Mt.nextRand s maximum).2.map (.sc false 32)) (Verif.Mt.nextRand s maximum).1) ∧
    (∀ maximum, Calls Mt.prog mode Mt.Rep 0 3 "next_rand_mod" [.sc false 32 maximum] s
      ((Verif.Mt.nextRandMod mode s maximum).2.map (wide mode)) (Verif.Mt.nextRandMod mode s maximum).1) :=
  ⟨Mt.reInit_source mode s, Mt.shuffle_source mode s, Mt.next_source mode s, Mt.advance_source mode s, Mt.nextRand_source mode s,
    Mt.nextRandMod_source mode s⟩

/-- an object in the middle of a block -/
example (m : Mem) : Mt.Rep ⟨m, 300⟩ ⟨[("state", .arr "state"), ("index", .sc false 16 300#16)], [("state", .w32 624 m)]⟩ :=
  ⟨300#16, rfl, rfl⟩

/-- C133: `sfmt_shuffle`, whatever the attributes of the object with the array are -/
theorem C133_sfmt_shuffle (mode : Mode) (fuel depth : Nat) (m : Mem) (v : Val) (l : List (String × Val)) :
    run Sfmt.prog mode fuel (depth + 1) "sfmt_shuffle" [.arr "state"] ((Sfmt.obj m v).world l)
      = (.ok .none, (Sfmt.obj (Verif.Sfmt.pyShuffle m) v).world l) :=
  Sfmt.shuffleFun_source mode fuel (depth + 1) (by omega) m v l

/-- C133: `SIMDFastMersenneTwister`. Outside compiled code the attribute `index` changes its type (`Sfmt.IsIndex`). -/
theorem C133_sfmt (mode : Mode) (s : Sfmt.State) :
    (∀ seed, Calls Sfmt.prog mode (Sfmt.Rep mode) 0 1 "re_init" [.sc false 32 seed] s (.ok .none) (Verif.Sfmt.reInit s seed)) ∧
    Calls Sfmt.prog mode (Sfmt.Rep mode) 0 2 "shuffle" [] s (.ok .none) (Verif.Sfmt.shuffle s) ∧
    Calls Sfmt.prog mode (Sfmt.Rep mode) 0 3 "next" [] s ((Verif.Sfmt.next s).2.map (.sc false 64)) (Verif.Sfmt.next s).1 ∧
    (∀ adv : BitVec 32, Calls Sfmt.prog mode (Sfmt.Rep mode) (Verif.Sfmt.advTotal mode adv s.index / 624 + 1) 3 "advance"
      [.sc false 32 adv] s (.ok .none) (Verif.Sfmt.advance mode s adv)) ∧
    (∀ maximum, Calls Sfmt.prog mode (Sfmt.Rep mode) 0 4 "next_rand" [.sc false 64 maximum] s
      ((Verif.Sfmt.nextRand mode s maximum).2.map (.sc false 64)) (Verif.Sfmt.nextRand mode s maximum).1) :=
  ⟨Sfmt.reInit_source mode s, Sfmt.shuffle_source mode s, Sfmt.next_source mode s, Sfmt.advance_source mode s,
    Sfmt.nextRand_source mode s⟩

/-- the types of `index` outside compiled code: after `re_init`, `shuffle` and `next` -/
example (m : Mem) : Sfmt.Rep .numpy ⟨m, 624⟩ (Sfmt.obj m (.sc false 16 624)) ∧ Sfmt.Rep .numpy ⟨m, 0⟩ (Sfmt.obj m (.int 0)) ∧
    Sfmt.Rep .numpy ⟨m, 2⟩ (Sfmt.obj m (.sc true 64 2)) :=
  ⟨⟨_, rfl, .inl ⟨624, rfl, rfl⟩⟩, ⟨_, rfl, .inr ⟨rfl, by simp, .inl rfl⟩⟩, ⟨_, rfl, .inr ⟨rfl, by simp, .inr rfl⟩⟩⟩

/-! ### RNGList -/

/-- C133: the class made by `build_rnglist`, for a function `f` that draws from the generator kept in the attribute `rng` and every
kind of array (`RngList.array32`, `RngList.array64`) -/
theorem C133_rnglist {w v size : Nat} {G : Type} {enc : G → Arr} {next : G → G × BitVec v} {f : List Val → M Val} (mode : Mode)
    (A : RngList.Array' w size) (hs : RngList.sizeOk size = true) (h32 : size ≤ 2 ^ 32) (hf : RngList.Draws f enc next)
    (s : RngList.State w G) :
    Calls (RngList.prog mode size f) mode (RngList.Rep A mode enc) 0 2 "re_init" [] s (.ok .none) (Verif.RngList.reInit next size s) ∧
    Calls (RngList.prog mode size f) mode (RngList.Rep A mode enc) 0 2 "advance_state" [] s (.ok .none)
      (Verif.RngList.advanceState mode next size s) ∧
    (∀ adv : BitVec 32, Calls (RngList.prog mode size f) mode (RngList.Rep A mode enc) 0 3 "advance_states" [.sc false 32 adv] s
      (.ok .none) (Verif.RngList.advanceStates mode next size adv.toNat s)) ∧
    (∀ adv : BitVec 32, Calls (RngList.prog mode size f) mode (RngList.Rep A mode enc) 0 1 "advance" [.sc false 32 adv] s
      (.ok .none) (Verif.RngList.advance mode size adv s)) ∧
    Calls (RngList.prog mode size f) mode (RngList.Rep A mode enc) 0 1 "get_value" [] s
      (.ok (.sc false w (Verif.RngList.getValue mode size s).2)) (Verif.RngList.getValue mode size s).1 := by
  obtain ⟨k, hk⟩ := (Verif.RngList.sizeOk_iff size).1 hs
  have h0 : 0 < size := by rw [hk]; positivity
  exact ⟨RngList.reInit_source A h0 h32 hf s, RngList.advanceState_source A h0 h32 hf s,
    RngList.advanceStates_source A h0 h32 hf s, RngList.advance_source A h0 h32 s, RngList.getValue_source A h0 h32 s⟩

/-- a generator kept in an array of one word -/
def drawWord (next : BitVec 32 → BitVec 32 × BitVec 32) (_ : List Val) : M Val := fun w =>
  match get "rng" w.arrays with
  | some (.w32 _ m) => (.ok (.sc false 32 (next (m 0)).2), { w with arrays := put "rng" (.w32 1 ⟨fun _ => (next (m 0)).1⟩) w.arrays })
  | _ => (.error .attributeError, w)

example (next : BitVec 32 → BitVec 32 × BitVec 32) :
    RngList.Draws (drawWord next) (fun g => .w32 1 ⟨fun _ => g⟩) next := by
  intro g w h
  simp [drawWord, h]

/-- a list of 8 words whose oldest one is the third -/
example (m : RngList.Cells 32) (g : BitVec 32) :
    RngList.Rep (RngList.array32 8) .numpy (fun g => .w32 1 ⟨fun _ => g⟩) ⟨g, m, 2, 5⟩
      (RngList.obj (RngList.array32 8) (fun g => .w32 1 ⟨fun _ => g⟩) g m (.int 2) (.sc true 64 5)) :=
  ⟨_, _, rfl, ⟨by simp, .inl rfl⟩, ⟨by simp, .inr rfl⟩, by simp, by simp⟩

/-! ### TinyMersenneTwister -/

/-- C133: `TinyMersenneTwister` -/
theorem C133_tinymt (mode : Mode) (s : TinyMt.State) :
    (∀ seed, Calls TinyMt.prog mode TinyMt.Rep 0 2 "re_init" [.sc false 32 seed] s (.ok .none) (Verif.TinyMt.reInit mode s seed)) ∧
    Calls TinyMt.prog mode TinyMt.Rep 0 1 "shuffle" [] s (.ok .none) (Verif.TinyMt.shuffle mode s) ∧
    Calls TinyMt.prog mode TinyMt.Rep 0 1 "temper" [] s (.ok (.sc true 64 (Verif.TinyMt.temper mode s))) s ∧
    Calls TinyMt.prog mode TinyMt.Rep 0 2 "next" [] s (.ok (.sc true 64 (Verif.TinyMt.next mode s).2)) (Verif.TinyMt.next mode s).1 ∧
    (∀ adv : BitVec 32, Calls TinyMt.prog mode TinyMt.Rep 0 2 "advance" [.sc false 32 adv] s (.ok .none)
      (Verif.TinyMt.advance mode s adv.toNat)) ∧
    (∀ maximum, Calls TinyMt.prog mode TinyMt.Rep 0 3 "next_rand" [.sc false 32 maximum] s
      (.ok (.sc false 32 (Verif.TinyMt.nextRand mode s maximum).2)) (Verif.TinyMt.nextRand mode s maximum).1) ∧
    (∀ maximum, Calls TinyMt.prog mode TinyMt.Rep 0 3 "next_rand_mod" [.sc false 32 maximum] s
      ((Verif.TinyMt.nextRandMod mode s maximum).2.map (.sc true 64)) (Verif.TinyMt.nextRandMod mode s maximum).1) :=
  ⟨TinyMt.reInit_source mode s, TinyMt.shuffle_source mode s, TinyMt.temper_source mode s, TinyMt.next_source mode s,
    TinyMt.advance_source mode s, TinyMt.nextRand_source mode s, TinyMt.nextRandMod_source mode s⟩

/-! ### functions -/

open Verif.Util Verif.Gen3 in
/-- C133: fnv.py, util.py and gen3/util.py. A shift by too large a count is undefined in compiled code (`Util.undef`); a call changes
nothing. `get_gender` and `get_shiny` return plain integers when they are not compiled. -/
theorem C133_functions (mode : Mode) (fuel depth : Nat) (w : World) :
    (∀ cs, run Util.prog mode fuel (depth + 1) "fnv1_64" [.str cs] w = (.ok (.sc false 64 (fnv1 (cs.map (BitVec.ofNat 64)))), w)) ∧
    (∀ cs, run Util.prog mode fuel (depth + 1) "fnv1a_64" [.str cs] w = (.ok (.sc false 64 (fnv1a (cs.map (BitVec.ofNat 64)))), w)) ∧
    (∀ v, run Util.prog mode fuel (depth + 1) "change_endian_u32" [.sc false 32 v] w = (.ok (.sc false 32 (changeEndian v)), w)) ∧
    (∀ v (n : BitVec 8), run Util.prog mode fuel (depth + 1) "rotate_left_u32" [.sc false 32 v, .sc false 8 n] w
      = (Util.undef (rotateLeft32 mode v n.toNat), w)) ∧
    (∀ v (n : BitVec 8), run Util.prog mode fuel (depth + 1) "rotate_right_u32" [.sc false 32 v, .sc false 8 n] w
      = (Util.undef (rotateRight32 mode v n.toNat), w)) ∧
    (∀ v (n : BitVec 8), run Util.prog mode fuel (depth + 1) "rotate_left_u64" [.sc false 64 v, .sc false 8 n] w
      = (Util.undef (rotateLeft64 mode v n.toNat), w)) ∧
    (∀ v (n : BitVec 8), run Util.prog mode fuel (depth + 1) "rotate_right_u64" [.sc false 64 v, .sc false 8 n] w
      = (Util.undef (rotateRight64 mode v n.toNat), w)) ∧
    (∀ pid r, ∃ v, run Util.prog mode fuel (depth + 1) "get_gender" [.sc false 32 pid, .sc false 8 r] w = (.ok v, w)
      ∧ toInt v = some ((getGender pid r).toNat : Int) ∧ (mode = .numba → v = .sc false 8 (getGender pid r))) ∧
    (∀ pid t, ∃ v, run Util.prog mode fuel (depth + 1) "get_shiny" [.sc false 32 pid, .sc false 16 t] w = (.ok v, w)
      ∧ toInt v = some ((getShiny pid t).toNat : Int) ∧ (mode = .numba → v = .sc false 8 (getShiny pid t))) ∧
    (∀ pid f, run Util.prog mode fuel (depth + 1) "unown_check" [.sc false 32 pid, .sc false 8 f] w
      = (.ok (.bool (unownCheck pid f)), w)) :=
  ⟨Util.fnv1_source mode fuel depth w, Util.fnv1a_source mode fuel depth w, Util.changeEndian_source mode fuel depth w,
    Util.rotateLeft32_source mode fuel depth w, Util.rotateRight32_source mode fuel depth w, Util.rotateLeft64_source mode fuel depth w,
    Util.rotateRight64_source mode fuel depth w, Util.getGender_source mode fuel depth w, Util.getShiny_source mode fuel depth w,
    Util.unownCheck_source mode fuel depth w⟩

end Verif.Py
