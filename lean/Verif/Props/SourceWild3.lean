import Verif.Py.State3
import Verif.Props.WildGen3Term
/-
C133 for gen3/wild_generator_3.py (see `Verif/Props/SourceText.lean`), compiled code only. All the functions that are
called are the source text (gen3/state.py, gen3/encounter_area_3.py, gen3/util.py, lcrng32.py, `compute_stat` and `get_info_table_3`).
-/
namespace Verif.Py
open Verif Lcrng Gen3 Spec.Gen3

/-- the program; `junk8` and `junk16` are what new arrays contain -/
def wildProg (F D : Nat) (junk8 : Nat → BitVec 8) (junk16 : Nat → BitVec 16) (tables : Tables) : Prog :=
  Wild3.prog F D junk8 (State3.newState junk8 junk16 F D) tables

/-- C133: `__init__` makes the generator of the model. The arguments may be any values whose conversions to `uint8` are these. -/
theorem C133_wild3_init (F D fuel depth : Nat) (hD : 1 ≤ D) (hd : 2 ≤ depth) (junk8 : Nat → BitVec 8) (junk16 : Nat → BitVec 16) (tables : Tables) (method encounter lead : BitVec 8) (game : BitVec 32)
    (tid sid : BitVec 16) (mv ev lv gv : Val) (hm : cast u8 mv = .ok (.sc false 8 method)) (he : cast u8 ev = .ok (.sc false 8 encounter))
    (hl : cast u8 lv = .ok (.sc false 8 lead)) (hg : cast u8 gv = .ok (.sc false 8 (game.setWidth 8))) (w : World) (hw : w.fields = []) :
    run (wildProg F D junk8 junk16 tables) .numba fuel depth "__init__" [mv, ev, lv, gv, .sc false 16 tid, .sc false 16 sid] w
      = (.ok .none, ⟨w.locals, Wild3.fieldsOf (WildGenerator3.new tables method encounter lead game tid sid), w.arrays⟩) :=
  Wild3.call_init hD hd junk8 _ tables method encounter lead game tid sid mv ev lv gv hm he hl hg w hw

/-- C133: `cute_charm_check` -/
theorem C133_wild3_cute_charm (F D fuel depth : Nat) (hD : 4 ≤ D) (hd : 2 ≤ depth) (junk8 : Nat → BitVec 8) (junk16 : Nat → BitVec 16) (tables : Tables) (lead : BitVec 8) (pid : BitVec 32)
    (info : Personal) (w : World) (hw : get "lead" w.fields = some (.sc false 8 lead)) :
    run (wildProg F D junk8 junk16 tables) .numba fuel depth "cute_charm_check" [Wild3.pidVal pid, Area3.infoVal info] w
      = (.ok (.bool (cuteCharmCheck lead pid info)), w) := by
  obtain ⟨depth, rfl⟩ : ∃ d, depth = d + 1 := ⟨depth - 1, by omega⟩
  exact (Wild3.env_w (F := F) junk8 (State3.newState_text junk8 junk16 F D hD) tables fuel depth (by omega)).cute lead pid info w hw

/-- C133: `generate` returns the list of states of the model, or raises its error; the attributes of the generator and the local
variables of the caller are as they were. `fuel` is the bound on the PID search in the model and in the text (`other` if it is used
up). `seed` may be any value with this conversion to `uint32`. The other numbers are `uint32` or Python integers below 2^62. What
new arrays contain does not matter (`junk8`, `junk16`). -/
theorem C133_wild3_generate (F D fuel depth : Nat) (hD : 4 ≤ D) (hd : 2 ≤ depth) (junk8 : Nat → BitVec 8) (junk16 : Nat → BitVec 16) (tables : Tables) (g : WildGenerator3)
    (area : EncounterArea3) (seed : BitVec 32) (delay initial max : Nat) (sv dv iv mv : Val) (hsv : cast u32 sv = .ok (.sc false 32 seed))
    (hdv : Wild3.Arg dv delay) (hiv : Wild3.Arg iv initial) (hmv : Wild3.Arg mv max) (hF : initial + delay < F) (w : World)
    (hw : w.fields = Wild3.fieldsOf g) :
    ∃ arrays, run (wildProg F D junk8 junk16 tables) .numba fuel depth "generate" [sv, dv, iv, mv, Area3.areaVal area] w
      = (Area3.excOf Wild3.statesVal (generate g fuel seed delay initial max area), ⟨w.locals, w.fields, arrays⟩) :=
  Wild3.call_generate (by omega) hd junk8 (State3.newState_text junk8 junk16 F D hD) tables g area seed delay initial max sv dv iv mv hsv hdv hiv hmv hF w hw

/-- members of the enumerations as arguments of `__init__`: METHOD_1, ROCK_SMASH, no lead, EMERALD -/
example : cast u8 (literal .numba 1) = .ok (.sc false 8 Method.method1) ∧ cast u8 (literal .numba 4) = .ok (.sc false 8 (Game.emerald.setWidth 8)) := ⟨rfl, rfl⟩
/-- Python integers and `uint32` as arguments of `generate` -/
example : cast u32 (literal .numba 0x1234ABCD) = .ok (.sc false 32 0x1234ABCD) ∧ Wild3.Arg (literal .numba 1000000) 1000000 ∧ Wild3.Arg (.sc false 32 5#32) 5 :=
  ⟨rfl, .int 1000000 (by decide), .word 5⟩

/-- the world of a call on the generator `g` -/
def wildWorld (g : WildGenerator3) : World := ⟨[], Wild3.fieldsOf g, []⟩

/-- The text on a grass generator in Emerald: three advances from advance 5 give three states. -/
example (junk8 : Nat → BitVec 8) (junk16 : Nat → BitVec 16) (tables : Tables) : ∃ (g : WildGenerator3) (area : EncounterArea3) (states : List State) (arrays : List (String × Arr)),
    states.length = 3 ∧ run (wildProg 7 4 junk8 junk16 tables) .numba (2 ^ 31) 2 "generate"
      [literal .numba (7 : Nat), literal .numba (1 : Nat), literal .numba (5 : Nat), literal .numba (3 : Nat), Area3.areaVal area] (wildWorld g)
      = (.ok (Wild3.statesVal states), ⟨[], Wild3.fieldsOf g, arrays⟩) := by
  have wf : WellFormed { rockGenerator with encounter := Encounter.grass } exampleArea := by
    have hmem : ∀ s ∈ slotList exampleArea Encounter.grass, s.minLevel.toNat ≤ s.maxLevel.toNat ∧ s.species.toNat % 2048 < 3 := by decide
    exact ⟨fun s hs => (hmem s hs).1, fun s hs => (hmem s hs).2⟩
  have he : Ends { rockGenerator with encounter := Encounter.grass } exampleArea := by
    have hmem : ∀ s ∈ slotList exampleArea Encounter.grass, s.species.toNat % 2048 ≠ 201 := by decide
    exact ⟨fun s hs h => absurd h (hmem s hs), fun h => absurd h (by decide), fun h => absurd h (by decide)⟩
  have hr : ¬ rockCheck { rockGenerator with encounter := Encounter.grass } := by rintro ⟨-, h⟩; revert h; decide
  obtain ⟨states, hs⟩ := C57_partial _ exampleArea wf he (by intro info h; cases h)
    (by show ∀ s ∈ slotList exampleArea Encounter.grass, s.species.toNat % 1024 < 3; decide) 7 1 5 3 (by norm_num)
  obtain ⟨-, -, hl, -⟩ := C55_partial _ hr (2 ^ 31) 7 1 5 3 exampleArea (by norm_num) states (hs _ (le_refl _))
  obtain ⟨arrays, h⟩ := C133_wild3_generate 7 4 (2 ^ 31) 2 (by decide) (by decide) junk8 junk16 tables { rockGenerator with encounter := Encounter.grass } exampleArea 7 1 5 3 (literal .numba (7 : Nat)) _ _ _
    rfl (.int 1 (by decide)) (.int 5 (by decide)) (.int 3 (by decide)) (by decide) (wildWorld { rockGenerator with encounter := Encounter.grass }) rfl
  rw [hs _ (le_refl _)] at h
  exact ⟨_, exampleArea, states, arrays, hl, h⟩

/-- C55 fails of the text itself: with Rock Smash in Emerald and seed 13 it returns the empty list for advances 0 and 1. -/
example (junk8 : Nat → BitVec 8) (junk16 : Nat → BitVec 16) (tables : Tables) : ∃ arrays, run (wildProg 1 4 junk8 junk16 tables) .numba (2 ^ 31) 2 "generate"
      [literal .numba (13 : Nat), literal .numba (0 : Nat), literal .numba (0 : Nat), literal .numba (2 : Nat), Area3.areaVal exampleArea] (wildWorld rockGenerator)
      = (.ok (Wild3.statesVal []), ⟨[], Wild3.fieldsOf rockGenerator, arrays⟩) := by
  have hskip : skipped rockGenerator exampleArea (after (0 + 0 + 0) 13) := by
    refine ⟨⟨rfl, rfl⟩, ?_⟩
    decide +kernel
  have hgen : generate rockGenerator (2 ^ 31) 13 0 0 2 exampleArea = .ok [] := by
    rw [C55_stops rockGenerator (2 ^ 31) 13 0 0 2 0 exampleArea (by norm_num) (by omega) hskip,
      generate_eq _ _ _ _ _ _ _ (by norm_num)]
    rfl
  obtain ⟨arrays, h⟩ := C133_wild3_generate 1 4 (2 ^ 31) 2 (by decide) (by decide) junk8 junk16 tables rockGenerator exampleArea 13 0 0 2 (literal .numba (13 : Nat)) _ _ _
    rfl (.int 0 (by decide)) (.int 0 (by decide)) (.int 2 (by decide)) (by decide) (wildWorld rockGenerator) rfl
  rw [hgen] at h
  exact ⟨arrays, h⟩

end Verif.Py
