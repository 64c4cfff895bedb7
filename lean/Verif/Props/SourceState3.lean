import Verif.Py.State3
import Verif.Py.InfoTable
/-
C133 for gen3/state.py and `get_info_table_3` (see `Verif/Props/SourceText.lean`), compiled code only.
-/
namespace Verif.Py
open Verif Gen3 Small

/-- C133: `GeneratorState.__init__`, with `update_stats`, sets every attribute as the model does. `ivs` is a new array with a copy of
the argument and `stats` is a new array with the model's stats; neither depends on what new arrays contain (`junk8`, `junk16`). Each
number may have any integer type. -/
theorem C133_state3_init (junk8 : Nat → BitVec 8) (junk16 : Nat → BitVec 16) (fuel depth : Nat) (hd : 4 ≤ depth)
    (advance pid species form ability level shiny : Nat) (av pv sv fv bv lv hv : Val) (ha : toInt av = some (advance : Int))
    (hp : toInt pv = some (pid : Int)) (hs : toInt sv = some (species : Int)) (hf : toInt fv = some (form : Int)) (hb : toInt bv = some (ability : Int))
    (hl : toInt lv = some (level : Int)) (hh : toInt hv = some (shiny : Int)) (x : String) (ivs : Vector (BitVec 8) 6) (m : Nat → BitVec 8)
    (hm : ∀ i : Fin 6, m i = ivs[i]) (info : Personal) (w : World) (hw : w.fields = []) (hx : get x w.arrays = some (.w8 6 m)) :
    ∃ s xi xs f, State.new .numba advance pid species form ivs ability (BitVec.ofNat 8 level) (BitVec.ofNat 8 shiny) info = .ok s
      ∧ run (State3.prog junk8 junk16) .numba fuel depth "__init__" [av, pv, sv, fv, .arr x, bv, lv, hv, Area3.infoVal info] w
        = (.ok .none, ⟨w.locals, State3.fieldsOf s xi xs, put xs (.w16 6 f) (put xi (.w8 6 m) w.arrays)⟩)
      ∧ get xi w.arrays = none ∧ get xs (put xi (.w8 6 m) w.arrays) = none ∧ ∀ j : Fin 6, f j = s.stats[j] := by
  have e : ivs = Vector.ofFn fun i : Fin 6 => m i := by
    refine Vector.ext fun i hi => ?_
    rw [Vector.getElem_ofFn]
    exact (hm ⟨i, hi⟩).symm
  subst e
  exact State3.call_init junk8 junk16 fuel depth hd advance pid species form ability level shiny av pv sv fv bv lv hv ha hp hs hf hb hl hh x m info w hw hx

/-- `compute_stat` of util.py -/
def statProg : Prog where
  funs := [("compute_stat", Source.compute_stat)]
  globals := [("NATURE_MODIFIERS", ComputeStat.natureTable)]
  fieldTypes := []
  given := [("np.float32", toF32)]

/-- C133: `compute_stat`; the arguments may be any values with these conversions to the declared types -/
theorem C133_compute_stat (fuel depth : Nat) (hd : 2 ≤ depth) (a b c : Val) (stat : BitVec 16) (nature index : BitVec 8) (ha : cast u16 a = .ok (.sc false 16 stat))
    (hb : cast u8 b = .ok (.sc false 8 nature)) (hc : cast u8 c = .ok (.sc false 8 index)) (w : World) :
    run statProg .numba fuel depth "compute_stat" [a, b, c] w = ((Stat.computeStat stat nature.toNat index.toNat).map (.sc false 16), w) := by
  obtain ⟨depth, rfl⟩ : ∃ d, depth = d + 2 := ⟨depth - 2, by omega⟩
  rw [run_succ _ _ _ _ _ _ Source.compute_stat rfl]
  exact ComputeStat.invoke_compute rfl rfl 
    (by funext args; exact Area3.run_given (P := statProg) (mode := .numba) (fuel := fuel) (depth := depth) (f := "np.float32") rfl rfl) fuel ha hb hc w

/-- the text on stat 100, nature Lonely (1): Attack is raised to 110, Defense lowered to 90 -/
example (w : World) : run statProg .numba 0 2 "compute_stat" [literal .numba 100, literal .numba 1, literal .numba 1] w = (.ok (.sc false 16 110), w)
    ∧ run statProg .numba 0 2 "compute_stat" [literal .numba 100, literal .numba 1, literal .numba 2] w = (.ok (.sc false 16 90), w) := by
  constructor
  · rw [C133_compute_stat 0 2 (by decide) _ _ _ 100 1 1 rfl rfl rfl, Stat.C45_exact _ _ _ (by decide) (by decide) (by decide)]
    rfl
  · rw [C133_compute_stat 0 2 (by decide) _ _ _ 100 1 2 rfl rfl rfl, Stat.C45_exact _ _ _ (by decide) (by decide) (by decide)]
    rfl

/-- C133: `get_info_table_3` for a number below 2^32 of any integer type -/
theorem C133_get_info_table_3 (t : Tables) (fuel depth : Nat) (hd : 1 ≤ depth) (v : Val) (game : BitVec 32) (hv : Is v game.toNat) (w : World) :
    run (InfoTable.prog t) .numba fuel depth "get_info_table_3" [v] w = (.ok (Area3.tableOfInfo (getInfoTable3 t game)), w) := by
  obtain ⟨depth, rfl⟩ : ∃ d, depth = d + 1 := ⟨depth - 1, by omega⟩
  exact InfoTable.call_table t fuel depth v game hv w

/-- a Python integer, a `uint32` and a `uint8` as arguments -/
example : Is (literal .numba (1000 : Nat)) 1000 ∧ Is (.sc false 32 0x89ABCDEF#32) 0x89ABCDEF ∧ Is (.sc false 8 4#8) Game.emerald.toNat :=
  ⟨Is.lit 1000 (by decide), Is.uint 0x89ABCDEF#32 (by decide), Is.uint 4#8 (by decide)⟩

/-- C46 fails of the text itself: it gives a Brave Pokemon (PID 2) with all base stats 100 and all IVs 31 at level 100 the Speed 236,
which a Brave nature lowers to 212 in the game. -/
example (junk8 : Nat → BitVec 8) (junk16 : Nat → BitVec 16) : ∃ xi xs f w', run (State3.prog junk8 junk16) .numba 0 4 "__init__"
      [literal .numba (0 : Nat), .sc false 32 2#32, literal .numba (1 : Nat), literal .numba (0 : Nat), .arr "ivs", literal .numba (0 : Nat), .sc false 8 100#8,
        literal .numba (0 : Nat), Area3.infoVal sampleInfo] ⟨[], [], [("ivs", .w8 6 fun _ => 31)]⟩ = (.ok .none, w')
      ∧ get "ivs" w'.fields = some (.arr xi) ∧ get xi w'.arrays = some (.w8 6 fun _ => 31) ∧ get "stats" w'.fields = some (.arr xs)
      ∧ get xs w'.arrays = some (.w16 6 f) ∧ (List.finRange 6).map (fun j => f j.val) = [341, 259, 236, 212, 236, 236] := by
  obtain ⟨s, xi, xs, f, h1, h2, h3, h4, h5⟩ := C133_state3_init junk8 junk16 0 4 (by decide) 0 2 1 0 0 100 0 (literal .numba (0 : Nat)) (.sc false 32 2#32)
    (literal .numba (1 : Nat)) (literal .numba (0 : Nat)) (literal .numba (0 : Nat)) (.sc false 8 100#8) (literal .numba (0 : Nat))
    rfl rfl rfl rfl rfl rfl rfl "ivs" (Vector.replicate 6 31) (fun _ => 31) (by decide) sampleInfo ⟨[], [], [("ivs", .w8 6 fun _ => 31)]⟩ rfl rfl
  obtain ⟨s', g1, g2, g3⟩ := C46_brave
  have : s = s' := by
    have := h1.symm.trans g1
    simpa using this
  subst this
  refine ⟨xi, xs, f, _, h2, rfl, ?_, rfl, ?_, ?_⟩
  · have hne : xi ≠ xs := by
      rintro rfl
      rw [Py.get_put, if_pos rfl] at h4
      cases h4
    simp only [Py.get_put, if_neg hne.symm, if_true]
  · simp only [Py.get_put, if_true]
  · rw [← g3]
    have : s.stats.toList = (List.finRange 6).map fun j => s.stats[j] := by
      refine List.ext_getElem (by simp) fun i h1 h2 => ?_
      simp
    rw [this]
    exact List.map_congr_left fun j _ => h5 j

end Verif.Py
