import Verif.Py.Wild3Loop
/-
C133 for gen3/wild_generator_3.py: `generate` as a call, and `__init__`.
-/
namespace Verif.Py.Wild3
open Verif Lcrng Gen3 Area3 Sha1

theorem args_none (a b c d e : Val) (y : String) (hy : y ∈ Source.enums3.map Prod.fst) :
    get y [("seed", a), ("delay", b), ("initial_advances", c), ("max_advances", d), ("encounter_area", e)] = none := by
  rw [get, if_neg (names_ne "seed" (by decide) y hy), get, if_neg (names_ne "delay" (by decide) y hy), get, if_neg (names_ne "initial_advances" (by decide) y hy),
    get, if_neg (names_ne "max_advances" (by decide) y hy), get, if_neg (names_ne "encounter_area" (by decide) y hy), get]

theorem call_generate {F D fuel depth : Nat} (hD : 3 ≤ D) (hdepth : 2 ≤ depth) (junk : Nat → BitVec 8) {ns : List Val → M Val} (hns : StateFun ns) (tables : Tables) (g : WildGenerator3) (area : EncounterArea3)
    (seed : BitVec 32) (delay initial max : Nat) (sv dv iv mv : Val) (hs : cast u32 sv = .ok (.sc false 32 seed)) (hd : Arg dv delay) (hi : Arg iv initial)
    (hm : Arg mv max) (hF : initial + delay < F) (w : World) (hw : w.fields = fieldsOf g) :
    ∃ A, run (prog F D junk ns tables) .numba fuel depth "generate" [sv, dv, iv, mv, areaVal area] w
      = (excOf statesVal (generate g fuel seed delay initial max area), ⟨w.locals, w.fields, A⟩) := by
  obtain ⟨depth, rfl⟩ : ∃ d, depth = d + 2 := ⟨depth - 2, by omega⟩
  rw [run_succ _ _ _ _ _ _ Source.WildGenerator3.generate rfl]
  have hp : Pre g w.arrays [("seed", sv), ("delay", dv), ("initial_advances", iv), ("max_advances", mv), ("encounter_area", areaVal area)]
      ⟨[("seed", sv), ("delay", dv), ("initial_advances", iv), ("max_advances", mv), ("encounter_area", areaVal area)], w.fields, w.arrays⟩ := by
    exact ⟨hw, fun _ _ h => h, args_none _ _ _ _ _, rfl⟩
  have h := generate_does hp hs hd hi hm (env_w junk hns tables fuel depth hD) hF fuel
  generalize generate g fuel seed delay initial max area = r at h ⊢
  have key (q : Except PyErr Val) (w' : World) (hf : w'.fields = fieldsOf g) (e : exec (env F D junk ns tables fuel (depth + 1)) [] fuel Source.WildGenerator3.generate.body
      ⟨[("seed", sv), ("delay", dv), ("initial_advances", iv), ("max_advances", mv), ("encounter_area", areaVal area)], w.fields, w.arrays⟩ = (q.map .ret, w')) :
      ∃ A, invoke (env F D junk ns tables fuel (depth + 1)) fuel Source.WildGenerator3.generate [sv, dv, iv, mv, areaVal area] w = (q, ⟨w.locals, w.fields, A⟩) := by
    refine ⟨w'.arrays, ?_⟩
    have h' := invoke_plain (F := Source.WildGenerator3.generate) (args := [sv, dv, iv, mv, areaVal area]) (w := w) (q := q) rfl rfl rfl rfl e
    rw [h', hf, hw]
  match r, h with
  | .ok a, ⟨c, w', h1, h2, h3⟩ => exact key (.ok (statesVal a)) w' h2 (by rw [h1, h3]; rfl)
  | .err e, ⟨w', h1, h2⟩ => exact key (.error e) w' h2 h1
  | .outOfFuel, ⟨w', h1, h2⟩ => exact key (.error .other) w' h2 h1

/-! ### `__init__` -/

theorem self_assign {E : Env} (hm : E.mode = .numba) {fuel : Nat} {f : String} {e : Expr} {rest : Stmt} {w : World} {v v' : Val} {t : Ty}
    (he : eval E e w = (.ok v, w)) (ht : get f E.fieldTypes = some t) (hc : cast t v = .ok v') :
    exec E [] fuel (.seq (.assign (.self f) e) rest) w = exec E [] fuel rest ⟨w.locals, put f v' w.fields, w.arrays⟩ := by
  rw [exec, exec]
  simp only [M.bind, he, store, storeField, hm, ht, hc, M.pure]

theorem cast_eval {E : Env} {w : World} {e : Expr} {v v' : Val} {t : Ty} (he : eval E e w = (.ok v, w)) (hc : cast t v = .ok v') :
    eval E (.cast t e) w = (.ok v', w) := by
  rw [eval]
  simp only [M.bind, he, M.lift, hc]

theorem emerald_has (g : BitVec 8) : ∃ v, binop .numba .and (.sc false 8 g) (literal .numba (Game.emerald.toNat : Int)) = .ok v
    ∧ truth v = .ok (Game.has (g.setWidth 32) Game.emerald) := by
  refine ⟨_, rfl, ?_⟩
  simp only [truth]
  congr 1
  revert g
  decide +kernel

theorem call_init {F D fuel depth : Nat} (hD : 1 ≤ D) (hdepth : 2 ≤ depth) (junk : Nat → BitVec 8) (ns : List Val → M Val) (tables : Tables) (method encounter lead : BitVec 8) (game : BitVec 32)
    (tid sid : BitVec 16) (mv ev lv gv : Val) (hm : cast u8 mv = .ok (.sc false 8 method)) (he : cast u8 ev = .ok (.sc false 8 encounter))
    (hl : cast u8 lv = .ok (.sc false 8 lead)) (hg : cast u8 gv = .ok (.sc false 8 (game.setWidth 8))) (w : World) (hw : w.fields = []) :
    run (prog F D junk ns tables) .numba fuel depth "__init__" [mv, ev, lv, gv, .sc false 16 tid, .sc false 16 sid] w
      = (.ok .none, ⟨w.locals, fieldsOf (WildGenerator3.new tables method encounter lead game tid sid), w.arrays⟩) := by
  obtain ⟨depth, rfl⟩ : ∃ d, depth = d + 2 := ⟨depth - 2, by omega⟩
  rw [run_succ _ _ _ _ _ _ Source.WildGenerator3.__init__ rfl]
  have c8 (x : BitVec 8) : cast u8 (.sc false 8 x) = .ok (.sc false 8 x) := by simp [py]
  have c16 (x : BitVec 16) : cast u16 (.sc false 16 x) = .ok (.sc false 16 x) := by simp [py]
  have key : exec (env F D junk ns tables fuel (depth + 1)) [] fuel Source.WildGenerator3.__init__.body
      ⟨[("method", mv), ("encounter", ev), ("lead", lv), ("game", gv), ("tid", .sc false 16 tid), ("sid", .sc false 16 sid)], [], w.arrays⟩
      = (.ok .next, ⟨[("method", mv), ("encounter", ev), ("lead", lv), ("game", gv), ("tid", .sc false 16 tid), ("sid", .sc false 16 sid)],
          fieldsOf (WildGenerator3.new tables method encounter lead game tid sid), w.arrays⟩) := by
    generalize hL : [("method", mv), ("encounter", ev), ("lead", lv), ("game", gv), ("tid", Val.sc false 16 tid), ("sid", Val.sc false 16 sid)] = L
    have hLm : get "method" L = some mv := by rw [← hL]; rfl
    have hLe : get "encounter" L = some ev := by rw [← hL]; rfl
    have hLl : get "lead" L = some lv := by rw [← hL]; rfl
    have hLg : get "game" L = some gv := by rw [← hL]; rfl
    have hLt : get "tid" L = some (.sc false 16 tid) := by rw [← hL]; rfl
    have hLs : get "sid" L = some (.sc false 16 sid) := by rw [← hL]; rfl
    have hLE : get "Game.EMERALD" L = none := by rw [← hL]; rfl
    have hLN : get "Lead.NONE" L = none := by rw [← hL]; rfl
    rw [Source.WildGenerator3.__init__]
    simp only
    rw [self_assign rfl (cast_eval (Area3.var_eval hLm) hm) rfl (c8 _), self_assign rfl (cast_eval (Area3.var_eval hLe) he) rfl (c8 _),
      self_assign rfl (cast_eval (Area3.var_eval hLg) hg) rfl (c8 _)]
    obtain ⟨v, v1, v2⟩ := emerald_has (game.setWidth 8)
    generalize hf : put "game" (Val.sc false 8 (game.setWidth 8)) (put "encounter" (Val.sc false 8 encounter) (put "method" (Val.sc false 8 method) [])) = f
    have hfg : get "game" f = some (.sc false 8 (game.setWidth 8)) := by rw [← hf]; rfl
    have e1 : eval (env F D junk ns tables fuel (depth + 1)) (.bin .and (.self "game") (.var "Game.EMERALD")) ⟨L, f, w.arrays⟩ = (.ok v, ⟨L, f, w.arrays⟩) :=
      Area3.bin_eval (self_eval hfg) (Wild3.member rfl (k := (Game.emerald.toNat : Int)) (by decide +kernel) hLE) v1
    have e2 : eval (env F D junk ns tables fuel (depth + 1)) (.cast u8 (.var "Lead.NONE")) ⟨L, f, w.arrays⟩ = (.ok (.sc false 8 Lead.none), ⟨L, f, w.arrays⟩) :=
      cast_eval (Wild3.member rfl (k := (Lead.none.toNat : Int)) (by decide +kernel) hLN) rfl
    have e3 : eval (env F D junk ns tables fuel (depth + 1)) (.ite (.bin .and (.self "game") (.var "Game.EMERALD")) (.cast u8 (.var "lead")) (.cast u8 (.var "Lead.NONE")))
        ⟨L, f, w.arrays⟩ = (.ok (.sc false 8 (if Game.has ((game.setWidth 8).setWidth 32) Game.emerald then lead else Lead.none)), ⟨L, f, w.arrays⟩) := by
      rw [eval]
      simp only [M.bind, e1, M.lift, v2]
      cases Game.has ((game.setWidth 8).setWidth 32) Game.emerald with
      | true => exact cast_eval (Area3.var_eval hLl) hl
      | false => exact e2
    rw [self_assign rfl e3 rfl (c8 _)]
    have e4 (f : List (String × Val)) : eval (env F D junk ns tables fuel (depth + 1)) (.cast u16 (.bin .xor (.var "tid") (.var "sid"))) ⟨L, f, w.arrays⟩
        = (.ok (.sc false 16 (tid ^^^ sid)), ⟨L, f, w.arrays⟩) := by
      refine cast_eval (Area3.bin_eval (Area3.var_eval hLt) (Area3.var_eval hLs) rfl) ?_
      simp [py]
    rw [self_assign rfl (e4 _) rfl (c16 _), ← hf]
    rw [exec]
    have e5 (f : List (String × Val)) (hf : get "game" f = some (.sc false 8 (game.setWidth 8))) :
        eval (env F D junk ns tables fuel (depth + 1)) (.call "get_info_table_3" (.cons (.self "game") .nil)) ⟨L, f, w.arrays⟩
        = (.ok (tableOfInfo (getInfoTable3 tables ((game.setWidth 8).setWidth 32))), ⟨L, f, w.arrays⟩) := by
      refine call_eval (by decide) (by decide) (cons_eval (self_eval hf) nil_eval) ?_
      dsimp only
      rw [run_given (g := run (InfoTable.prog tables) .numba F D "get_info_table_3") rfl rfl]
      obtain ⟨D, rfl⟩ : ∃ d, D = d + 1 := ⟨D - 1, by omega⟩
      refine InfoTable.call_table tables F D _ _ ?_ _
      have h := Small.Is.uint (game.setWidth 8) (by decide)
      rwa [show (game.setWidth 8).toNat = ((game.setWidth 8).setWidth 32).toNat by
        rw [BitVec.toNat_setWidth (x := game.setWidth 8), Nat.mod_eq_of_lt (lt_trans (game.setWidth 8).isLt (by decide))]] at h
    simp only [M.bind]
    rw [e5 _ rfl]
    rfl
  rw [invoke]
  simp only [Source.WildGenerator3.__init__, castArgs, List.length, if_true, List.zip, List.zipWith, hw] at key ⊢
  rw [key]

end Verif.Py.Wild3
