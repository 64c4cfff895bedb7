import Verif.Py.Wild3
/-
C133 for gen3/wild_generator_3.py: the statements of the loop in `generate`.
-/
namespace Verif.Py.Wild3
open Verif Lcrng Gen3 Area3 Sha1

/-! ### computations and the model -/

/-- the result of a computation is as in the model; the attributes afterwards are `f`, and after an ordinary result `P` holds -/
def Does (f : List (String × Val)) (P : α → β → World → Prop) : Res α → Except PyErr β × World → Prop
  | .ok a, o => ∃ b w, o = (.ok b, w) ∧ w.fields = f ∧ P a b w
  | .err e, o => ∃ w, o = (.error e, w) ∧ w.fields = f
  | .outOfFuel, o => ∃ w, o = (.error .other, w) ∧ w.fields = f

theorem Does.bind {f : List (String × Val)} {P : α → β → World → Prop} {Q : γ → δ → World → Prop} {R : Res α} {K : α → Res γ} {x : M β} {k : β → M δ}
    {w : World} (h : Does f P R (x w)) (hk : ∀ a b w', w'.fields = f → P a b w' → Does f Q (K a) (k b w')) : Does f Q (R >>= K) (M.bind x k w) := by
  match R, h with
  | .ok a, ⟨b, w', h1, h2, h3⟩ =>
    rw [M.bind]
    simp only [h1]
    exact hk a b w' h2 h3
  | .err e, ⟨w', h1, h2⟩ =>
    rw [M.bind]
    simp only [h1]
    exact ⟨w', rfl, h2⟩
  | .outOfFuel, ⟨w', h1, h2⟩ =>
    rw [M.bind]
    simp only [h1]
    exact ⟨w', rfl, h2⟩

theorem Does.map {f : List (String × Val)} {P : α → β → World → Prop} {Q : γ → β → World → Prop} {R : Res α} {K : α → Res γ} {o : Except PyErr β × World}
    (h : Does f P R o) (hk : ∀ a b w', w'.fields = f → P a b w' → ∃ c, K a = .ok c ∧ Q c b w') : Does f Q (R >>= K) o := by
  match R, h with
  | .ok a, ⟨b, w', h1, h2, h3⟩ =>
    obtain ⟨c, h4, h5⟩ := hk a b w' h2 h3
    rw [Res.ok_bind, h4]
    exact ⟨b, w', h1, h2, h5⟩
  | .err e, ⟨w', h1, h2⟩ => exact ⟨w', h1, h2⟩
  | .outOfFuel, ⟨w', h1, h2⟩ => exact ⟨w', h1, h2⟩

theorem Does.mono {f : List (String × Val)} {P Q : α → β → World → Prop} {R : Res α} {o : Except PyErr β × World} (h : Does f P R o)
    (hk : ∀ a b w', w'.fields = f → P a b w' → Q a b w') : Does f Q R o := by
  match R, h with
  | .ok a, ⟨b, w', h1, h2, h3⟩ => exact ⟨b, w', h1, h2, hk a b w' h2 h3⟩
  | .err e, ⟨w', h1, h2⟩ => exact ⟨w', h1, h2⟩
  | .outOfFuel, ⟨w', h1, h2⟩ => exact ⟨w', h1, h2⟩

/-- a statement that goes on -/
def Goes (f : List (String × Val)) (P : α → World → Prop) (R : Res α) (o : Except PyErr Ctl × World) : Prop :=
  Does f (fun a c w => c = .next ∧ P a w) R o

theorem Goes.seq {f : List (String × Val)} {P : α → World → Prop} {Q : γ → Ctl → World → Prop} {R : Res α} {K : α → Res γ} {E : Env} {fuel : Nat}
    {a b : Stmt} {w : World} (h : Goes f P R (exec E [] fuel a w)) (hk : ∀ x w', w'.fields = f → P x w' → Does f Q (K x) (exec E [] fuel b w')) :
    Does f Q (R >>= K) (exec E [] fuel (.seq a b) w) := by
  rw [exec]
  refine Does.bind h ?_
  rintro x c w' hf ⟨rfl, hp⟩
  exact hk x w' hf hp

/-- likewise when the model does nothing -/
theorem next_seq {f : List (String × Val)} {Q : γ → Ctl → World → Prop} {R : Res γ} {E : Env} {fuel : Nat} {a b : Stmt} {w w' : World}
    (h : exec E [] fuel a w = (.ok .next, w')) (hk : Does f Q R (exec E [] fuel b w')) : Does f Q R (exec E [] fuel (.seq a b) w) := by
  rw [Area3.seq_exec h]
  exact hk

theorem Does.assign {f : List (String × Val)} {P : α → Val → World → Prop} {Q : α → World → Prop} {R : Res α} {E : Env} {fuel : Nat} {x : String} {e : Expr}
    {w : World} (h : Does f P R (eval E e w)) (hk : ∀ a v w', P a v w' → Q a { w' with locals := put x v w'.locals }) :
    Goes f Q R (exec E [] fuel (.assign (.var x) e) w) := by
  match R, h with
  | .ok a, ⟨v, w', h1, h2, h3⟩ => exact ⟨.next, _, assign_only h1, h2, rfl, hk a v w' h3⟩
  | .err e, ⟨w', h1, h2⟩ =>
    refine ⟨w', ?_, h2⟩
    rw [exec]
    simp only [M.bind, h1]
  | .outOfFuel, ⟨w', h1, h2⟩ =>
    refine ⟨w', ?_, h2⟩
    rw [exec]
    simp only [M.bind, h1]

/-- a comparison of a drawn number with an operand that does nothing else -/
theorem Does.cmp {f : List (String × Val)} {P : α → Val → World → Prop} {Q : α → Val → World → Prop} {R : Res α} {E : Env} {op : CmpOp} {a b : Expr}
    {w : World} (h : Does f P R (eval E a w))
    (hk : ∀ x v w', w'.fields = f → P x v w' → ∃ u t, eval E b w' = (.ok u, w') ∧ compare op v u = .ok t ∧ Q x t w') : Does f Q R (eval E (.cmp op a b) w) := by
  rw [eval]
  match R, h with
  | .ok x, ⟨v, w', h1, h2, h3⟩ =>
    obtain ⟨u, t, h4, h5, h6⟩ := hk x v w' h2 h3
    refine ⟨t, w', ?_, h2, h6⟩
    simp only [M.bind, h1, h4, M.lift, h5]
  | .err e, ⟨w', h1, h2⟩ =>
    refine ⟨w', ?_, h2⟩
    simp only [M.bind, h1]
  | .outOfFuel, ⟨w', h1, h2⟩ =>
    refine ⟨w', ?_, h2⟩
    simp only [M.bind, h1]

/-! ### the variables -/

/-- the values of the variables during the loop -/
structure Ctx where
  g : WildGenerator3
  area : EncounterArea3
  modified : List Slot3
  R : String
  G : String
  rate : Val
  rse : Val
  ne : R ≠ G
  len : modified.length < 2 ^ 16
  hrate : toInt rate = some (((getEncounterRate area g.encounter).toNat * 16 : Nat) : Int)
  hrse : truth rse = .ok (Game.has (g.game.setWidth 32) (Game.ruby ||| Game.sapphire ||| Game.emerald))

/-- The local variables listed in `l` have these values, the names of the enumerations are not hidden by local variables, and the
generators `rng` and `go` have these seeds. -/
structure In (c : Ctx) (s t : BitVec 32) (l : List (String × Val)) (w : World) : Prop where
  fields : w.fields = fieldsOf c.g
  locs : ∀ x v, get x l = some v → get x w.locals = some v
  none : ∀ y, y ∈ Source.enums3.map Prod.fst → get y w.locals = none
  rng : get c.R w.arrays = some (rngArr s)
  go : get c.G w.arrays = some (rngArr t)

/-- the variables of `generate` -/
def names : List String := ["states", "modified_slots", "rate", "rse_safari", "rse", "cute_charm", "rng", "go", "advance", "encounter_slot", "species", "form",
  "level", "info", "search_nature", "pid", "iv1", "iv2", "ivs", "state", "seed", "delay", "initial_advances", "max_advances", "encounter_area"]

theorem names_ne : ∀ x ∈ names, ∀ y ∈ Source.enums3.map Prod.fst, x ≠ y := by decide +kernel

theorem In.put {c : Ctx} {s t : BitVec 32} {l : List (String × Val)} {w : World} (h : In c s t l w) (x : String) (v : Val) (hx : x ∈ names := by decide) :
    In c s t ((x, v) :: l) { w with locals := Py.put x v w.locals } where
  fields := h.fields
  locs y u hy := by
    simp only [get_put]
    rw [get] at hy
    by_cases hxy : x = y
    · rw [if_pos hxy] at hy ⊢
      exact hy
    · rw [if_neg hxy] at hy ⊢
      exact h.locs y u hy
  none y hy := by
    simp only [get_put]
    rw [if_neg (names_ne x hx y hy)]
    exact h.none y hy
  rng := h.rng
  go := h.go

theorem In.arrays {c : Ctx} {s t t' : BitVec 32} {l : List (String × Val)} {w : World} (h : In c s t l w) :
    In c s t' l { w with arrays := Py.put c.G (rngArr t') w.arrays } where
  fields := h.fields
  locs := h.locs
  none := h.none
  rng := by simp only [get_put]; rw [if_neg (Ne.symm c.ne)]; exact h.rng
  go := by simp [get_put]

theorem In.sub {c : Ctx} {s t : BitVec 32} {l l' : List (String × Val)} {w : World} (h : In c s t l w) (hl : ∀ x v, get x l' = some v → get x l = some v) :
    In c s t l' w :=
  ⟨h.fields, fun x v hv => h.locs x v (hl x v hv), h.none, h.rng, h.go⟩

theorem In.var {c : Ctx} {s t : BitVec 32} {l : List (String × Val)} {w : World} (h : In c s t l w) {E : Env} {x : String} {v : Val} (hx : get x l = some v) :
    eval E (.var x) w = (.ok v, w) := Area3.var_eval (h.locs x v hx)

theorem In.self {c : Ctx} {s t : BitVec 32} {l : List (String × Val)} {w : World} (h : In c s t l w) {x : String} {v : Val} (hx : get x (fieldsOf c.g) = some v) :
    get x w.fields = some v := by rw [h.fields]; exact hx

theorem In.noEnum {c : Ctx} {s t : BitVec 32} {l : List (String × Val)} {w : World} (h : In c s t l w) {y : String} {k : Int} (hy : (y, k) ∈ Source.enums3) :
    get y w.locals = .none := h.none y (List.mem_map_of_mem (f := Prod.fst) hy)

theorem In.eq {c : Ctx} {s t : BitVec 32} {l : List (String × Val)} {w : World} (h : In c s t l w) {F : Nat} {E : Env} (hE : EnvW F E) {f y : String} {e k : BitVec 8}
    (hf : get f (fieldsOf c.g) = some (.sc false 8 e)) (hy : (y, (k.toNat : Int)) ∈ Source.enums3) :
    eval E (.cmp .eq (.self f) (.var y)) w = (.ok (.bool (decide (e = k))), w) := self_eq hE.globals (h.self hf) hy (h.noEnum hy)

/-- a function of the generator `go` -/
theorem gives_does {c : Ctx} {s t : BitVec 32} {l : List (String × Val)} {w : World} (h : In c s t l w) {enc : α → Val} {R : Res (BitVec 32 × α)}
    {o : Except PyErr Val × World} (hg : Gives w c.G enc R o) : Does (fieldsOf c.g) (fun a v w' => v = enc a.2 ∧ In c s a.1 l w') R o := by
  match R, hg with
  | .ok (s', a), hg =>
    rw [Gives] at hg
    exact ⟨_, _, hg, h.fields, rfl, h.arrays⟩
  | .err e, hg =>
    obtain ⟨a, hg⟩ := hg
    exact ⟨_, hg, h.fields⟩

theorem draw_does {c : Ctx} {s t : BitVec 32} {l : List (String × Val)} {w : World} (h : In c s t l w) {E : Env} {f : String} {k : BitVec 16}
    (hc : ∀ x w s, get x w.arrays = some (rngArr s) → Gives w x (short .numba) (draw k s) (E.call f [.arr x] w)) (hgo : get "go" l = some (.arr c.G))
    (h1 : f ≠ "range" := by decide) (h2 : f ≠ "ord" := by decide) :
    Does (fieldsOf c.g) (fun a v w' => v = short .numba a.2 ∧ In c s a.1 l w') (draw k t) (eval E (.call f (.cons (.var "go") .nil)) w) := by
  rw [call_eval h1 h2 (cons_eval (h.var hgo) nil_eval) rfl]
  exact gives_does h (hc _ _ _ h.go)

/-! ### the rate of Rock Smash -/

def rockExpr : Expr :=
  (.and (.var "rse") (.and (.cmp .eq (.self "encounter") (.var "Encounter.ROCK_SMASH")) (.cmp .ge (.call "rand_2880" (.cons (.var "go") .nil)) (.var "rate"))))

theorem rock_does {c : Ctx} {s t : BitVec 32} {l : List (String × Val)} {w : World} (h : In c s t l w) {F : Nat} {E : Env} (hE : EnvW F E)
    (hgo : get "go" l = some (.arr c.G)) (hr : get "rate" l = some c.rate) (hs : get "rse" l = some c.rse) :
    Does (fieldsOf c.g) (fun a v w' => truth v = .ok a.2 ∧ In c s a.1 l w')
      (rockSmashCheck (Game.has (c.g.game.setWidth 32) (Game.ruby ||| Game.sapphire ||| Game.emerald)) c.g.encounter
        ((getEncounterRate c.area c.g.encounter).toNat * 16) t) (eval E rockExpr w) := by
  have hv := c.hrse
  generalize Game.has (c.g.game.setWidth 32) (Game.ruby ||| Game.sapphire ||| Game.emerald) = rse at hv ⊢
  have e1 : eval E rockExpr w = if rse then eval E (.and (.cmp .eq (.self "encounter") (.var "Encounter.ROCK_SMASH"))
      (.cmp .ge (.call "rand_2880" (.cons (.var "go") .nil)) (.var "rate"))) w else (.ok c.rse, w) := by
    rw [rockExpr, eval]
    simp only [M.bind, h.var hs, M.lift, hv]
    cases rse <;> rfl
  rw [e1, rockSmashCheck]
  cases rse with
  | false => exact ⟨_, w, rfl, h.fields, hv, h⟩
  | true =>
    rw [if_pos rfl, Area3.and_eval (h.eq hE (k := Encounter.rockSmash) rfl (by decide +kernel))]
    by_cases he : c.g.encounter = Encounter.rockSmash
    · rw [if_pos ⟨rfl, he⟩, decide_eq_true he, if_pos rfl]
      refine Does.map (Does.cmp (Q := fun a v w' => v = .bool (decide ((getEncounterRate c.area c.g.encounter).toNat * 16 ≤ a.2.toNat)) ∧ In c s a.1 l w')
        (draw_does h hE.rand_2880 hgo) ?_) ?_
      · rintro ⟨t', r⟩ v w' - ⟨rfl, h'⟩
        refine ⟨c.rate, .bool (decide ((getEncounterRate c.area c.g.encounter).toNat * 16 ≤ r.toNat)), h'.var hr, ?_, rfl, h'⟩
        simp only [compare, short_toInt, c.hrate]
        simp only [Nat.cast_le]
      · rintro ⟨t', r⟩ v w' - ⟨rfl, h'⟩
        exact ⟨(t', _), rfl, rfl, h'⟩
    · rw [if_neg (fun e => he e.2), decide_eq_false he, if_neg (by decide)]
      exact ⟨_, w, rfl, h.fields, rfl, h⟩

/-! ### Cute Charm and the nature -/

def cuteStmt : Stmt :=
  (.ite (.or (.cmp .eq (.self "lead") (.var "Lead.CUTE_CHARM_M")) (.cmp .eq (.self "lead") (.var "Lead.CUTE_CHARM_F")))
        (.ite (.and (.cmp .lt (.num 0) (.attr (.var "info") "gender_ratio")) (.cmp .lt (.attr (.var "info") "gender_ratio") (.num 0xFE)))
         (.assign (.var "cute_charm") (.bool false))
         (.assign (.var "cute_charm") (.cmp .ne (.call "rand_3" (.cons (.var "go") .nil)) (.num 0))))
        .pass)

theorem cute_goes {c : Ctx} {s t : BitVec 32} {l : List (String × Val)} {w : World} (h : In c s t l w) {F : Nat} {E : Env} (hE : EnvW F E) (fuel : Nat) (info : Personal)
    (hgo : get "go" l = some (.arr c.G)) (hi : get "info" l = some (infoVal info)) (b : Bool) (hc : get "cute_charm" l = some (.bool b))
    (hb : ¬ (c.g.lead = Lead.cuteCharmM ∨ c.g.lead = Lead.cuteCharmF) → b = false) :
    Goes (fieldsOf c.g) (fun a w' => In c s a.1 (("cute_charm", .bool a.2) :: l) w' ∧ (¬ (c.g.lead = Lead.cuteCharmM ∨ c.g.lead = Lead.cuteCharmF) → a.2 = false))
      (drawCuteCharm c.g.lead info t) (exec E [] fuel cuteStmt w) := by
  have e1 := or_dec (h.eq hE (f := "lead") (y := "Lead.CUTE_CHARM_M") (k := Lead.cuteCharmM) rfl (by decide +kernel))
    (h.eq hE (f := "lead") (y := "Lead.CUTE_CHARM_F") (k := Lead.cuteCharmF) rfl (by decide +kernel))
  rw [cuteStmt, drawCuteCharm]
  by_cases hl : c.g.lead = Lead.cuteCharmM ∨ c.g.lead = Lead.cuteCharmF
  · rw [decide_eq_true hl] at e1
    rw [if_pos hl, Area3.ite_true e1]
    have e2 : eval E (.attr (.var "info") "gender_ratio") w = (.ok (.sc false 8 info.genderRatio), w) := area_attr (h.locs _ _ hi) rfl
    have e3 : eval E (.cmp .lt (.num 0) (.attr (.var "info") "gender_ratio")) w = (.ok (.bool (decide (0 < info.genderRatio))), w) := by
      rw [eval]
      simp only [M.bind, Area3.num_eval hE.mode, e2, M.lift]
      simp [compare, toInt, literal, BitVec.lt_def]
    have e4 : eval E (.cmp .lt (.attr (.var "info") "gender_ratio") (.num 0xFE)) w = (.ok (.bool (decide (info.genderRatio < 254))), w) := by
      rw [show (254 : Int) = ((254 : Nat) : Int) from rfl, cmp_num hE.mode (by decide) e2 rfl]
      simp [compare, toInt, BitVec.lt_def]
    have e5 : eval E (.and (.cmp .lt (.num 0) (.attr (.var "info") "gender_ratio")) (.cmp .lt (.attr (.var "info") "gender_ratio") (.num 0xFE))) w
        = (.ok (.bool (decide (0 < info.genderRatio ∧ info.genderRatio < 254))), w) := by
      rw [Area3.and_eval e3, e4]
      by_cases hz : 0 < info.genderRatio
      · rw [decide_eq_true hz, if_pos rfl]
        congr 3
        exact decide_eq_decide.mpr ⟨fun e => ⟨hz, e⟩, fun e => e.2⟩
      · rw [decide_eq_false hz, if_neg (by decide), decide_eq_false (fun e => hz e.1)]
    by_cases hr : 0 < info.genderRatio ∧ info.genderRatio < 254
    · rw [decide_eq_true hr] at e5
      rw [if_pos hr, Area3.ite_true e5]
      exact ⟨.next, _, assign_only (v := .bool false) (w' := w) rfl, h.fields, rfl, h.put _ _, fun _ => rfl⟩
    · rw [decide_eq_false hr] at e5
      rw [if_neg hr, Area3.ite_false e5]
      refine Does.map (Does.assign (Q := fun a w' => In c s a.1 (("cute_charm", .bool (a.2 != 0)) :: l) w') (Does.cmp
        (Q := fun a v w' => v = .bool (a.2 != 0) ∧ In c s a.1 l w') (draw_does h hE.rand_3 hgo) ?_) ?_) ?_
      · rintro ⟨t', r⟩ v w' - ⟨rfl, h'⟩
        refine ⟨_, .bool (r != 0), Area3.num_eval hE.mode 0, ?_, rfl, h'⟩
        simp only [compare, short_toInt]
        simp only [literal, toInt]
        simp [bne]
        rw [Bool.eq_iff_iff]
        simp [← BitVec.toNat_inj]
      · rintro ⟨t', r⟩ v w' ⟨rfl, h'⟩
        exact h'.put _ _
      · rintro ⟨t', r⟩ v w' - ⟨rfl, h'⟩
        exact ⟨(t', _), rfl, rfl, h', fun h0 => absurd hl h0⟩
  · rw [decide_eq_false hl] at e1
    rw [if_neg hl, Area3.ite_false e1]
    refine ⟨.next, w, rfl, h.fields, rfl, ?_, fun _ => rfl⟩
    obtain rfl := hb hl
    refine h.sub ?_
    intro x v hx
    rw [get] at hx
    by_cases hxy : "cute_charm" = x
    · rw [if_pos hxy] at hx
      rw [← hxy, hc, hx]
    · rw [if_neg hxy] at hx
      exact hx

def natureStmt : Stmt :=
  (.ite (.cmp .le (.self "lead") (.var "Lead.SYNCHRONIZE_QUIRKY"))
        (.assign (.var "search_nature") (.ite (.cmp .eq (.call "rand_2" (.cons (.var "go") .nil)) (.num 0)) (.self "lead") (.call "rand_25" (.cons (.var "go") .nil))))
        (.assign (.var "search_nature") (.call "rand_25" (.cons (.var "go") .nil))))

theorem nature_goes {c : Ctx} {s t : BitVec 32} {l : List (String × Val)} {w : World} (h : In c s t l w) {F : Nat} {E : Env} (hE : EnvW F E) (fuel : Nat)
    (hgo : get "go" l = some (.arr c.G)) :
    Goes (fieldsOf c.g) (fun a w' => ∃ v, toInt v = some (a.2.toNat : Int) ∧ In c s a.1 (("search_nature", v) :: l) w')
      (drawNature c.g.lead t) (exec E [] fuel natureStmt w) := by
  have e1 := self_le hE.globals (k := Lead.synchronizeQuirky) (h.self (x := "lead") rfl) (y := "Lead.SYNCHRONIZE_QUIRKY") (by decide +kernel)
    (h.noEnum (k := (Lead.synchronizeQuirky.toNat : Int)) (by decide +kernel))
  have e2 {w : World} {t : BitVec 32} (h : In c s t l w) : Does (fieldsOf c.g) (fun a v w' => toInt v = some (a.2.toNat : Int) ∧ In c s a.1 l w') (draw 25 t)
      (eval E (.call "rand_25" (.cons (.var "go") .nil)) w) := by
    refine (draw_does h hE.rand_25 hgo).mono ?_
    rintro ⟨t', r⟩ v w' - ⟨rfl, h'⟩
    exact ⟨short_toInt r, h'⟩
  have e3 {R : Res (BitVec 32 × BitVec 16)} {e : Expr} (he : Does (fieldsOf c.g) (fun a v w' => toInt v = some (a.2.toNat : Int) ∧ In c s a.1 l w') R (eval E e w)) :
      Goes (fieldsOf c.g) (fun a w' => ∃ v, toInt v = some (a.2.toNat : Int) ∧ In c s a.1 (("search_nature", v) :: l) w') R
        (exec E [] fuel (.assign (.var "search_nature") e) w) :=
    he.assign fun a v w' ⟨h1, h2⟩ => ⟨v, h1, h2.put _ _⟩
  rw [natureStmt, drawNature]
  by_cases hl : c.g.lead ≤ Lead.synchronizeQuirky
  · rw [decide_eq_true hl] at e1
    rw [if_pos hl, Area3.ite_true e1]
    refine e3 ?_
    rw [eval]
    refine Does.bind (Does.cmp (Q := fun a v w' => v = .bool (decide (a.2 = 0)) ∧ In c s a.1 l w') (draw_does h hE.rand_2 hgo) ?_) ?_
    · rintro ⟨t', r⟩ v w' - ⟨rfl, h'⟩
      refine ⟨_, .bool (decide (r = 0)), Area3.num_eval hE.mode 0, ?_, rfl, h'⟩
      simp only [compare, short_toInt]
      simp only [literal, toInt]
      simp [← BitVec.toNat_inj]
    · rintro ⟨t', r⟩ v w' - ⟨rfl, h'⟩
      by_cases hr : r = 0
      · simp only [M.bind, M.lift, truth, hr, decide_true, if_true]
        refine ⟨.sc false 8 c.g.lead, w', self_eval (h'.self rfl), h'.fields, ?_, h'⟩
        simp [toInt]
        omega
      · simp only [M.bind, M.lift, truth, hr, decide_false, if_false]
        exact e2 h'
  · rw [decide_eq_false hl] at e1
    rw [if_neg hl, Area3.ite_false e1]
    exact e3 (e2 h)

end Verif.Py.Wild3
