import Verif.Py.Small
import Verif.Py.Sha1
import Verif.Model.CalcSlotLa
/-
C133 for `EncounterAreaLA.calc_slot` of data/encounter/encounter_area_la.py. Compiled code only.

`self.slots`, an array of records, is a tuple of objects. Multipliers that are infinite or NaN have no value here; the theorem is about
tables without them in the columns used.
-/
namespace Verif.Py.CalcSlot
open Verif Area3 Small Sha1 EncLoadLa CalcSlotLa

/-- a `float32` of this pattern -/
def f32Val (x : BitVec 32) : Val :=
  match f32Value x with
  | some q => .f32 q
  | .none => .none

/-- a record of `SlotLA`, `encounter_area_la.py:10-22` -/
def slotVal (s : SlotLA) : Val :=
  .obj [("species", .sc false 16 s.species), ("gender", .sc false 8 s.gender), ("form", .sc false 8 s.form),
    ("min_level", .sc false 8 s.minLevel), ("max_level", .sc false 8 s.maxLevel), ("guaranteed_ivs", .sc false 8 s.guaranteedIvs),
    ("base_probability", .sc false 32 s.baseProbability), ("is_alpha", .sc false 8 s.isAlpha),
    ("time_multipliers", .tup (s.timeMultipliers.map f32Val)), ("weather_multipliers", .tup (s.weatherMultipliers.map f32Val))]

def fieldAll (f : String) : List Val → Except PyErr (List Val)
  | [] => .ok []
  | .obj fs :: l =>
    match get f fs with
    | some v => (fieldAll f l).map (v :: ·)
    | .none => .error .attributeError
  | _ => .error .typeError

/-- `a.f` of an array of records: the array of the values of the field -/
def column (f : String) : List Val → M Val
  | [.tup vs] => M.lift ((fieldAll f vs).map .tup)
  | _ => M.fail .typeError

def itemAll (i : Val) : List Val → Except PyErr (List Val)
  | [] => .ok []
  | .tup vs :: l =>
    (position vs.length i).bind fun k =>
      match vs[k]? with
      | some v => (itemAll i l).map (v :: ·)
      | .none => .error .indexError
  | _ => .error .typeError

/-- `a[:, i]` -/
def sliceColumn : List Val → M Val
  | [.tup vs, i] => M.lift ((itemAll i vs).map .tup)
  | _ => M.fail .typeError

def sumFrom (c : ℚ) : List Val → Except PyErr ℚ
  | [] => .ok c
  | .flt p :: l => sumFrom (Fp.rnd 53 (c + p)) l
  | _ => .error .typeError

/-- `np.sum(a)` of doubles: the elements in order -/
def npSum : List Val → M Val
  | [.tup vs] => M.lift ((sumFrom 0 vs).map .flt)
  | _ => M.fail .typeError

def pairs : Nat → List Val → List Val
  | _, [] => []
  | k, v :: l => .tup [literal .numba k, v] :: pairs (k + 1) l

/-- `enumerate(a)` -/
def enumerate : List Val → M Val
  | [.tup vs] => M.pure (.tup (pairs 0 vs))
  | _ => M.fail .typeError

/-- the class `EncounterAreaLA` -/
def prog : Prog where
  funs := [("calc_slot", Source.EncounterAreaLA.calc_slot)]
  globals := []
  fieldTypes := []
  given := [(".base_probability", column "base_probability"), (".time_multipliers", column "time_multipliers"),
    (".weather_multipliers", column "weather_multipliers"), ("[:,]", sliceColumn), ("np.sum", npSum), ("enumerate", enumerate)]

theorem fieldAll_map {f : String} {g : SlotLA → Val} (h : ∀ s, ∃ fs, slotVal s = .obj fs ∧ get f fs = some (g s)) (l : List SlotLA) :
    fieldAll f (l.map slotVal) = .ok (l.map g) := by
  induction l with
  | nil => rfl
  | cons s l ih =>
    obtain ⟨fs, h1, h2⟩ := h s
    rw [List.map_cons, h1, fieldAll, h2]
    simp only [ih, Except.map, List.map_cons]

/-- the index of a column -/
theorem itemAll_map {i : Val} {k : Nat} (hi : toInt i = some (k : Int)) {g : SlotLA → List (BitVec 32)} {q : SlotLA → ℚ} (l : List SlotLA)
    (h : ∀ s ∈ l, ∃ b, (g s)[k]? = some b ∧ f32Value b = some (q s)) :
    itemAll i (l.map fun s => .tup ((g s).map f32Val)) = .ok (l.map fun s => .f32 (q s)) := by
  induction l with
  | nil => rfl
  | cons s l ih =>
    obtain ⟨b, h1, h2⟩ := h s (List.mem_cons_self ..)
    have hk : k < (g s).length := (List.getElem?_eq_some_iff.1 h1).1
    have hp : position ((g s).map f32Val).length i = .ok k := by
      rw [position, hi]
      simp only [List.length_map, Int.natCast_nonneg, if_true, Int.toNat_natCast, hk]
    rw [List.map_cons, itemAll, hp]
    simp only [Except.bind, List.getElem?_map, h1, Option.map_some, ih fun s hs => h s (List.mem_cons_of_mem _ hs), Except.map, List.map_cons,
      f32Val, h2]

theorem mul_first (l : List SlotLA) (q : SlotLA → ℚ) :
    arrayBin .mul (l.map fun s => .sc false 32 s.baseProbability) (l.map fun s => .f32 (q s))
      = .ok (l.map fun s => .flt (Fp.rnd 53 (s.baseProbability.toNat * q s))) := by
  induction l with
  | nil => rfl
  | cons s l ih => simp only [List.map_cons, arrayBin, elemBin, floatBin, Except.bind, ih, Except.map]

theorem mul_second (l : List SlotLA) (p q : SlotLA → ℚ) :
    arrayBin .mul (l.map fun s => .flt (p s)) (l.map fun s => .f32 (q s)) = .ok (l.map fun s => .flt (Fp.rnd 53 (p s * q s))) := by
  induction l with
  | nil => rfl
  | cons s l ih => simp only [List.map_cons, arrayBin, elemBin, floatBin, Except.bind, ih, Except.map]

theorem sumFrom_eq (ps : List ℚ) (c : ℚ) : sumFrom c (ps.map .flt) = .ok (ps.foldl (fun c p => Fp.rnd 53 (c + p)) c) := by
  induction ps generalizing c with
  | nil => rfl
  | cons p ps ih => rw [List.map_cons, sumFrom, ih, List.foldl_cons]

/-- the columns used have values, and their products are the model's probabilities -/
theorem probabilities_ok {time weather : Nat} {slots : List SlotLA} {ps : List ℚ} (h : probabilities time weather slots = .ok ps) :
    ∃ t w : SlotLA → ℚ, (∀ s ∈ slots, ∃ b, s.timeMultipliers[time]? = some b ∧ f32Value b = some (t s))
      ∧ (∀ s ∈ slots, ∃ b, s.weatherMultipliers[weather]? = some b ∧ f32Value b = some (w s))
      ∧ ps = slots.map fun s => Fp.rnd 53 (Fp.rnd 53 (s.baseProbability.toNat * t s) * w s) := by
  refine ⟨fun s => ((s.timeMultipliers[time]?).bind f32Value).getD 0, fun s => ((s.weatherMultipliers[weather]?).bind f32Value).getD 0, ?_⟩
  induction slots generalizing ps with
  | nil =>
    rw [probabilities] at h
    injection h with h
    subst h
    exact ⟨by simp, by simp, rfl⟩
  | cons s l ih =>
    rw [probabilities] at h
    simp only [probability, bind, Except.bind, pure, Except.pure] at h
    rcases ht : s.timeMultipliers[time]? with _ | bt
    · simp [ht] at h
    rcases hw : s.weatherMultipliers[weather]? with _ | bw
    · simp [ht, hw] at h
    rcases vt : f32Value bt with _ | qt
    · simp [ht, hw, vt] at h
    rcases vw : f32Value bw with _ | qw
    · simp [ht, hw, vt, vw] at h
    rcases hl : probabilities time weather l with e | ps'
    · simp [ht, hw, vt, vw, hl] at h
    simp only [ht, hw, vt, vw, hl] at h
    injection h with h
    obtain ⟨i1, i2, i3⟩ := ih hl
    refine ⟨?_, ?_, ?_⟩
    · intro s' hs'
      rcases List.mem_cons.1 hs' with rfl | hs'
      · exact ⟨bt, ht, by simp [ht, vt]⟩
      · exact i1 s' hs'
    · intro s' hs'
      rcases List.mem_cons.1 hs' with rfl | hs'
      · exact ⟨bw, hw, by simp [hw, vw]⟩
      · exact i2 s' hs'
    · rw [← h, i3]
      simp [ht, hw, vt, vw]

theorem get_put_self {x : String} {v : Val} {l : List (String × Val)} : get x (put x v l) = some v := by rw [get_put, if_pos rfl]

theorem get_put_ne {x y : String} {v : Val} {l : List (String × Val)} (h : y ≠ x) : get x (put y v l) = get x l := by rw [get_put, if_neg h]

theorem pick_lt (ps : List ℚ) (k : Nat) (s : ℚ) (h : ps ≠ []) : pick k s ps < k + ps.length := by
  induction ps generalizing k s with
  | nil => exact absurd rfl h
  | cons p ps ih =>
    rw [pick, List.length_cons]
    split_ifs
    · omega
    · rcases ps with _ | ⟨q, ps⟩
      · rw [pick, List.length_nil]; omega
      · have := ih (k + 1) (Fp.rnd 53 (s - p)) (List.cons_ne_nil _ _)
        omega

/-- the environment of the method -/
abbrev env (fuel depth : Nat) : Env := ⟨.numba, prog.globals, prog.fieldTypes, run prog .numba fuel depth⟩

theorem given_call {fuel depth : Nat} {f : String} {args : List Val} {g : List Val → M Val} (h : get f prog.funs = none)
    (hg : get f prog.given = some g) : (env fuel (depth + 1)).call f args = g args := Area3.run_given h hg

/-- the body of the loop, `encounter_area_la.py:51-54` -/
def round : Stmt :=
  (.seq
    (.assign (.cons (.var "i") (.cons (.var "probability") .nil)) (.var "(i, probability)"))
    (.seq
      (.ite (.cmp .lt (.var "scaled_rand") (.var "probability")) .break .pass)
      (.aug .sub (.var "scaled_rand") (.var "probability"))))

theorem round_exec {E : Env} (hm : E.mode = .numba) (fuel k : Nat) (p s : ℚ) (l f : List (String × Val)) (a : List (String × Arr))
    (hs : get "scaled_rand" l = some (.flt s)) :
    ∃ l', get "i" l' = some (literal .numba k) ∧ get "scaled_rand" l' = some (.flt (if s < p then s else Fp.rnd 53 (s - p)))
      ∧ (storeLocal E [] "(i, probability)" (.tup [literal .numba k, .flt p])).bind (fun _ => exec E [] fuel round) ⟨l, f, a⟩
        = (.ok (if s < p then .brk else .next), ⟨l', f, a⟩) := by
  have h1 : exec E [] fuel (.assign (.cons (.var "i") (.cons (.var "probability") .nil)) (.var "(i, probability)"))
      ⟨put "(i, probability)" (.tup [literal .numba k, .flt p]) l, f, a⟩
      = (.ok .next, ⟨put "probability" (.flt p) (put "i" (literal .numba k) (put "(i, probability)" (.tup [literal .numba k, .flt p]) l)), f, a⟩) :=
    assign_pair (Area3.var_eval get_put_self)
  generalize hl : put "probability" (.flt p) (put "i" (literal .numba k) (put "(i, probability)" (.tup [literal .numba k, .flt p]) l)) = l1 at h1
  have gp : get "probability" l1 = some (.flt p) := by rw [← hl]; exact get_put_self
  have gi : get "i" l1 = some (literal .numba k) := by rw [← hl, get_put_ne (by decide)]; exact get_put_self
  have gs : get "scaled_rand" l1 = some (.flt s) := by
    rw [← hl, get_put_ne (by decide), get_put_ne (by decide), get_put_ne (by decide)]; exact hs
  have e1 : eval E (.cmp .lt (.var "scaled_rand") (.var "probability")) ⟨l1, f, a⟩ = (.ok (.bool (decide (s < p))), ⟨l1, f, a⟩) := by
    simp only [eval, M.bind, gs, gp, M.lift, compare, toInt]
  rw [M.bind, storeLocal_nil]
  simp only [round, seq_next h1]
  by_cases h : s < p
  · refine ⟨l1, gi, by rw [if_pos h]; exact gs, ?_⟩
    simp only [if_pos h, exec, M.bind, e1, h, decide_true, M.lift, truth, if_true, M.pure]
  · refine ⟨put "scaled_rand" (.flt (Fp.rnd 53 (s - p))) l1, by rw [get_put_ne (by decide)]; exact gi, by rw [if_neg h]; exact get_put_self, ?_⟩
    have := Small.aug_var (E := E) (fuel := fuel) (op := .sub) (e := .var "probability") (w := ⟨l1, f, a⟩) (v := .flt (Fp.rnd 53 (s - p))) hm gs (Area3.var_eval gp) rfl
    have h2 : exec E [] fuel (.ite (.cmp .lt (.var "scaled_rand") (.var "probability")) .break .pass) ⟨l1, f, a⟩ = (.ok .next, ⟨l1, f, a⟩) := by
      rw [exec, M.bind, e1]
      simp [h, M.bind, M.lift, truth, exec, M.pure]
    rw [seq_next h2, this, if_neg h]

theorem loop_exec {E : Env} (hm : E.mode = .numba) (fuel : Nat) (f : List (String × Val)) (a : List (String × Arr)) (ps : List ℚ) (k : Nat) (s : ℚ)
    (l : List (String × Val)) (hs : get "scaled_rand" l = some (.flt s)) :
    ∃ l', (ps = [] → l' = l) ∧ (ps ≠ [] → get "i" l' = some (literal .numba (pick k s ps : Nat)))
      ∧ loop (fun v => (storeLocal E [] "(i, probability)" v).bind fun _ => exec E [] fuel round) (pairs k (ps.map .flt)) ⟨l, f, a⟩
        = (.ok .next, ⟨l', f, a⟩) := by
  induction ps generalizing k s l with
  | nil => exact ⟨l, fun _ => rfl, fun h => absurd rfl h, rfl⟩
  | cons p ps ih =>
    obtain ⟨l1, i1, s1, e1⟩ := round_exec hm fuel k p s l f a hs
    rw [List.map_cons, pairs, loop, M.bind, e1, pick]
    by_cases h : s < p
    · rw [if_pos h, if_pos h]
      exact ⟨l1, fun h => absurd h (List.cons_ne_nil _ _), fun _ => i1, rfl⟩
    · rw [if_neg h, if_neg h]
      rw [if_neg h] at s1
      obtain ⟨l2, n2, i2, e2⟩ := ih (k + 1) _ l1 s1
      refine ⟨l2, fun h => absurd h (List.cons_ne_nil _ _), fun _ => ?_, e2⟩
      rcases ps with _ | ⟨q, ps⟩
      · rw [n2 rfl, i1, pick]
        rfl
      · exact i2 (List.cons_ne_nil _ _)

/-- what `rand` may be: a `float32` or a double -/
def IsReal (v : Val) (q : ℚ) : Prop := v = .f32 q ∨ v = .flt q

theorem call_calc_slot (fuel depth : Nat) (hd : 2 ≤ depth) (slots : List SlotLA) (ps : List ℚ) (time weather : Nat) (tv wv rv : Val) (rand : ℚ)
    (ht : toInt tv = some (time : Int)) (hw : toInt wv = some (weather : Int)) (hr : IsReal rv rand)
    (hps : probabilities time weather slots = .ok ps) (hn : slots.length < 2 ^ 63) (w : World)
    (hf : get "slots" w.fields = some (.tup (slots.map slotVal))) :
    run prog .numba fuel depth "calc_slot" [rv, tv, wv] w = ((calcSlot .numba slots rand time weather).map slotVal, w) := by
  obtain ⟨depth, rfl⟩ : ∃ d, depth = d + 2 := ⟨depth - 2, by omega⟩
  obtain ⟨t, u, h1, h2, rfl⟩ := probabilities_ok hps
  generalize hq : (slots.map fun s => Fp.rnd 53 (Fp.rnd 53 (s.baseProbability.toNat * t s) * u s)) = ps at hps ⊢
  rw [run_succ _ _ _ _ _ _ Source.EncounterAreaLA.calc_slot rfl]
  change invoke (env fuel (depth + 1)) fuel _ _ w = _
  obtain ⟨L, F, A⟩ := w
  replace hf : get "slots" F = some (.tup (slots.map slotVal)) := hf
  have es (l : List (String × Val)) : eval (env fuel (depth + 1)) (.self "slots") ⟨l, F, A⟩ = (.ok (.tup (slots.map slotVal)), ⟨l, F, A⟩) := by
    simp only [eval, hf]
  generalize hL : [("rand", rv), ("time", tv), ("weather", wv)] = l
  have er : get "rand" l = some rv := by rw [← hL]; rfl
  have et : get "time" l = some tv := by rw [← hL]; rfl
  have ew : get "weather" l = some wv := by rw [← hL]; rfl
  have c1 : eval (env fuel (depth + 1)) (.attr (.self "slots") "base_probability") ⟨l, F, A⟩
      = (.ok (.tup (slots.map fun s => .sc false 32 s.baseProbability)), ⟨l, F, A⟩) := by
    rw [eval, M.bind, es]
    change (env fuel (depth + 1)).call ".base_probability" _ _ = _
    rw [given_call rfl rfl, column, fieldAll_map fun s => ⟨_, rfl, rfl⟩]
    rfl
  have c2 : eval (env fuel (depth + 1)) (.call "[:,]" (.cons (.attr (.self "slots") "time_multipliers") (.cons (.var "time") .nil))) ⟨l, F, A⟩
      = (.ok (.tup (slots.map fun s => .f32 (t s))), ⟨l, F, A⟩) := by
    have : eval (env fuel (depth + 1)) (.attr (.self "slots") "time_multipliers") ⟨l, F, A⟩
        = (.ok (.tup (slots.map fun s => .tup (s.timeMultipliers.map f32Val))), ⟨l, F, A⟩) := by
      rw [eval, M.bind, es]
      change (env fuel (depth + 1)).call ".time_multipliers" _ _ = _
      rw [given_call rfl rfl, column, fieldAll_map fun s => ⟨_, rfl, rfl⟩]
      rfl
    refine call_eval (by decide) (by decide) (cons_eval this (cons_eval (Area3.var_eval et) nil_eval)) ?_
    rw [given_call rfl rfl, sliceColumn, itemAll_map ht slots h1]
    rfl
  have c3 : eval (env fuel (depth + 1)) (.call "[:,]" (.cons (.attr (.self "slots") "weather_multipliers") (.cons (.var "weather") .nil))) ⟨l, F, A⟩
      = (.ok (.tup (slots.map fun s => .f32 (u s))), ⟨l, F, A⟩) := by
    have : eval (env fuel (depth + 1)) (.attr (.self "slots") "weather_multipliers") ⟨l, F, A⟩
        = (.ok (.tup (slots.map fun s => .tup (s.weatherMultipliers.map f32Val))), ⟨l, F, A⟩) := by
      rw [eval, M.bind, es]
      change (env fuel (depth + 1)).call ".weather_multipliers" _ _ = _
      rw [given_call rfl rfl, column, fieldAll_map fun s => ⟨_, rfl, rfl⟩]
      rfl
    refine call_eval (by decide) (by decide) (cons_eval this (cons_eval (Area3.var_eval ew) nil_eval)) ?_
    rw [given_call rfl rfl, sliceColumn, itemAll_map hw slots h2]
    rfl
  have c4 := Area3.bin_eval (E := env fuel (depth + 1)) (op := .mul) c1 c2 (r := .ok (.tup (slots.map fun s => .flt (Fp.rnd 53 (s.baseProbability.toNat * t s)))))
    (by rw [binop, mul_first]; rfl)
  have c5 := Area3.bin_eval (E := env fuel (depth + 1)) (op := .mul) c4 c3 (r := .ok (.tup (ps.map .flt)))
    (by rw [binop, mul_second, ← hq, List.map_map]; rfl)
  have a1 := Small.assign_var (fuel := fuel) (x := "probabilities") c5
  generalize hl1 : put "probabilities" (.tup (ps.map .flt)) l = l1 at a1
  have g1 : get "probabilities" l1 = some (.tup (ps.map .flt)) := by rw [← hl1]; exact get_put_self
  have g2 : get "rand" l1 = some rv := by rw [← hl1, get_put_ne (by decide)]; exact er
  have d1 : eval (env fuel (depth + 1)) (.call "np.sum" (.cons (.var "probabilities") .nil)) ⟨l1, F, A⟩ = (.ok (.flt (total ps)), ⟨l1, F, A⟩) := by
    refine call_eval (by decide) (by decide) (cons_eval (Area3.var_eval g1) nil_eval) ?_
    rw [given_call rfl rfl, npSum, sumFrom_eq]
    rfl
  have a2 := Small.assign_var (fuel := fuel) (x := "scaled_rand") (Area3.bin_eval (E := env fuel (depth + 1)) (op := .mul) (Area3.var_eval g2) d1
    (r := .ok (.flt (Fp.rnd 53 (rand * total ps)))) (by rcases hr with rfl | rfl <;> rfl))
  generalize hl2 : put "scaled_rand" (.flt (Fp.rnd 53 (rand * total ps))) l1 = l2 at a2
  have g3 : get "probabilities" l2 = some (.tup (ps.map .flt)) := by rw [← hl2, get_put_ne (by decide)]; exact g1
  have g4 : get "scaled_rand" l2 = some (.flt (Fp.rnd 53 (rand * total ps))) := by rw [← hl2]; exact get_put_self
  have gi : get "i" l2 = none := by rw [← hl2, ← hl1, ← hL]; rfl
  have d2 : eval (env fuel (depth + 1)) (.call "enumerate" (.cons (.var "probabilities") .nil)) ⟨l2, F, A⟩ = (.ok (.tup (pairs 0 (ps.map .flt))), ⟨l2, F, A⟩) := by
    refine call_eval (by decide) (by decide) (cons_eval (Area3.var_eval g3) nil_eval) ?_
    rw [given_call rfl rfl, enumerate]
    rfl
  obtain ⟨l3, n3, i3, e3⟩ := loop_exec (E := env fuel (depth + 1)) rfl fuel F A ps 0 _ l2 g4
  have a3 : exec (env fuel (depth + 1)) [] fuel (.for "(i, probability)" (.call "enumerate" (.cons (.var "probabilities") .nil)) round) ⟨l2, F, A⟩
      = (.ok .next, ⟨l3, F, A⟩) := by
    rw [exec, M.bind, d2]
    exact e3
  have body : exec (env fuel (depth + 1)) [] fuel Source.EncounterAreaLA.calc_slot.body ⟨l, F, A⟩
      = (((calcSlot .numba slots rand time weather).map slotVal).map .ret, ⟨l3, F, A⟩) := by
    rw [Source.EncounterAreaLA.calc_slot]
    refine (seq_next a1).trans ((seq_next a2).trans ((seq_next a3).trans ?_))
    rw [calcSlot, hps]
    simp only [choose]
    rcases ps with _ | ⟨p, ps⟩
    · have hz : slots = [] := by simpa using hq
      rw [hz, exec, M.bind, eval, M.bind, es]
      simp only [M.bind, eval, n3 rfl, gi]
      rfl
    · have hlen : (p :: ps).length = slots.length := by rw [← hq, List.length_map]
      have hlt : pick 0 (Fp.rnd 53 (rand * total (p :: ps))) (p :: ps) < slots.length := by
        have := pick_lt (p :: ps) 0 (Fp.rnd 53 (rand * total (p :: ps))) (List.cons_ne_nil _ _)
        omega
      generalize pick 0 (Fp.rnd 53 (rand * total (p :: ps))) (p :: ps) = k at hlt i3
      have hp : position (slots.map slotVal).length (literal .numba (k : Int)) = .ok k := by
        rw [position_literal _ _ _ (by omega), List.length_map, if_pos hlt]
      have hi : eval (env fuel (depth + 1)) (.var "i") ⟨l3, F, A⟩ = (.ok (literal .numba (k : Int)), ⟨l3, F, A⟩) := Area3.var_eval (i3 (List.cons_ne_nil _ _))
      rw [exec, M.bind, eval, M.bind, es]
      simp only [M.bind, hi, loadItem, hp, Except.bind, List.getElem?_map, List.getElem?_eq_getElem hlt,
        Option.map_some, M.pure, Except.map]
  exact Area3.invoke_plain (w' := ⟨l3, F, A⟩) (w := ⟨L, F, A⟩) rfl rfl rfl rfl (by rw [← hL] at body; exact body)

end Verif.Py.CalcSlot
