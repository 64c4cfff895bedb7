import Verif.Py.Area3
/-
C133 for calculate_level, is_rse_safari_zone and get_encounter_rate of gen3/encounter_area_3.py.

In calculate_level the variable `rand` is unsigned where it is drawn and signed after `rand -= 1`. numba 0.59 joins the two in
`float64`. The values are less than 2^17, so this type holds them exactly; the theorems speak of the number that is returned and
not of its type.
-/
namespace Verif.Py.Area3
open Verif Lcrng Gen3

theorem assign_exec {E : Env} {fuel : Nat} {x : String} {e : Expr} {rest : Stmt} {w w' : World} {v : Val} (h : eval E e w = (.ok v, w')) :
    exec E [] fuel (.seq (.assign (.var x) e) rest) w = exec E [] fuel rest { w' with locals := put x v w'.locals } := by
  rw [exec, exec]
  simp only [M.bind, h, store, storeLocal, get]
  cases E.mode <;> rfl

theorem assign_fail {E : Env} {fuel : Nat} {x : String} {e : Expr} {rest : Stmt} {w w' : World} {er : PyErr} (h : eval E e w = (.error er, w')) :
    exec E [] fuel (.seq (.assign (.var x) e) rest) w = (.error er, w') := by
  rw [exec, exec]
  simp only [M.bind, h]

theorem var_eval {E : Env} {w : World} {x : String} {v : Val} (h : get x w.locals = some v) : eval E (.var x) w = (.ok v, w) := by
  simp [eval, h]

theorem bin_eval {E : Env} {op : BinOp} {a b : Expr} {w w' w'' : World} {u v : Val} {r : Except PyErr Val} (ha : eval E a w = (.ok u, w'))
    (hb : eval E b w' = (.ok v, w'')) (h : binop E.mode op u v = r) : eval E (.bin op a b) w = (r, w'') := by
  rw [eval]
  simp only [M.bind, ha, hb, M.lift, h]

/-- a function of the generator `x` that returns the number `n`, of some type, or raises -/
def GivesNat (w : World) (x : String) : Res (BitVec 32 × Nat) → Except PyErr Val × World → Prop
  | .ok (s, n), o => ∃ v, toInt v = some (n : Int) ∧ o.1 = .ok v ∧ o.2.fields = w.fields ∧ o.2.arrays = put x (rngArr s) w.arrays
  | .err e, o => o.1 = .error e ∧ o.2.fields = w.fields
  | .outOfFuel, _ => False

theorem level_range (a b : BitVec 8) : ∃ v, binop .numba .sub (.sc false 8 a) (.sc false 8 b) = .ok v
    ∧ ∃ u, binop .numba .add v (literal .numba 1) = .ok u ∧ cast u16 u = .ok (.sc false 16 (a.setWidth 16 - b.setWidth 16 + 1)) := by
  refine ⟨_, rfl, _, rfl, ?_⟩
  simp only [cast, u16, conv]
  congr 2
  apply BitVec.eq_of_toNat_eq
  have := a.isLt
  have := b.isLt
  simp
  omega

theorem level_sum (m : BitVec 8) (r : BitVec 16) : ∃ v, binop .numba .add (.sc false 8 m) (short .numba r) = .ok v ∧ toInt v = some ((m.toNat + r.toNat : Nat) : Int) := by
  refine ⟨_, rfl, ?_⟩
  have := m.isLt
  have := r.isLt
  simp [toInt, conv]
  omega

theorem level_less (m : BitVec 8) (r : BitVec 16) (h : r ≠ 0) : ∃ u, binop .numba .sub (short .numba r) (literal .numba 1) = .ok u
    ∧ ∃ v, binop .numba .add (.sc false 8 m) u = .ok v ∧ toInt v = some ((m.toNat + (r.toNat - 1) : Nat) : Int) := by
  refine ⟨_, rfl, _, rfl, ?_⟩
  have := m.isLt
  have := r.isLt
  have : r.toNat ≠ 0 := fun e => h (BitVec.eq_of_toNat_eq e)
  simp only [toInt, conv]
  simp [BitVec.toInt_eq_toNat_cond]
  omega

theorem seq_exec {E : Env} {fuel : Nat} {a b : Stmt} {w w' : World} (h : exec E [] fuel a w = (.ok .next, w')) :
    exec E [] fuel (.seq a b) w = exec E [] fuel b w' := by
  rw [exec]
  simp only [M.bind, h]

theorem seq_ret {E : Env} {fuel : Nat} {a b : Stmt} {w w' : World} {v : Val} (h : exec E [] fuel a w = (.ok (.ret v), w')) :
    exec E [] fuel (.seq a b) w = (.ok (.ret v), w') := by
  rw [exec]
  simp only [M.bind, h, M.pure]

theorem ite_exec {E : Env} {fuel : Nat} {c : Expr} {a b : Stmt} {w w' : World} {v : Val} {t : Bool} (h : eval E c w = (.ok v, w'))
    (ht : truth v = .ok t) : exec E [] fuel (.ite c a b) w = if t then exec E [] fuel a w' else exec E [] fuel b w' := by
  rw [exec]
  cases t <;> simp [M.bind, h, M.lift, ht]

theorem ite_true {E : Env} {fuel : Nat} {c : Expr} {a b : Stmt} {w w' : World} (h : eval E c w = (.ok (.bool true), w')) :
    exec E [] fuel (.ite c a b) w = exec E [] fuel a w' := ite_exec h (t := true) rfl

theorem ite_false {E : Env} {fuel : Nat} {c : Expr} {a b : Stmt} {w w' : World} (h : eval E c w = (.ok (.bool false), w')) :
    exec E [] fuel (.ite c a b) w = exec E [] fuel b w' := ite_exec h (t := false) rfl

theorem pass_exec {E : Env} {fuel : Nat} {w : World} : exec E [] fuel .pass w = (.ok .next, w) := rfl

theorem num_eval {E : Env} (hE : E.mode = .numba) {w : World} (k : Int) : eval E (.num k) w = (.ok (literal .numba k), w) := by
  rw [eval, hE]
  rfl

/-- the part of `calculate_level` after the number is drawn -/
theorem level_tail {E : Env} (hE : Env3 E) (fuel : Nat) (x : String) (s : BitVec 32) (m mx : BitVec 8) (p : Bool) (r : BitVec 16) (w : World)
    (h2 : get "rng" w.locals = some (.arr x)) (h3 : get "pressure" w.locals = some (.bool p)) (hm : get "minimum" w.locals = some (.sc false 8 m))
    (hmx : get "maximum" w.locals = some (.sc false 8 mx)) (hr : get "rand" w.locals = some (short .numba r)) (hx : get x w.arrays = some (rngArr s)) :
    ∃ v w' n, exec E [] fuel (.seq
       (.ite (.var "pressure")
        (.seq
         (.ite (.cmp .eq (.call "rand_2" (.cons (.var "rng") .nil)) (.num 0))
          (.ret (.var "maximum"))
          .pass)
        (.ite (.cmp .ne (.var "rand") (.num 0))
         (.aug .sub (.var "rand") (.num 1))
         .pass))
        .pass)
      (.ret (.bin .add (.var "minimum") (.var "rand")))) w = (.ok (.ret v), w')
      ∧ w'.fields = w.fields ∧ toInt v = some ((n : Nat) : Int)
      ∧ (if p then ∃ s' z, draw 2 s = .ok (s', z) ∧ w'.arrays = put x (rngArr s') w.arrays ∧ n = (if z = 0 then mx.toNat
          else m.toNat + (if r ≠ 0 then r.toNat - 1 else 0))
        else w'.arrays = w.arrays ∧ n = m.toNat + r.toNat) := by
  have sum_ret (w : World) (u v : Val) (hm : get "minimum" w.locals = some (.sc false 8 m)) (hr : get "rand" w.locals = some u)
      (hv : binop .numba .add (.sc false 8 m) u = .ok v) :
      exec E [] fuel (.ret (.bin .add (.var "minimum") (.var "rand"))) w = (.ok (.ret v), w) :=
    ret_exec (bin_eval (var_eval hm) (var_eval hr) (by rw [hE.mode, hv]))
  obtain ⟨v, hv1, hv2⟩ := level_sum m r
  cases p with
  | false =>
    rw [seq_exec ((ite_false (var_eval h3)).trans pass_exec), sum_ret w _ _ hm hr hv1]
    exact ⟨v, w, _, rfl, rfl, hv2, rfl, rfl⟩
  | true =>
    obtain ⟨s1, z, hz, hd⟩ : ∃ s1 z, eval E (.cmp .eq (.call "rand_2" (.cons (.var "rng") .nil)) (.num 0)) w
      = (.ok (.bool (decide (z = 0))), ⟨w.locals, w.fields, put x (rngArr s1) w.arrays⟩) ∧ draw 2 s = .ok (s1, z) :=
      ⟨_, _, rand_2_zero hE h2 hx, drawn 2 (by decide) s⟩
    obtain ⟨a, ha⟩ : ∃ a, a = put x (rngArr s1) w.arrays := ⟨_, rfl⟩
    rw [← ha] at hz
    by_cases h0 : z = 0
    · rw [decide_eq_true h0] at hz
      have hin : exec E [] fuel (.ite (.cmp .eq (.call "rand_2" (.cons (.var "rng") .nil)) (.num 0)) (.ret (.var "maximum")) .pass) w
          = (.ok (.ret (.sc false 8 mx)), ⟨w.locals, w.fields, a⟩) := by
        rw [ite_true hz]
        exact ret_exec (fuel := fuel) (var_eval (w := ⟨w.locals, w.fields, a⟩) hmx)
      rw [seq_ret ((ite_true (var_eval h3)).trans (seq_ret hin))]
      exact ⟨_, _, mx.toNat, rfl, rfl, rfl, s1, z, hd, ha, by rw [if_pos h0]⟩
    · rw [decide_eq_false h0] at hz
      have hin : exec E [] fuel (.ite (.cmp .eq (.call "rand_2" (.cons (.var "rng") .nil)) (.num 0)) (.ret (.var "maximum")) .pass) w
          = (.ok .next, ⟨w.locals, w.fields, a⟩) := by
        rw [ite_false hz, pass_exec]
      have hne := cmp_num (op := .ne) (k := 0) hE.mode (by decide) (var_eval (E := E) (w := ⟨w.locals, w.fields, a⟩) hr) (short_toInt r)
      have hne' : eval E (.cmp .ne (.var "rand") (.num 0)) ⟨w.locals, w.fields, a⟩ = (.ok (.bool (decide (r ≠ 0))), ⟨w.locals, w.fields, a⟩) := by
        refine hne.trans ?_
        simp [compare, toInt, ← BitVec.toNat_inj]
      by_cases hr0 : r = 0
      · rw [decide_eq_false (not_not_intro hr0)] at hne'
        rw [seq_exec ((ite_true (var_eval h3)).trans ((seq_exec hin).trans ((ite_false hne').trans pass_exec))),
          sum_ret ⟨w.locals, w.fields, a⟩ _ _ hm hr hv1]
        exact ⟨v, _, _, rfl, rfl, hv2, s1, z, hd, ha, by rw [if_neg h0, if_neg (not_not_intro hr0), hr0]; rfl⟩
      · rw [decide_eq_true hr0] at hne'
        obtain ⟨u, hu1, v, hv1, hv2⟩ := level_less m r hr0
        have haug : exec E [] fuel (.aug .sub (.var "rand") (.num 1)) ⟨w.locals, w.fields, a⟩ = (.ok .next, ⟨put "rand" u w.locals, w.fields, a⟩) := by
          rw [exec]
          simp only [M.bind, var_eval (E := E) (w := ⟨w.locals, w.fields, a⟩) hr, num_eval hE.mode, hE.mode, M.lift, hu1, store, storeLocal, get]
          rfl
        rw [seq_exec ((ite_true (var_eval h3)).trans ((seq_exec hin).trans ((ite_true hne').trans haug))),
          sum_ret ⟨put "rand" u w.locals, w.fields, a⟩ u v (by simp [get_put, hm]) (by simp [get_put]) hv1]
        exact ⟨v, _, _, rfl, rfl, hv2, s1, z, hd, ha, by rw [if_neg h0, if_pos hr0]⟩

theorem calculate_level_exec {E : Env} (hE : Env3 E) (fuel : Nat) (slot : Slot3) (x : String) (s : BitVec 32) (p : Bool) (w : World)
    (h1 : get "slot" w.locals = some (slotVal slot)) (h2 : get "rng" w.locals = some (.arr x)) (h3 : get "pressure" w.locals = some (.bool p))
    (hx : get x w.arrays = some (rngArr s)) :
    ∃ (q : Except PyErr Val) (w' : World), exec E [] fuel Source.calculate_level.body w = (q.map .ret, w')
      ∧ GivesNat w x (calculateLevel slot p s) (q, w') := by
  obtain ⟨d, hd, u, hu, hc⟩ := level_range slot.maxLevel slot.minLevel
  rw [Source.calculate_level]
  simp only
  rw [assign_exec (area_attr (x := "slot") (f := "min_level") h1 rfl), assign_exec (area_attr (x := "slot") (f := "max_level") (by rw [get_put, if_neg (by decide)]; exact h1) rfl)]
  have e1 : get "minimum" (put "maximum" (.sc false 8 slot.maxLevel) (put "minimum" (.sc false 8 slot.minLevel) w.locals)) = some (.sc false 8 slot.minLevel) := by simp [get_put]
  have e2 : get "maximum" (put "maximum" (.sc false 8 slot.maxLevel) (put "minimum" (.sc false 8 slot.minLevel) w.locals)) = some (.sc false 8 slot.maxLevel) := by simp [get_put]
  rw [assign_exec (v := u) (bin_eval (bin_eval (var_eval e2) (var_eval e1) (by rw [hE.mode]; exact hd)) (num_eval hE.mode 1) (by rw [hE.mode]; exact hu))]
  obtain ⟨l, hl⟩ : ∃ l, l = put "level_range" u (put "maximum" (.sc false 8 slot.maxLevel) (put "minimum" (.sc false 8 slot.minLevel) w.locals)) := ⟨_, rfl⟩
  simp only [← hl]
  have g1 : get "minimum" l = some (.sc false 8 slot.minLevel) := by simp [hl, get_put]
  have g2 : get "maximum" l = some (.sc false 8 slot.maxLevel) := by simp [hl, get_put]
  have g3 : get "level_range" l = some u := by simp [hl, get_put]
  have g4 : get "rng" l = some (.arr x) := by simp [hl, get_put, h2]
  have g5 : get "pressure" l = some (.bool p) := by simp [hl, get_put, h3]
  have hn := hE.next_rand x ⟨l, w.fields, w.arrays⟩ s u _ hx hc
  have hcall : eval E (.call ".next_rand" (.cons (.var "rng") (.cons (.var "level_range") .nil))) ⟨l, w.fields, w.arrays⟩ = E.call ".next_rand" [.arr x, u] ⟨l, w.fields, w.arrays⟩ := by
    simp [eval, M.bind, g3, g4, M.pure, builtin]
  rw [calculateLevel, draw]
  generalize slot.maxLevel.setWidth 16 - slot.minLevel.setWidth 16 + 1 = k at hn ⊢
  by_cases hk : k = 0
  · have hz : nextRand32 .numba pokeRNGParams .modulo k s = ((nextU16 pokeRNGParams s).1, .error .zeroDivision) := by
      simp [nextRand32, pyMod, hk]
    rw [hz] at hn ⊢
    rw [assign_fail (hcall.trans hn)]
    exact ⟨.error .zeroDivision, _, rfl, rfl, rfl⟩
  · obtain ⟨s1, r, hnr⟩ : ∃ s1 r, nextRand32 .numba pokeRNGParams .modulo k s = (s1, .ok r) := ⟨_, _, nextRand_ok hk s⟩
    rw [hnr] at hn ⊢
    rw [assign_exec (hcall.trans hn)]
    obtain ⟨a, ha⟩ : ∃ a, a = put x (rngArr s1) w.arrays := ⟨_, rfl⟩
    rw [← ha]
    obtain ⟨v, w', n, t1, t2, t3, t4⟩ := level_tail hE fuel x s1 slot.minLevel slot.maxLevel p r ⟨put "rand" (short .numba r) l, w.fields, a⟩
      (by simp [get_put, g4]) (by simp [get_put, g5]) (by simp [get_put, g1]) (by simp [get_put, g2]) (by simp [get_put]) (by rw [ha, get_put, if_pos rfl])
    refine ⟨.ok v, w', t1, ?_⟩
    simp only [Res.ok_bind]
    cases p with
    | false =>
      obtain ⟨t4, rfl⟩ := t4
      exact ⟨v, t3, rfl, t2, t4.trans ha⟩
    | true =>
      rw [if_pos rfl] at t4
      obtain ⟨s2, z, hd, t4, rfl⟩ := t4
      rw [if_pos rfl, hd]
      simp only [Res.ok_bind]
      by_cases h0 : z = 0
      · rw [if_pos h0] at t3 ⊢
        exact ⟨v, t3, rfl, t2, by rw [t4, ha, put_put]⟩
      · rw [if_neg h0] at t3 ⊢
        exact ⟨v, t3, rfl, t2, by rw [t4, ha, put_put]⟩

/-- the call of `calculate_level` -/
theorem call_level {F D fuel depth : Nat} (hD : 3 ≤ D) (hd : 2 ≤ depth) (slot : Slot3) (x : String) (s : BitVec 32) (p : Bool) (w : World)
    (hx : get x w.arrays = some (rngArr s)) :
    GivesNat w x (calculateLevel slot p s) (run (prog F D) .numba fuel depth "calculate_level" [slotVal slot, .arr x, .bool p] w)
      ∧ (run (prog F D) .numba fuel depth "calculate_level" [slotVal slot, .arr x, .bool p] w).2.locals = w.locals := by
  obtain ⟨depth, rfl⟩ := Nat.exists_eq_add_of_le' hd
  obtain ⟨q, w', h1, h2⟩ := calculate_level_exec (env3 F D fuel depth hD) fuel slot x s p
    ⟨[("slot", slotVal slot), ("rng", .arr x), ("pressure", .bool p)], w.fields, w.arrays⟩ rfl rfl rfl hx
  rw [run_succ (prog F D) .numba fuel (depth + 1) _ _ Source.calculate_level rfl]
  have h' : invoke (env F D fuel (depth + 1)) fuel Source.calculate_level [slotVal slot, .arr x, .bool p] w = (q, ⟨w.locals, w'.fields, w'.arrays⟩) :=
    invoke_plain (F := Source.calculate_level) (args := [slotVal slot, .arr x, .bool p]) (w := w) rfl rfl rfl rfl h1
  rw [h']
  refine ⟨?_, rfl⟩
  generalize calculateLevel slot p s = r at h2 ⊢
  match r, h2 with
  | .ok (s, n), h2 => exact h2
  | .err e, h2 => exact h2

/-! ### is_rse_safari_zone -/

/-- values that stand for the game mask `g` in operations of compiled code: a `uint32`, an `int64`, and so on -/
def IsGame (v : Val) (g : BitVec 32) : Prop := ∃ (s : Bool) (n : Nat) (y : BitVec n), v = .sc s n y ∧ conv s 64 y = g.setWidth 64

/-- an expression for the mask `m` -/
def Mask (E : Env) (w : World) (e : Expr) (m : BitVec 32) : Prop := eval E e w = (.ok (.sc true 64 (m.setWidth 64)), w)

theorem mask_member {E : Env} (hE : Env3 E) {w : World} {y : String} {m : BitVec 32} (hy : (y, (m.toNat : Int)) ∈ Source.enums3)
    (hl : get y w.locals = none) : Mask E w (.var y) m := by
  have h := member (enum_get y _ hy) hE hl
  rw [Mask, h]
  have e : BitVec.ofInt 64 (m.toNat : Int) = m.setWidth 64 := by
    apply BitVec.eq_of_toNat_eq
    simp
  rw [literal, e]

theorem mask_or {E : Env} (hE : Env3 E) {w : World} {a b : Expr} {m n : BitVec 32} (ha : Mask E w a m) (hb : Mask E w b n) :
    Mask E w (.bin .or a b) (m ||| n) := by
  refine bin_eval ha hb ?_
  rw [hE.mode]
  simp [binop, numbaBin, isShift, arith, conv, Except.map]

theorem mask_and {E : Env} (hE : Env3 E) {w : World} {x : String} {b : Expr} {v : Val} {g m : BitVec 32} (hx : get x w.locals = some v) (hv : IsGame v g)
    (hb : Mask E w b m) : ∃ u, eval E (.bin .and (.var x) b) w = (.ok u, w) ∧ truth u = .ok (Game.has g m) := by
  obtain ⟨s, n, y, rfl, hy⟩ := hv
  refine ⟨_, bin_eval (var_eval hx) hb (by rw [hE.mode]; rfl), ?_⟩
  have e : conv true 64 (m.setWidth 64) = m.setWidth 64 := by simp [conv]
  simp only [truth, hy, e, Game.has]
  congr 1
  rw [← BitVec.setWidth_and, Bool.eq_iff_iff]
  simp only [bne_iff_ne, ne_eq, ← BitVec.toNat_inj, BitVec.toNat_setWidth]
  rw [Nat.mod_eq_of_lt (by have := (g &&& m).isLt; omega)]
  simp

theorem or_dec {E : Env} {w : World} {a b : Expr} {P Q : Prop} [Decidable P] [Decidable Q] (ha : eval E a w = (.ok (.bool (decide P)), w))
    (hb : eval E b w = (.ok (.bool (decide Q)), w)) : eval E (.or a b) w = (.ok (.bool (decide (P ∨ Q))), w) := by
  rw [or_eval ha, hb]
  by_cases h : P <;> simp [h]

theorem location_eq {E : Env} (hE : Env3 E) {w : World} {x : String} {l : BitVec 16} (hl : get x w.locals = some (.sc false 16 l)) (n : Nat) (i : Int) (hi : i = n) (hn : n < 2 ^ 16) :
    eval E (.cmp .eq (.var x) (.num i)) w = (.ok (.bool (decide (l = BitVec.ofNat 16 n))), w) := by
  subst hi
  rw [cmp_num hE.mode (by omega) (var_eval hl) rfl]
  simp only [compare, toInt]
  have : l = BitVec.ofNat 16 n ↔ l.toNat = n := by
    rw [← BitVec.toNat_inj, BitVec.toNat_ofNat, Nat.mod_eq_of_lt hn]
  simp [this]

theorem is_rse_safari_zone_exec {E : Env} (hE : Env3 E) (fuel : Nat) (area : EncounterArea3) (v : Val) (g : BitVec 32) (hv : IsGame v g) (w : World)
    (hl : w.locals = [("encounter_area", areaVal area), ("game", v)]) :
    ∃ w', exec E [] fuel Source.is_rse_safari_zone.body w = (.ok (.ret (.bool (isRseSafariZone area g))), w') ∧ w'.fields = w.fields ∧ w'.arrays = w.arrays := by
  have h1 : get "encounter_area" w.locals = some (areaVal area) := by rw [hl]; rfl
  rw [Source.is_rse_safari_zone]
  simp only
  rw [assign_exec (area_attr (x := "encounter_area") (f := "location") h1 rfl)]
  have k1 : get "location" (put "location" (Val.sc false 16 area.location) w.locals) = some (.sc false 16 area.location) := by simp [get_put]
  have k2 : get "game" (put "location" (Val.sc false 16 area.location) w.locals) = some v := by rw [get_put, if_neg (by decide), hl]; rfl
  have hn (y : String) (h : y ≠ "encounter_area" := by decide) (h' : y ≠ "game" := by decide) (h'' : y ≠ "location" := by decide) :
      get y (put "location" (Val.sc false 16 area.location) w.locals) = none := by
    simp [get_put, hl, get, Ne.symm h, Ne.symm h', Ne.symm h'']
  generalize put "location" (Val.sc false 16 area.location) w.locals = l at k1 k2 hn
  obtain ⟨loc, hloc⟩ : ∃ loc, area.location = loc := ⟨_, rfl⟩
  rw [hloc] at k1
  refine ⟨⟨l, w.fields, w.arrays⟩, ?_, rfl, rfl⟩
  obtain ⟨u1, e1, t1⟩ := mask_and hE (w := ⟨l, w.fields, w.arrays⟩) k2 hv
    (mask_or hE (mask_member hE (m := Game.ruby) (y := "Game.RUBY") (by decide +kernel) (hn _)) (mask_member hE (m := Game.sapphire) (y := "Game.SAPPHIRE") (by decide +kernel) (hn _)))
  obtain ⟨u2, e2, t2⟩ := mask_and hE (w := ⟨l, w.fields, w.arrays⟩) k2 hv (mask_member hE (m := Game.emerald) (y := "Game.EMERALD") (by decide +kernel) (hn _))
  have d (n : Nat) (i : Int) (hi : i = n := by rfl) (h : n < 2 ^ 16 := by decide) := location_eq hE (w := ⟨l, w.fields, w.arrays⟩) k1 n i hi h
  have c1 := or_dec (d 90 90) (or_dec (d 187 187) (or_dec (d 89 89) (or_dec (d 186 186) (or_dec (d 92 92) (or_dec (d 189 189) (or_dec (d 91 91) (d 188 188)))))))
  have c2 := or_dec (d 73 73) (or_dec (d 98 98) (or_dec (d 74 74) (or_dec (d 20 20) (or_dec (d 97 97) (d 72 72)))))
  rw [isRseSafariZone, hloc]
  have r1 {b : Bool} : exec E [] fuel (.ret (.bool b)) ⟨l, w.fields, w.arrays⟩ = (.ok (.ret (.bool b)), ⟨l, w.fields, w.arrays⟩) :=
    ret_exec (r := .ok (.bool b)) (by rw [eval]; rfl)
  cases hg : Game.has g (Game.ruby ||| Game.sapphire) with
  | true =>
    rw [hg] at t1
    rw [if_pos rfl]
    by_cases hc : loc ∈ [90#16, 187, 89, 186, 92, 189, 91, 188]
    · rw [decide_eq_true (by simpa using hc)] at c1
      rw [seq_ret ((ite_exec e1 t1).trans ((if_pos rfl).trans ((ite_true c1).trans r1))), decide_eq_true hc]
    · rw [decide_eq_false (by simpa using hc)] at c1
      rw [seq_exec ((ite_exec e1 t1).trans ((if_pos rfl).trans ((ite_false c1).trans pass_exec))), r1, decide_eq_false hc]
  | false =>
    rw [hg] at t1
    rw [if_neg (by decide)]
    cases hg2 : Game.has g Game.emerald with
    | true =>
      rw [hg2] at t2
      rw [if_pos rfl]
      by_cases hc : loc ∈ [73#16, 98, 74, 20, 97, 72]
      · rw [decide_eq_true (by simpa using hc)] at c2
        rw [seq_ret ((ite_exec e1 t1).trans ((if_neg (by decide)).trans ((ite_exec e2 t2).trans ((if_pos rfl).trans ((ite_true c2).trans r1))))), decide_eq_true hc]
      · rw [decide_eq_false (by simpa using hc)] at c2
        rw [seq_exec ((ite_exec e1 t1).trans ((if_neg (by decide)).trans ((ite_exec e2 t2).trans ((if_pos rfl).trans ((ite_false c2).trans pass_exec))))), r1, decide_eq_false hc]
    | false =>
      rw [hg2] at t2
      rw [if_neg (by decide), seq_exec ((ite_exec e1 t1).trans ((if_neg (by decide)).trans ((ite_exec e2 t2).trans ((if_neg (by decide)).trans pass_exec)))), r1]

/-- the call of `is_rse_safari_zone` -/
theorem call_safari {F D fuel depth : Nat} (hD : 3 ≤ D) (hd : 2 ≤ depth) (area : EncounterArea3) (v : Val) (g : BitVec 32) (hv : IsGame v g) (w : World) :
    run (prog F D) .numba fuel depth "is_rse_safari_zone" [areaVal area, v] w = (.ok (.bool (isRseSafariZone area g)), w) := by
  obtain ⟨depth, rfl⟩ := Nat.exists_eq_add_of_le' hd
  obtain ⟨w', h1, h2, h3⟩ := is_rse_safari_zone_exec (env3 F D fuel depth hD) fuel area v g hv
    ⟨[("encounter_area", areaVal area), ("game", v)], w.fields, w.arrays⟩ rfl
  rw [run_succ (prog F D) .numba fuel (depth + 1) _ _ Source.is_rse_safari_zone rfl]
  have h' := invoke_plain (F := Source.is_rse_safari_zone) (args := [areaVal area, v]) (w := w) (q := .ok (.bool (isRseSafariZone area g))) rfl rfl rfl rfl h1
  rw [h', h2, h3]

/-- the call of `get_encounter_rate` -/
theorem call_rate {F D fuel depth : Nat} (hD : 3 ≤ D) (hd : 2 ≤ depth) (area : EncounterArea3) (v : Val) (e : BitVec 8)
    (hv : toInt v = some (e.toNat : Int)) (w : World) :
    run (prog F D) .numba fuel depth "get_encounter_rate" [areaVal area, v] w = (.ok (.sc false 8 (getEncounterRate area e)), w) := by
  obtain ⟨depth, rfl⟩ := Nat.exists_eq_add_of_le' hd
  rw [run_succ (prog F D) .numba fuel (depth + 1) _ _ Source.get_encounter_rate rfl]
  have h := invoke_plain (F := Source.get_encounter_rate) (args := [areaVal area, v]) (w := w) (q := .ok (.sc false 8 (getEncounterRate area e))) rfl rfl rfl rfl
    (get_encounter_rate_exec (env3 F D fuel depth hD) fuel area v e hv w)
  exact h

end Verif.Py.Area3
