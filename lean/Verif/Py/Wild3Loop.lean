import Verif.Py.Wild3Round
/-
C133 for gen3/wild_generator_3.py: `generate` and `__init__`.
-/
namespace Verif.Py.Wild3
open Verif Lcrng Gen3 Area3 Sha1

/-! ### the loop -/

theorem loop_does {c : Ctx} {F : Nat} {E : Env} (hE : EnvW F E) (fuel : Nat) : ∀ (n adv : Nat) (s t : BitVec 32) (states : List State) (b : Bool) (w : World),
    adv + n ≤ 2 ^ 63 → In c s t (base c states b) w → (¬ (c.g.lead = Lead.cuteCharmM ∨ c.g.lead = Lead.cuteCharmF) → b = false) →
    Does (fieldsOf c.g) (fun sts ctl w' => ctl = .next ∧ ∃ s t b, In c s t (base c sts b) w') (generateLoop c.g fuel c.area c.modified n adv s states)
      (loop (fun v => (storeLocal E [] "advance" v).bind fun _ => exec E [] fuel roundStmt) ((List.range n).map fun i => literal .numba ((adv : Int) + (i : Nat))) w)
  | 0, _, s, t, states, b, w, _, h, _ => ⟨.next, w, rfl, h.fields, rfl, s, t, b, h⟩
  | n + 1, adv, s, t, states, b, w, hn, h, hb => by
    have e : (List.range (n + 1)).map (fun i => literal .numba ((adv : Int) + (i : Nat)))
        = literal .numba (adv : Int) :: (List.range n).map fun i => literal .numba (((adv + 1 : Nat) : Int) + (i : Nat)) := by
      rw [List.range_succ_eq_map, List.map_cons, List.map_map]
      congr 1
      simp
      intro i _
      congr 1
      omega
    rw [e, loop, generateLoop]
    refine Does.bind (P := After c s states) ?_ ?_
    · simp only [M.bind, storeLocal_nil]
      exact round_does (h.put "advance" _) hE fuel adv (small_toInt adv (by omega)) hb
    · rintro r ctl w' - ⟨hctl, t', b', h', hb'⟩
      cases r with
      | none =>
        simp only [Option.toList, List.append_nil] at h'
        have hr := loop_does hE fuel n (adv + 1) _ _ _ _ _ (by omega) h' hb'
        rcases hctl with rfl | rfl
        · exact hr
        · exact hr
      | some x =>
        have hr := loop_does hE fuel n (adv + 1) _ _ _ _ _ (by omega) h' hb'
        rcases hctl with rfl | rfl
        · exact hr
        · exact hr

/-! ### arguments -/

/-- the values for an argument: `uint32`, or a Python integer -/
inductive Arg : Val → Nat → Prop
  | word (x : BitVec 32) : Arg (.sc false 32 x) x.toNat
  | int (n : Nat) (h : n < 2 ^ 62) : Arg (literal .numba (n : Int)) n

theorem Arg.lt (h : Arg v n) : n < 2 ^ 62 := by
  cases h with
  | word x => exact lt_trans x.isLt (by decide)
  | int n h => exact h

theorem Arg.toInt (h : Arg v n) : toInt v = some (n : Int) := by
  cases h with
  | word x => rfl
  | int n h => exact small_toInt n (by omega)

theorem Arg.add (h1 : Arg a m) (h2 : Arg b n) : ∃ v, binop .numba .add a b = .ok v ∧ Dist .numba v (m + n) ∧ Py.toInt v = some ((m + n : Nat) : Int) := by
  have l1 := h1.lt
  have l2 := h2.lt
  have key (z : BitVec 64) (hz : z.toNat = m + n) : Dist .numba (.sc true 64 z) (m + n) ∧ Py.toInt (.sc true 64 z) = some ((m + n : Nat) : Int) := by
    refine ⟨?_, ?_⟩
    · have := Dist.long .numba z (by omega)
      rwa [hz] at this
    · simp only [Py.toInt]
      simp [toInt_small (x := z) (by omega), hz]
  cases h1 with
  | word x =>
    cases h2 with
    | word y =>
      have hz : (x.setWidth 64 + y.setWidth 64).toNat = x.toNat + y.toNat := by
        rw [BitVec.toNat_add, pid_toNat, pid_toNat, Nat.mod_eq_of_lt (by omega)]
      refine ⟨.sc false 64 (x.setWidth 64 + y.setWidth 64), rfl, ?_, ?_⟩
      · have := Dist.numba 64 (x.setWidth 64 + y.setWidth 64) (le_refl _)
        rwa [hz] at this
      · simp only [Py.toInt]
        simp [hz]
    | int n h =>
      refine ⟨.sc true 64 (x.setWidth 64 + BitVec.ofInt 64 n), rfl, ?_⟩
      apply key
      have := x.isLt
      simp
      omega
  | int m h =>
    cases h2 with
    | word y =>
      refine ⟨.sc true 64 (BitVec.ofInt 64 m + y.setWidth 64), rfl, ?_⟩
      apply key
      have := y.isLt
      simp
      omega
    | int n h =>
      refine ⟨.sc true 64 (BitVec.ofInt 64 m + BitVec.ofInt 64 n), rfl, ?_⟩
      apply key
      simp
      omega

theorem rate_mul (r : BitVec 8) : ∃ v, binop .numba .mul (.sc false 8 r) (literal .numba 0x10) = .ok v ∧ toInt v = some ((r.toNat * 16 : Nat) : Int) := by
  refine ⟨_, rfl, ?_⟩
  have h : (conv false 64 r * conv true 64 (BitVec.ofInt 64 0x10)).toNat = r.toNat * 16 := by
    have := r.isLt
    simp [conv]
    omega
  simp only [toInt, Bool.or_true, if_true]
  rw [toInt_small (by rw [h]; omega), h]

theorem rse_mask : ∃ m, (∃ u, binop .numba .or (literal .numba (Game.ruby.toNat : Int)) (literal .numba (Game.sapphire.toNat : Int)) = .ok u
      ∧ binop .numba .or u (literal .numba (Game.emerald.toNat : Int)) = .ok m)
    ∧ ∀ g : BitVec 8, ∃ v, binop .numba .and (.sc false 8 g) m = .ok v
      ∧ truth v = .ok (Game.has (g.setWidth 32) (Game.ruby ||| Game.sapphire ||| Game.emerald)) := by
  refine ⟨_, ⟨_, rfl, rfl⟩, fun g => ⟨_, rfl, ?_⟩⟩
  simp only [truth]
  congr 1
  revert g
  decide +kernel

theorem filter_length (table : List Personal) (t : BitVec 8) : ∀ (slots enc r : List Slot3), filterLoop table t slots enc = .ok r → r.length ≤ enc.length + slots.length
  | [], enc, r, h => by
    rw [filterLoop] at h
    cases h
    simp
  | slot :: rest, enc, r, h => by
    rw [filterLoop] at h
    split at h
    · cases h
    · split at h
      · have := filter_length table t rest _ r h
        simp at this ⊢
        omega
      · have := filter_length table t rest _ r h
        simp at this ⊢
        omega

theorem modified_length {area : EncounterArea3} {e k : BitVec 8} {g : BitVec 32} {table : List Personal} {r : List Slot3}
    (h : getModifiedSlots area e k g table = .ok r) : r.length < 2 ^ 16 := by
  rw [getModifiedSlots] at h
  split at h
  · cases h
    simp
  · repeat' split at h
    all_goals
      have := filter_length _ _ _ _ _ h
      simp at this
      omega

/-! ### before the loop -/

/-- as `In`, before the generators exist -/
structure Pre (g : WildGenerator3) (A : List (String × Arr)) (l : List (String × Val)) (w : World) : Prop where
  fields : w.fields = fieldsOf g
  locs : ∀ x v, get x l = some v → get x w.locals = some v
  none : ∀ y, y ∈ Source.enums3.map Prod.fst → get y w.locals = none
  arrays : w.arrays = A

theorem Pre.put {g : WildGenerator3} {A : List (String × Arr)} {l : List (String × Val)} {w : World} (h : Pre g A l w) (x : String) (v : Val) (hx : x ∈ names := by decide) :
    Pre g A ((x, v) :: l) { w with locals := Py.put x v w.locals } where
  fields := h.fields
  locs y u hy := by
    simp only [get_put]
    rw [get] at hy
    by_cases hxy : x = y
    · rw [if_pos hxy] at hy ⊢
      exact hy
    · rw [if_neg hxy] at hy ⊢
      exact h.locs y u hy
  none y hy := by
    simp only [get_put]
    rw [if_neg (names_ne x hx y hy)]
    exact h.none y hy
  arrays := h.arrays

theorem Pre.var {g : WildGenerator3} {A : List (String × Arr)} {l : List (String × Val)} {w : World} (h : Pre g A l w) {E : Env} {x : String} {v : Val}
    (hx : get x l = some v) : eval E (.var x) w = (.ok v, w) := Area3.var_eval (h.locs x v hx)

theorem Pre.self {g : WildGenerator3} {A : List (String × Arr)} {l : List (String × Val)} {w : World} (h : Pre g A l w) {x : String} {v : Val}
    (hx : get x (fieldsOf g) = some v) : get x w.fields = some v := by rw [h.fields]; exact hx

theorem Pre.member {g : WildGenerator3} {A : List (String × Arr)} {l : List (String × Val)} {w : World} (h : Pre g A l w) {F : Nat} {E : Env} (hE : EnvW F E)
    {y : String} {k : Int} (hy : (y, k) ∈ Source.enums3) : eval E (.var y) w = (.ok (literal .numba k), w) :=
  Wild3.member hE.globals hy (h.none y (List.mem_map_of_mem (f := Prod.fst) hy))

/-- `PokeRNGMod(e)` -/
theorem new_eval {E : Env} {F : Nat} (hE : EnvW F E) {w : World} {e : Expr} {v : Val} {s : BitVec 32} (he : eval E e w = (.ok v, w))
    (hv : cast u32 v = .ok (.sc false 32 s)) : eval E (.call "PokeRNGMod" (.cons e .nil)) w
      = (.ok (.arr (fresh w.arrays)), { w with arrays := put (fresh w.arrays) (rngArr s) w.arrays }) := by
  refine call_eval (by decide) (by decide) (cons_eval he nil_eval) ?_
  rw [hE.newRng, newRng]
  simp only [hv]
  simp

theorem generate_body : Source.WildGenerator3.generate.body =
    (.seq
     (.assign (.var "states") (.call "TypedList" .nil))
    (.seq
     (.assign (.var "modified_slots") (.call "get_modified_slots" (.cons (.var "encounter_area") (.cons (.self "encounter") (.cons (.self "lead") (.cons (.self "game") (.cons (.self "personal_info_table") .nil)))))))
    (.seq
     (.assign (.var "rate") (.bin .mul (.call "get_encounter_rate" (.cons (.var "encounter_area") (.cons (.self "encounter") .nil))) (.num 0x10)))
    (.seq
     (.assign (.var "rse_safari") (.call "is_rse_safari_zone" (.cons (.var "encounter_area") (.cons (.self "game") .nil))))
    (.seq
     (.assign (.var "rse") (.bin .and (.self "game") (.bin .or (.bin .or (.var "Game.RUBY") (.var "Game.SAPPHIRE")) (.var "Game.EMERALD"))))
    (.seq
     (.assign (.var "cute_charm") (.bool false))
    (.seq
     (.assign (.var "rng") (.call "PokeRNGMod" (.cons (.var "seed") .nil)))
    (.seq
     (.assign (.var "go") (.call "PokeRNGMod" (.cons (.num 0) .nil)))
    (.seq
     (.expr (.call ".jump" (.cons (.var "rng") (.cons (.bin .add (.var "initial_advances") (.var "delay")) .nil))))
    (.seq
     (.for "advance" (.call "range" (.cons (.var "initial_advances") (.cons (.bin .add (.var "initial_advances") (.var "max_advances")) .nil)))
      roundStmt)
    (.ret (.var "states")))))))))))) := rfl

/-- the loop and `return states` -/
theorem finish_does {c : Ctx} {s' : BitVec 32} {iv mv : Val} {w9 : World} (h9 : In c s' 0 (("initial_advances", iv) :: ("max_advances", mv) :: base c [] false) w9)
    {initial max : Nat} (hi : Arg iv initial) (hm : Arg mv max) {F : Nat} {E : Env} (hE : EnvW F E) (fuel : Nat) :
    Does (fieldsOf c.g) (fun sts ctl _ => ctl = .ret (statesVal sts)) (generateLoop c.g fuel c.area c.modified max initial s' [])
      (exec E [] fuel (.seq
     (.for "advance" (.call "range" (.cons (.var "initial_advances") (.cons (.bin .add (.var "initial_advances") (.var "max_advances")) .nil)))
      roundStmt)
    (.ret (.var "states"))) w9) := by
  have e1 : eval E (.var "initial_advances") w9 = (.ok iv, w9) := h9.var rfl
  have e2 : eval E (.var "max_advances") w9 = (.ok mv, w9) := h9.var rfl
  obtain ⟨bv, b1, -, b3⟩ := hi.add hm
  have e11 : eval E (.call "range" (.cons (.var "initial_advances") (.cons (.bin .add (.var "initial_advances") (.var "max_advances")) .nil))) w9
      = (.ok (.tup ((List.range max).map fun i => literal .numba ((initial : Int) + (i : Nat)))), w9) := by
    have ea : eval E (.cons (.var "initial_advances") (.cons (.bin .add (.var "initial_advances") (.var "max_advances")) .nil)) w9 = (.ok (.tup [iv, bv]), w9) :=
      cons_eval e1 (cons_eval (Area3.bin_eval e1 e2 (by rw [hE.mode]; exact b1)) nil_eval)
    have hz : (((initial + max : Nat) : Int) - (initial : Int)).toNat = max := by omega
    rw [eval]
    simp only [M.bind, ea, builtin, if_true, M.lift, range, hi.toInt, b3, hz, hE.mode]
  have h10 : In c s' 0 (base c [] false) w9 := h9.sub fun y v hy => by
    rw [get, if_neg, get, if_neg, hy]
    · rintro rfl
      cases hy
    · rintro rfl
      cases hy
  have hloop := loop_does hE fuel max initial s' 0 [] false w9 (by have := hi.lt; have := hm.lt; omega) h10 (fun _ => rfl)
  have e12 : exec E [] fuel (.for "advance" (.call "range" (.cons (.var "initial_advances") (.cons (.bin .add (.var "initial_advances") (.var "max_advances")) .nil)))
      roundStmt) w9 = loop (fun v => (storeLocal E [] "advance" v).bind fun _ => exec E [] fuel roundStmt)
        ((List.range max).map fun i => literal .numba ((initial : Int) + (i : Nat))) w9 := by
    rw [exec]
    simp only [M.bind, e11]
  rw [← e12] at hloop
  have hend := Goes.seq (K := fun sts => .ok sts) (b := .ret (.var "states")) (Q := fun sts ctl _ => ctl = .ret (statesVal sts)) hloop ?_
  · have hk (r : Res (List State)) : (r >>= fun sts => .ok sts) = r := by cases r <;> rfl
    rw [hk] at hend
    exact hend
  · rintro sts w' - ⟨s, t, b, h'⟩
    refine ⟨_, w', ?_, h'.fields, rfl⟩
    rw [Area3.ret_exec (h'.var (x := "states") (v := statesVal sts) rfl)]
    rfl

theorem generate_does {g : WildGenerator3} {A : List (String × Arr)} {w : World} {area : EncounterArea3} {sv dv iv mv : Val} {seed : BitVec 32} {delay initial max : Nat}
    (h : Pre g A [("seed", sv), ("delay", dv), ("initial_advances", iv), ("max_advances", mv), ("encounter_area", areaVal area)] w)
    (hs : cast u32 sv = .ok (.sc false 32 seed)) (hd : Arg dv delay) (hi : Arg iv initial) (hm : Arg mv max)
    {F : Nat} {E : Env} (hE : EnvW F E) (hF : initial + delay < F) (fuel : Nat) :
    Does (fieldsOf g) (fun sts ctl _ => ctl = .ret (statesVal sts)) (generate g fuel seed delay initial max area)
      (exec E [] fuel Source.WildGenerator3.generate.body w) := by
  have hgame : IsGame (.sc false 8 g.game) (g.game.setWidth 32) := ⟨false, 8, g.game, rfl, rfl⟩
  have he : toInt (.sc false 8 g.encounter) = some (g.encounter.toNat : Int) := rfl
  have hl : toInt (.sc false 8 g.lead) = some (g.lead.toNat : Int) := rfl
  rw [generate_body, generate]
  have e1 : eval E (.call "TypedList" .nil) w = (.ok (statesVal []), w) := by
    refine call_eval (by decide) (by decide) nil_eval ?_
    rw [hE.typedList]
    rfl
  refine next_seq (assign_only e1) ?_
  replace h := h.put "states" (statesVal [])
  generalize World.mk _ _ _ = w1 at h ⊢
  clear e1
  have e2 := call_eval (E := E) (f := "get_modified_slots") (by decide) (by decide) (cons_eval (h.var (x := "encounter_area") rfl)
    (cons_eval (self_eval (h.self (x := "encounter") rfl)) (cons_eval (self_eval (h.self (x := "lead") rfl)) (cons_eval (self_eval (h.self (x := "game") rfl))
    (cons_eval (self_eval (h.self (x := "personal_info_table") rfl)) nil_eval))))) (hE.modified area _ _ _ g.encounter g.lead _ g.table w1 he hl hgame)
  cases hmod : getModifiedSlots area g.encounter g.lead (g.game.setWidth 32) g.table with
  | err e =>
    rw [hmod] at e2
    exact ⟨w1, assign_fail e2, h.fields⟩
  | outOfFuel =>
    rw [hmod] at e2
    exact ⟨w1, assign_fail e2, h.fields⟩
  | ok modified =>
  rw [hmod] at e2
  rw [Res.ok_bind]
  refine next_seq (assign_only e2) ?_
  replace h := h.put "modified_slots" (slotsVal modified)
  generalize World.mk _ _ _ = w2 at h ⊢
  clear e2
  obtain ⟨rv, r1, r2⟩ := rate_mul (getEncounterRate area g.encounter)
  have e3 : eval E (.bin .mul (.call "get_encounter_rate" (.cons (.var "encounter_area") (.cons (.self "encounter") .nil))) (.num 0x10)) w2 = (.ok rv, w2) :=
    Area3.bin_eval (call_eval (by decide) (by decide) (cons_eval (h.var rfl) (cons_eval (self_eval (h.self rfl)) nil_eval)) (hE.rate area _ g.encounter w2 he))
      (Area3.num_eval hE.mode _) (by rw [hE.mode]; exact r1)
  refine next_seq (assign_only e3) ?_
  replace h := h.put "rate" rv
  generalize World.mk _ _ _ = w3 at h ⊢
  clear e3
  have e4 := call_eval (E := E) (f := "is_rse_safari_zone") (by decide) (by decide) (cons_eval (h.var (x := "encounter_area") rfl)
    (cons_eval (self_eval (h.self (x := "game") rfl)) nil_eval)) (hE.safari area _ _ w3 hgame)
  refine next_seq (assign_only e4) ?_
  replace h := h.put "rse_safari" (.bool (isRseSafariZone area (g.game.setWidth 32)))
  generalize World.mk _ _ _ = w4 at h ⊢
  clear e4
  obtain ⟨mask, ⟨u, u1, u2⟩, hmask⟩ := rse_mask
  obtain ⟨ev, v1, v2⟩ := hmask g.game
  have e5 : eval E (.bin .and (.self "game") (.bin .or (.bin .or (.var "Game.RUBY") (.var "Game.SAPPHIRE")) (.var "Game.EMERALD"))) w4 = (.ok ev, w4) :=
    Area3.bin_eval (self_eval (h.self rfl)) (Area3.bin_eval (Area3.bin_eval (h.member hE (k := (Game.ruby.toNat : Int)) (by decide +kernel))
      (h.member hE (k := (Game.sapphire.toNat : Int)) (by decide +kernel)) (by rw [hE.mode]; exact u1)) (h.member hE (k := (Game.emerald.toNat : Int)) (by decide +kernel))
      (by rw [hE.mode]; exact u2)) (by rw [hE.mode]; exact v1)
  refine next_seq (assign_only e5) ?_
  replace h := h.put "rse" ev
  generalize World.mk _ _ _ = w5 at h ⊢
  clear e5
  refine next_seq (assign_only (v := .bool false) (w' := w5) rfl) ?_
  replace h := h.put "cute_charm" (.bool false)
  generalize World.mk _ _ _ = w6 at h ⊢
  have e7 := new_eval hE (h.var (E := E) (x := "seed") rfl) hs
  refine next_seq (assign_only e7) ?_
  have hR : get (fresh w6.arrays) (put (fresh w6.arrays) (rngArr seed) w6.arrays) = some (rngArr seed) := by simp [get_put]
  have h7 : Pre g (put (fresh w6.arrays) (rngArr seed) w6.arrays) _ { w6 with arrays := put (fresh w6.arrays) (rngArr seed) w6.arrays } :=
    ⟨h.fields, h.locs, h.none, rfl⟩
  clear e7 h
  replace h7 := h7.put "rng" (.arr (fresh w6.arrays))
  generalize fresh w6.arrays = R at h7 hR ⊢
  generalize put R (rngArr seed) w6.arrays = B at h7 hR ⊢
  generalize World.mk _ _ _ = w7 at h7 ⊢
  have e8 := new_eval hE (w := w7) (Area3.num_eval hE.mode 0) (s := 0) rfl
  have hRG : fresh w7.arrays ≠ R := fresh_ne (by rw [h7.arrays]; exact hR)
  refine next_seq (assign_only e8) ?_
  have hG : get (fresh w7.arrays) (put (fresh w7.arrays) (rngArr 0) w7.arrays) = some (rngArr 0) := by simp [get_put]
  have hR' : get R (put (fresh w7.arrays) (rngArr 0) w7.arrays) = some (rngArr seed) := by rw [get_put, if_neg hRG, h7.arrays]; exact hR
  have h8 : Pre g (put (fresh w7.arrays) (rngArr 0) w7.arrays) _ { w7 with arrays := put (fresh w7.arrays) (rngArr 0) w7.arrays } :=
    ⟨h7.fields, h7.locs, h7.none, rfl⟩
  clear e8 h7 hR
  replace h8 := h8.put "go" (.arr (fresh w7.arrays))
  generalize fresh w7.arrays = G at h8 hR' hG hRG ⊢
  generalize put G (rngArr 0) w7.arrays = B at h8 hR' hG ⊢
  generalize World.mk _ _ _ = w8 at h8 ⊢
  let c : Ctx := ⟨g, area, modified, R, G, rv, ev, hRG.symm, modified_length hmod, r2, v2⟩
  obtain ⟨av, a1, a2, -⟩ := hi.add hd
  have e9 := call_eval (E := E) (f := ".jump") (by decide) (by decide) (cons_eval (h8.var (x := "rng") rfl)
    (cons_eval (Area3.bin_eval (h8.var (x := "initial_advances") rfl) (h8.var (x := "delay") rfl) (by rw [hE.mode]; exact a1)) nil_eval))
    (hE.jump R w8 seed av _ (by rw [h8.arrays]; exact hR') a2 hF)
  generalize jump pokeRNGParams (initial + delay) seed = j at e9 ⊢
  obtain ⟨s', q⟩ := j
  cases q with
  | error e =>
    refine ⟨{ w8 with arrays := put R (rngArr s') w8.arrays }, ?_, h8.fields⟩
    have e10 : exec E [] fuel (.expr (.call ".jump" (.cons (.var "rng") (.cons (.bin .add (.var "initial_advances") (.var "delay")) .nil)))) w8
        = (.error e, { w8 with arrays := put R (rngArr s') w8.arrays }) := by
      rw [exec]
      simp only [M.bind, e9]
      rfl
    rw [exec]
    simp only [M.bind, e10]
  | ok x =>
  have e10 : exec E [] fuel (.expr (.call ".jump" (.cons (.var "rng") (.cons (.bin .add (.var "initial_advances") (.var "delay")) .nil)))) w8
      = (.ok .next, { w8 with arrays := put R (rngArr s') w8.arrays }) := by
    rw [exec]
    simp only [M.bind, e9]
    rfl
  refine next_seq e10 ?_
  have h9 : In c s' 0 (("initial_advances", iv) :: ("max_advances", mv) :: base c [] false) { w8 with arrays := put R (rngArr s') w8.arrays } := by
    refine ⟨h8.fields, fun y v hy => h8.locs y v ?_, h8.none, ?_, ?_⟩
    · rw [base] at hy
      iterate 11
        rw [get] at hy
        split at hy
        · next he =>
          subst he
          exact hy
      cases hy
    · simp [get_put, c]
    · simp only [get_put, c]
      rw [if_neg hRG.symm, h8.arrays]
      exact hG
  clear e9 e10 h8
  generalize World.mk _ _ _ = w9 at h9 ⊢
  exact finish_does h9 hi hm hE fuel

end Verif.Py.Wild3
