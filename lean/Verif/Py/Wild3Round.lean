import Verif.Py.Wild3Gen
/-
C133 for gen3/wild_generator_3.py: one round of the loop in `generate`.
-/
namespace Verif.Py.Wild3
open Verif Lcrng Gen3 Area3 Sha1

/-! ### the state -/

theorem In.next {c : Ctx} {s s' t : BitVec 32} {l : List (String × Val)} {w : World} (h : In c s t l w) :
    In c s' t l { w with arrays := Py.put c.R (rngArr s') w.arrays } where
  fields := h.fields
  locs := h.locs
  none := h.none
  rng := by simp [get_put]
  go := by simp only [get_put]; rw [if_neg c.ne]; exact h.go

def stateStmts : Stmt :=
      (.seq
       (.assign (.var "state") (.call "GeneratorState" (.cons (.var "advance") (.cons (.var "pid") (.cons (.var "species") (.cons (.var "form") (.cons (.var "ivs") (.cons (.bin .and (.var "pid") (.num 1)) (.cons (.var "level") (.cons (.call "get_shiny" (.cons (.var "pid") (.cons (.self "tsv") .nil))) (.cons (.var "info") .nil)))))))))))
      (.seq
       (.assign (.var "states") (.call ".append" (.cons (.var "states") (.cons (.var "state") .nil))))
      (.expr (.call ".next" (.cons (.var "rng") .nil)))))

/-- what holds after a round in which the model's result is `r` -/
def After (c : Ctx) (s : BitVec 32) (states : List State) (r : Option State) (ctl : Ctl) (w : World) : Prop :=
  (ctl = .next ∨ ctl = .cont) ∧ ∃ t b, In c (match r with | none => s | some _ => Gen3.next s) t (base c (states ++ r.toList) b) w
    ∧ (¬ (c.g.lead = Lead.cuteCharmM ∨ c.g.lead = Lead.cuteCharmF) → b = false)

/-- the model's state -/
def stateRes (c : Ctx) (adv level : Nat) (pid : BitVec 32) (species form : BitVec 16) (ivs : Vector (BitVec 8) 6) (info : Personal) : Res (Option State) :=
  if level < 256 then
    Res.ofExcept (State.new .numba adv pid.toNat species.toNat form.toNat ivs (pid &&& 1).toNat (BitVec.ofNat 8 level) (getShiny pid c.g.tsv) info) >>= fun s =>
      .ok (some s)
  else .err .overflowError

theorem state_does {c : Ctx} {s t : BitVec 32} {l : List (String × Val)} {w : World} (h : In c s t l w) {F : Nat} {E : Env} (hE : EnvW F E) (fuel : Nat)
    {states : List State} {b : Bool} {adv level : Nat} {pid : BitVec 32} {species form : BitVec 16} {info : Personal} {av sv fv lv : Val} {nm : String}
    {m : Nat → BitVec 8}
    (ha : get "advance" l = some av) (hp : get "pid" l = some (pidVal pid)) (hs : get "species" l = some sv) (hf : get "form" l = some fv)
    (hi : get "ivs" l = some (.arr nm)) (hl : get "level" l = some lv) (hn : get "info" l = some (infoVal info))
    (ha' : toInt av = some (adv : Int)) (hs' : toInt sv = some (species.toNat : Int)) (hf' : toInt fv = some (form.toNat : Int)) (hl' : toInt lv = some (level : Int))
    (hm : get nm w.arrays = some (ivArr m)) (hb : ∀ x v, get x (base c states b) = some v → get x l = some v)
    (hc : ¬ (c.g.lead = Lead.cuteCharmM ∨ c.g.lead = Lead.cuteCharmF) → b = false) :
    Does (fieldsOf c.g) (After c s states) (stateRes c adv level pid species form (Vector.ofFn fun i : Fin 6 => m i) info) (exec E [] fuel stateStmts w) := by
  obtain ⟨pv, p1, p2⟩ := and_num 64 (by omega) (pid.setWidth 64) 1 (by decide)
  rw [pid_toNat] at p2
  have e1 : eval E (.bin .and (.var "pid") (.num 1)) w = (.ok pv, w) := Area3.bin_eval (h.var hp) (Area3.num_eval hE.mode _) (by rw [hE.mode]; exact p1)
  have e2 : eval E (.call "get_shiny" (.cons (.var "pid") (.cons (.self "tsv") .nil))) w = (.ok (.sc false 8 (getShiny pid c.g.tsv)), w) :=
    call_eval (by decide) (by decide) (cons_eval (h.var hp) (cons_eval (self_eval (h.self rfl)) nil_eval)) (hE.shiny pid c.g.tsv w)
  have hsh : toInt (.sc false 8 (getShiny pid c.g.tsv)) = some ((getShiny pid c.g.tsv).toNat : Int) := rfl
  have h1 : (pid &&& 1).toNat = pid.toNat &&& 1 := by simp
  have e3 : eval E (.call "GeneratorState" (.cons (.var "advance") (.cons (.var "pid") (.cons (.var "species") (.cons (.var "form") (.cons (.var "ivs") (.cons (.bin .and (.var "pid") (.num 1)) (.cons (.var "level") (.cons (.call "get_shiny" (.cons (.var "pid") (.cons (.self "tsv") .nil))) (.cons (.var "info") .nil)))))))))) w
      = ((if level < 256 then State.new .numba adv pid.toNat species.toNat form.toNat (Vector.ofFn fun i : Fin 6 => m i) (pid &&& 1).toNat (BitVec.ofNat 8 level)
        (getShiny pid c.g.tsv) info else .error .overflowError : Except PyErr State).map stateVal, w) := by
    refine call_eval (by decide) (by decide) (cons_eval (h.var ha) (cons_eval (h.var hp) (cons_eval (h.var hs) (cons_eval (h.var hf) (cons_eval (h.var hi)
      (cons_eval e1 (cons_eval (h.var hl) (cons_eval e2 (cons_eval (h.var hn) nil_eval))))))))) ?_
    have := hE.newState adv pid.toNat species.toNat form.toNat (pid &&& 1).toNat level (getShiny pid c.g.tsv).toNat av (pidVal pid) sv fv pv lv _ nm m info w
      ha' (pid_toInt pid) hs' hf' (by rw [h1]; exact p2) hl' hsh hm
    rwa [BitVec.ofNat_toNat, BitVec.setWidth_eq] at this
  rw [stateRes, stateStmts]
  by_cases h256 : level < 256
  · rw [if_pos h256] at e3 ⊢
    generalize State.new .numba adv pid.toNat species.toNat form.toNat (Vector.ofFn fun i : Fin 6 => m i) (pid &&& 1).toNat (BitVec.ofNat 8 level)
      (getShiny pid c.g.tsv) info = r at e3 ⊢
    cases r with
    | error e => exact ⟨w, assign_fail e3, h.fields⟩
    | ok x =>
      refine next_seq (assign_only e3) ?_
      have h2 := h.put "state" (stateVal x)
      generalize hw : World.mk _ _ _ = w2 at h2 ⊢
      clear hw
      have e4 : eval E (.call ".append" (.cons (.var "states") (.cons (.var "state") .nil))) w2 = (.ok (statesVal (states ++ [x])), w2) := by
        refine call_eval (by decide) (by decide) (cons_eval (h2.var (v := statesVal states) (hb _ _ rfl)) (cons_eval (h2.var rfl) nil_eval)) ?_
        rw [hE.append]
        simp [append, statesVal, M.pure]
      refine next_seq (assign_only e4) ?_
      have h3 := h2.put "states" (statesVal (states ++ [x]))
      generalize hw : World.mk _ _ _ = w3 at h3 ⊢
      clear hw
      have hr : get "rng" (("states", statesVal (states ++ [x])) :: ("state", stateVal x) :: l) = some (.arr c.R) := hb "rng" _ rfl
      refine ⟨.next, { w3 with arrays := put c.R (rngArr (Gen3.next s)) w3.arrays }, ?_, h3.fields, Or.inl rfl, t, b, ?_, hc⟩
      · rw [exec]
        simp only [M.bind, call_eval (show ".next" ≠ "range" by decide) (by decide) (cons_eval (h3.var hr) nil_eval) (hE.next c.R w3 s h3.rng), M.pure]
      · refine (h3.next (s' := Gen3.next s)).sub fun y v hy => ?_
        by_cases h0 : "states" = y
        · subst h0
          exact hy
        · have hy' : get y (base c states b) = some v := by
            rw [base, get, if_neg h0] at hy ⊢
            exact hy
          rw [get, if_neg h0, get, if_neg, hb y v hy']
          rintro rfl
          cases hy'
  · rw [if_neg h256] at e3 ⊢
    exact ⟨w, assign_fail e3, h.fields⟩

/-! ### the round -/

/-- `if c: continue` -/
theorem continue_seq {f : List (String × Val)} {P : α → World → Prop} {p : α → Bool} {Q : γ → Ctl → World → Prop} {R : Res α} {K : α → Res γ} {E : Env} {fuel : Nat}
    {e : Expr} {rest : Stmt} {w : World} (h : Does f (fun a v w' => truth v = .ok (p a) ∧ P a w') R (eval E e w))
    (ht : ∀ a w', P a w' → p a = true → ∃ c, K a = .ok c ∧ Q c .cont w')
    (hf : ∀ a w', P a w' → p a = false → Does f Q (K a) (exec E [] fuel rest w')) : Does f Q (R >>= K) (exec E [] fuel (.seq (.ite e .continue .pass) rest) w) := by
  rw [exec, exec]
  match R, h with
  | .ok a, ⟨v, w', h1, h2, h3, h4⟩ =>
    simp only [M.bind, h1, M.lift, h3]
    cases hp : p a with
    | true =>
      obtain ⟨c, h5, h6⟩ := ht a w' h4 hp
      rw [Res.ok_bind, h5]
      exact ⟨.cont, w', rfl, h2, h6⟩
    | false => exact hf a w' h4 hp
  | .err e, ⟨w', h1, h2⟩ =>
    simp only [M.bind, h1]
    exact ⟨w', rfl, h2⟩
  | .outOfFuel, ⟨w', h1, h2⟩ =>
    simp only [M.bind, h1]
    exact ⟨w', rfl, h2⟩

def roundStmt : Stmt :=
      (.seq
       (.expr (.call ".re_init" (.cons (.var "go") (.cons (.attr (.var "rng") "seed") .nil))))
      (.seq
       (.ite rockExpr
        .continue
        .pass)
      (slotStmts
      (.seq
       cuteStmt
      (.seq
       (.ite (.var "rse_safari")
        (.expr (.call ".next" (.cons (.var "go") .nil)))
        .pass)
      (.seq
       natureStmt
      (.seq
       (.assign (.var "pid") pidExpr)
      (.seq
       (.while pidCond
        (.assign (.var "pid") pidExpr))
      (ivStmts
      stateStmts)))))))))

theorem safari_exec {c : Ctx} {s t : BitVec 32} {l : List (String × Val)} {w : World} (h : In c s t l w) {F : Nat} {E : Env} (hE : EnvW F E) (fuel : Nat)
    (hgo : get "go" l = some (.arr c.G)) {p : Bool} (hs : get "rse_safari" l = some (.bool p)) :
    ∃ w', exec E [] fuel (.ite (.var "rse_safari") (.expr (.call ".next" (.cons (.var "go") .nil))) .pass) w = (.ok .next, w')
      ∧ In c s (if p then Gen3.next t else t) l w' := by
  cases p with
  | true =>
    rw [Area3.ite_true (h.var hs)]
    exact next_exec h hE fuel hgo
  | false =>
    rw [Area3.ite_false (h.var hs)]
    exact ⟨w, rfl, h⟩

theorem round_does {c : Ctx} {s t : BitVec 32} {av : Val} {states : List State} {b : Bool} {w : World} (h : In c s t (("advance", av) :: base c states b) w)
    {F : Nat} {E : Env} (hE : EnvW F E) (fuel adv : Nat) (hav : toInt av = some (adv : Int))
    (hb : ¬ (c.g.lead = Lead.cuteCharmM ∨ c.g.lead = Lead.cuteCharmF) → b = false) :
    Does (fieldsOf c.g) (After c s states) (generateOne c.g fuel c.area c.modified adv s) (exec E [] fuel roundStmt w) := by
  have e0 : exec E [] fuel (.expr (.call ".re_init" (.cons (.var "go") (.cons (.attr (.var "rng") "seed") .nil)))) w
      = (.ok .next, { w with arrays := put c.G (rngArr s) w.arrays }) := by
    have ea : eval E (.attr (.var "rng") "seed") w = (.ok (.sc false 32 s), w) := by
      rw [eval]
      simp only [M.bind, h.var (E := E) (x := "rng") (v := .arr c.R) rfl, loadAttr]
      rw [show "." ++ "seed" = ".seed" from rfl, hE.seedAttr]
      simp only [seedAttr, h.rng]
      rfl
    rw [exec]
    simp only [M.bind, call_eval (show ".re_init" ≠ "range" by decide) (by decide) (cons_eval (h.var (x := "go") (v := .arr c.G) rfl) (cons_eval ea nil_eval))
      (hE.re_init c.G w t s h.go), M.pure]
  rw [roundStmt]
  refine next_seq e0 ?_
  replace h := h.arrays (t' := s)
  generalize World.mk _ _ (put c.G (rngArr s) w.arrays) = w0 at h ⊢
  clear e0
  rw [generateOne]
  refine continue_seq (p := fun a => a.2) (P := fun a w' => In c s a.1 (("advance", av) :: base c states b) w') (rock_does h hE rfl rfl rfl) ?_ ?_
  · rintro ⟨t1, skip⟩ w1 h1 hp
    obtain rfl : skip = true := hp
    refine ⟨none, rfl, Or.inr rfl, t1, b, h1.sub fun y v hy => ?_, hb⟩
    rw [get, if_neg, ← hy]
    · simp
    · rintro rfl
      cases hy
  rintro ⟨t1, skip⟩ w1 h1 hp
  obtain rfl : skip = false := hp
  simp only [Bool.false_eq_true, if_false] at h1 ⊢
  refine slot_does h1 hE fuel ?_
  rintro t2 species form level info slot sv fv lv w2 hsv hfv hfc hlv h2
  simp only
  refine Goes.seq (cute_goes h2 hE fuel info rfl rfl b rfl hb) ?_
  rintro ⟨t3, cute⟩ w3 - ⟨h3, hcute⟩
  simp only at h3 hcute ⊢
  obtain ⟨w4, e4, h4⟩ := safari_exec h3 hE fuel (p := isRseSafariZone c.area (c.g.game.setWidth 32)) rfl rfl
  refine next_seq e4 ?_
  generalize (if isRseSafariZone c.area (c.g.game.setWidth 32) = true then Gen3.next t3 else t3) = t4 at h4 ⊢
  refine Goes.seq (nature_goes h4 hE fuel rfl) ?_
  rintro ⟨t5, nature⟩ w5 - ⟨nv, hnv, h5⟩
  simp only at hnv h5 ⊢
  obtain ⟨w6, e6, h6⟩ := pid_eval h5 hE rfl
  refine next_seq (assign_only e6) ?_
  rw [searchFrom_eq]
  have hs : Search c (("search_nature", nv) :: ("cute_charm", .bool cute) :: slotVars slot sv fv lv info (("advance", av) :: base c states b)) nature cute
      species form info := ⟨rfl, ⟨nv, rfl, hnv⟩, rfl, rfl, ⟨sv, rfl, hsv⟩, ⟨fv, rfl, hfc⟩⟩
  refine Goes.seq (search_goes hE fuel hs fuel (drawPid t5).1 (drawPid t5).2 _ (h6.put "pid" (pidVal (drawPid t5).2))) ?_
  rintro ⟨t7, pid⟩ w7 - h7
  simp only at h7 ⊢
  obtain ⟨w8, t8, nm, v1, v2, m, e8, h8, a8, hm⟩ := ivs_exec h7 hE fuel rfl stateStmts
  rw [e8, ← hm]
  refine state_does h8 hE fuel (b := cute) rfl rfl rfl rfl rfl rfl rfl hav hsv hfv hlv a8 ?_ hcute
  intro x v hx
  rw [base] at hx
  iterate 9
    rw [get] at hx
    split at hx
    · next he =>
      subst he
      exact hx
  cases hx

end Verif.Py.Wild3
