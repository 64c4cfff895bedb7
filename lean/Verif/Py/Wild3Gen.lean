import Verif.Py.Wild3Steps
/-
C133 for gen3/wild_generator_3.py: `generate`.
-/
namespace Verif.Py.Wild3
open Verif Lcrng Gen3 Area3 Sha1

theorem res_assoc (x : Res α) (f : α → Res β) (g : β → Res γ) : (x >>= f) >>= g = x >>= fun a => f a >>= g := by
  cases x <;> rfl

/-- the variables that all rounds of the loop have -/
def base (c : Ctx) (states : List State) (cute : Bool) : List (String × Val) :=
  [("states", statesVal states), ("cute_charm", .bool cute), ("encounter_area", areaVal c.area), ("rng", .arr c.R), ("go", .arr c.G),
    ("modified_slots", slotsVal c.modified), ("rate", c.rate), ("rse_safari", .bool (isRseSafariZone c.area (c.g.game.setWidth 32))), ("rse", c.rse)]

/-! ### slot, level and personal entry -/

def slotStmts (rest : Stmt) : Stmt :=
      (.seq
       (.assign (.var "encounter_slot") (.call "calculate_hslot_lead" (.cons (.var "encounter_area") (.cons (.var "go") (.cons (.self "encounter") (.cons (.self "lead") (.cons (.var "modified_slots") .nil)))))))
      (.seq
       (.assign (.var "species") (.bin .and (.attr (.var "encounter_slot") "species") (.num 0x7FF)))
      (.seq
       (.assign (.var "form") (.bin .shr (.attr (.var "encounter_slot") "species") (.num 0xB)))
      (.seq
       (.assign (.var "level") (.call "calculate_level" (.cons (.var "encounter_slot") (.cons (.var "go") (.cons (.cmp .eq (.self "lead") (.var "Lead.PRESSURE")) .nil)))))
      (.seq
       (.assign (.var "info") (.item (.self "personal_info_table") (.var "species")))
      rest)))))

/-- the variables after these statements -/
def slotVars (slot : Slot3) (sv fv lv : Val) (info : Personal) (l : List (String × Val)) : List (String × Val) :=
  ("info", infoVal info) :: ("level", lv) :: ("form", fv) :: ("species", sv) :: ("encounter_slot", slotVal slot) :: l

theorem form_shr (x : BitVec 16) : ∃ v, binop .numba .shr (.sc false 16 x) (literal .numba 0xB) = .ok v ∧ toInt v = some ((x >>> 11).toNat : Int)
    ∧ cast u8 v = .ok (.sc false 8 ((x >>> 11).setWidth 8)) := by
  refine ⟨_, rfl, ?_, ?_⟩
  · have := x.isLt
    simp [toInt, conv, Nat.shiftRight_eq_div_pow]
    omega
  · simp only [cast, u8, conv]
    congr 2

theorem slot_does {c : Ctx} {s t : BitVec 32} {av : Val} {st : List State} {b : Bool} {w : World} (h : In c s t (("advance", av) :: base c st b) w) {F : Nat} {E : Env}
    (hE : EnvW F E) (fuel : Nat) {rest : Stmt} {Q : γ → Ctl → World → Prop} {K : BitVec 32 × BitVec 16 × BitVec 16 × Nat × Personal → Res γ}
    (hk : ∀ (t' : BitVec 32) (species form : BitVec 16) (level : Nat) (info : Personal) (slot : Slot3) (sv fv lv : Val) (w' : World),
      toInt sv = some (species.toNat : Int) → toInt fv = some (form.toNat : Int) → cast u8 fv = .ok (.sc false 8 (form.setWidth 8)) →
      toInt lv = some (level : Int) → In c s t' (slotVars slot sv fv lv info (("advance", av) :: base c st b)) w' →
      Does (fieldsOf c.g) Q (K (t', species, form, level, info)) (exec E [] fuel rest w')) :
    Does (fieldsOf c.g) Q (drawSlot c.g c.area c.modified t >>= K) (exec E [] fuel (slotStmts rest) w) := by
  rw [drawSlot, res_assoc, slotStmts]
  refine Goes.seq (Does.assign (Q := fun a w' => In c s a.1 (("encounter_slot", slotVal a.2) :: ("advance", av) :: base c st b) w')
    (P := fun a v w' => v = slotVal a.2 ∧ In c s a.1 (("advance", av) :: base c st b) w') ?_ ?_) ?_
  · have hi : toInt (.sc false 8 c.g.encounter) = some (c.g.encounter.toNat : Int) := rfl
    have hj : toInt (.sc false 8 c.g.lead) = some (c.g.lead.toNat : Int) := rfl
    rw [call_eval (by decide) (by decide) (cons_eval (h.var rfl) (cons_eval (h.var rfl) (cons_eval (self_eval (h.self rfl)) (cons_eval (self_eval (h.self rfl))
      (cons_eval (h.var rfl) nil_eval))))) rfl]
    exact gives_does h (hE.hslot c.area c.G t _ _ c.g.encounter c.g.lead c.modified w hi hj c.len h.go)
  · rintro ⟨t', slot⟩ v w' ⟨rfl, h'⟩
    exact h'.put _ _
  rintro ⟨t1, slot⟩ w1 - h1
  simp only at h1 ⊢
  obtain ⟨sv, hs, hsv⟩ := and_num 16 (by omega) slot.species 0x7FF (by decide)
  obtain ⟨fv, hf, hfv, hfc⟩ := form_shr slot.species
  have ea {l : List (String × Val)} {w : World} (h : In c s t1 l w) (hl : get "encounter_slot" l = some (slotVal slot)) :
      eval E (.attr (.var "encounter_slot") "species") w = (.ok (.sc false 16 slot.species), w) := area_attr (h.locs _ _ hl) rfl
  refine next_seq (assign_only (Area3.bin_eval (ea h1 rfl) (Area3.num_eval hE.mode 0x7FF) (by rw [hE.mode]; exact hs))) ?_
  have h2 := h1.put "species" sv
  refine next_seq (assign_only (Area3.bin_eval (ea h2 rfl) (Area3.num_eval hE.mode 0xB) (by rw [hE.mode]; exact hf))) ?_
  have h3 := h2.put "form" fv
  generalize hw : World.mk _ _ _ = w3 at h3 ⊢
  clear hw
  rw [res_assoc]
  refine Goes.seq (Does.assign (Q := fun a w' => ∃ lv, toInt lv = some (a.2 : Int)
      ∧ In c s a.1 (("level", lv) :: ("form", fv) :: ("species", sv) :: ("encounter_slot", slotVal slot) :: ("advance", av) :: base c st b) w')
    (P := fun a v w' => toInt v = some (a.2 : Int)
      ∧ In c s a.1 (("form", fv) :: ("species", sv) :: ("encounter_slot", slotVal slot) :: ("advance", av) :: base c st b) w') ?_ ?_) ?_
  · rw [call_eval (by decide) (by decide) (cons_eval (h3.var rfl) (cons_eval (h3.var rfl) (cons_eval
      (h3.eq hE (f := "lead") (y := "Lead.PRESSURE") (k := Lead.pressure) rfl (by decide +kernel)) nil_eval))) rfl]
    have hl := hE.level slot c.G t1 (decide (c.g.lead = Lead.pressure)) w3 h3.go
    generalize E.call "calculate_level" [slotVal slot, .arr c.G, .bool (decide (c.g.lead = Lead.pressure))] w3 = o at hl ⊢
    obtain ⟨q, w'⟩ := o
    obtain ⟨hg, hloc⟩ := hl
    simp only at hloc
    match hr : calculateLevel slot (decide (c.g.lead = Lead.pressure)) t1 with
    | .ok (t', n) =>
      rw [hr] at hg
      obtain ⟨v, g1, g2, g3, g4⟩ := hg
      simp only at g2 g3 g4
      subst g2
      refine ⟨v, w', rfl, g3.trans h3.fields, g1, g3.trans h3.fields, ?_, ?_, ?_, ?_⟩
      · rw [hloc]; exact h3.locs
      · rw [hloc]; exact h3.none
      · rw [g4, get_put, if_neg (Ne.symm c.ne)]; exact h3.rng
      · rw [g4]; simp [get_put]
    | .err e =>
      rw [hr] at hg
      obtain ⟨g1, g2⟩ := hg
      simp only at g1 g2
      subst g1
      exact ⟨w', rfl, g2.trans h3.fields⟩
    | .outOfFuel =>
      rw [hr] at hg
      exact hg.elim
  · rintro ⟨t', n⟩ v w' ⟨hv, h'⟩
    exact ⟨v, hv, h'.put _ _⟩
  rintro ⟨t2, level⟩ w4 - ⟨lv, hlv, h4⟩
  simp only at hlv h4 ⊢
  have hn : (slot.species &&& 0x7FF).toNat = slot.species.toNat &&& 0x7FF := by simp
  have ei := item_tup (self_eval (h4.self (x := "personal_info_table") rfl)) (h4.var (E := E) (x := "species") rfl) (hsv.trans (by rw [← hn]))
  rw [List.getElem?_map] at ei
  cases ht : c.g.table[(slot.species &&& 0x7FF).toNat]? with
  | none =>
    rw [ht] at ei
    exact ⟨w4, assign_fail ei, h4.fields⟩
  | some info =>
    rw [ht] at ei
    refine next_seq (assign_only ei) ?_
    refine hk t2 _ _ level info slot sv fv lv _ ?_ hfv hfc hlv (h4.put "info" (infoVal info))
    rw [hsv, hn]

/-! ### the PID -/

def pidExpr : Expr := .bin .or (.call ".next_u16" (.cons (.var "go") .nil)) (.bin .shl (.call ".next_u16" (.cons (.var "go") .nil)) (.num 0x10))

theorem pid_bits (lo hi : BitVec 16) : ∃ v, binop .numba .shl (.sc false 16 hi) (literal .numba 0x10) = .ok v
    ∧ binop .numba .or (.sc false 16 lo) v = .ok (pidVal (lo.setWidth 32 ||| hi.setWidth 32 <<< 16)) := by
  refine ⟨_, rfl, ?_⟩
  have e : lo.setWidth 64 ||| hi.setWidth 64 <<< 16 = (lo.setWidth 32 ||| hi.setWidth 32 <<< 16).setWidth 64 := by
    apply BitVec.eq_of_toNat_eq
    have h1 := lo.isLt
    have h2 := hi.isLt
    have h3 : hi.toNat <<< 16 < 2 ^ 32 := by rw [Nat.shiftLeft_eq]; omega
    have h4 : lo.toNat ||| hi.toNat <<< 16 < 2 ^ 32 := Nat.or_lt_two_pow (by omega) h3
    simp only [BitVec.toNat_or, BitVec.toNat_setWidth, BitVec.toNat_shiftLeft]
    rw [Nat.mod_eq_of_lt (show lo.toNat < 2 ^ 64 by omega), Nat.mod_eq_of_lt (show hi.toNat < 2 ^ 64 by omega), Nat.mod_eq_of_lt (show lo.toNat < 2 ^ 32 by omega),
      Nat.mod_eq_of_lt (show hi.toNat < 2 ^ 32 by omega), Nat.mod_eq_of_lt (show hi.toNat <<< 16 < 2 ^ 32 from h3),
      Nat.mod_eq_of_lt (show hi.toNat <<< 16 < 2 ^ 64 by omega), Nat.mod_eq_of_lt (by omega)]
  rw [pidVal, ← e]
  rfl

theorem u16_eval {c : Ctx} {s t : BitVec 32} {l : List (String × Val)} {w : World} (h : In c s t l w) {F : Nat} {E : Env} (hE : EnvW F E)
    (hgo : get "go" l = some (.arr c.G)) :
    ∃ w', eval E (.call ".next_u16" (.cons (.var "go") .nil)) w = (.ok (.sc false 16 (Gen3.u16 t).2), w') ∧ In c s (Gen3.u16 t).1 l w' :=
  ⟨_, call_eval (by decide) (by decide) (cons_eval (h.var hgo) nil_eval) (hE.next_u16 c.G w t h.go), h.arrays⟩

theorem next_exec {c : Ctx} {s t : BitVec 32} {l : List (String × Val)} {w : World} (h : In c s t l w) {F : Nat} {E : Env} (hE : EnvW F E) (fuel : Nat)
    (hgo : get "go" l = some (.arr c.G)) :
    ∃ w', exec E [] fuel (.expr (.call ".next" (.cons (.var "go") .nil))) w = (.ok .next, w') ∧ In c s (Gen3.next t) l w' := by
  refine ⟨_, ?_, h.arrays⟩
  rw [exec]
  simp only [M.bind, call_eval (show ".next" ≠ "range" by decide) (by decide) (cons_eval (h.var hgo) nil_eval) (hE.next c.G w t h.go), M.pure]

theorem pid_eval {c : Ctx} {s t : BitVec 32} {l : List (String × Val)} {w : World} (h : In c s t l w) {F : Nat} {E : Env} (hE : EnvW F E)
    (hgo : get "go" l = some (.arr c.G)) : ∃ w', eval E pidExpr w = (.ok (pidVal (drawPid t).2), w') ∧ In c s (drawPid t).1 l w' := by
  obtain ⟨w1, e1, h1⟩ := u16_eval h hE hgo
  rw [drawPid]
  generalize Gen3.u16 t = r1 at e1 h1 ⊢
  obtain ⟨t1, lo⟩ := r1
  simp only at e1 h1 ⊢
  obtain ⟨w2, e2, h2⟩ := u16_eval h1 hE hgo
  generalize Gen3.u16 t1 = r2 at e2 h2 ⊢
  obtain ⟨t2, hi⟩ := r2
  simp only at e2 h2 ⊢
  obtain ⟨v, b1, b2⟩ := pid_bits lo hi
  exact ⟨w2, Area3.bin_eval e1 (Area3.bin_eval e2 (Area3.num_eval hE.mode 0x10) (by rw [hE.mode]; exact b1)) (by rw [hE.mode]; exact b2), h2⟩

def pidCond : Expr :=
  (.or (.cmp .ne (.bin .mod (.var "pid") (.num 0x19)) (.var "search_nature")) (.or (.and (.var "cute_charm") (.not (.meth "cute_charm_check" (.cons (.var "pid") (.cons (.var "info") .nil))))) (.and (.cmp .eq (.var "species") (.num 0xC9)) (.not (.call "unown_check" (.cons (.var "pid") (.cons (.var "form") .nil)))))))

theorem mod_25 (p : BitVec 32) : ∃ v, binop .numba .mod (pidVal p) (literal .numba 0x19) = .ok v ∧ toInt v = some ((p.toNat % 25 : Nat) : Int) := by
  have hp := p.isLt
  have e : (p.setWidth 64).toInt = (p.toNat : Int) := by rw [toInt_small (by rw [pid_toNat]; omega), pid_toNat]
  refine ⟨.sc true 64 (BitVec.ofInt 64 ((p.toNat : Int).fmod 25)), ?_, ?_⟩
  · simp [binop, numbaBin, isShift, arith, conv, pidVal, literal, Except.map, e]
  · have h25 : (p.toNat : Int).fmod 25 = ((p.toNat % 25 : Nat) : Int) := by
      rw [Int.fmod_eq_emod_of_nonneg _ (by decide)]
      rfl
    have := Nat.mod_lt p.toNat (show 25 > 0 by decide)
    rw [h25]
    exact small_toInt _ (by omega)

theorem not_eval {E : Env} {w w' : World} {a : Expr} {b : Bool} (h : eval E a w = (.ok (.bool b), w')) : eval E (.not a) w = (.ok (.bool (!b)), w') := by
  simp [eval, M.bind, h, M.lift, truth, M.pure]

/-- the values that the condition of the loop reads -/
structure Search (c : Ctx) (l : List (String × Val)) (nature : BitVec 16) (cute : Bool) (species form : BitVec 16) (info : Personal) : Prop where
  go : get "go" l = some (.arr c.G)
  nature : ∃ v, get "search_nature" l = some v ∧ toInt v = some (nature.toNat : Int)
  cute : get "cute_charm" l = some (.bool cute)
  info : get "info" l = some (infoVal info)
  species : ∃ v, get "species" l = some v ∧ toInt v = some (species.toNat : Int)
  form : ∃ v, get "form" l = some v ∧ cast u8 v = .ok (.sc false 8 (form.setWidth 8))

theorem pidCond_eval {c : Ctx} {s t p : BitVec 32} {l : List (String × Val)} {w : World} (h : In c s t (("pid", pidVal p) :: l) w) {F : Nat} {E : Env} (hE : EnvW F E)
    {nature : BitVec 16} {cute : Bool} {species form : BitVec 16} {info : Personal} (hs : Search c l nature cute species form info) :
    eval E pidCond w = (.ok (.bool (!acceptPid c.g.lead info cute species form nature p)), w) := by
  obtain ⟨nv, n1, n2⟩ := hs.nature
  obtain ⟨sv, s1, s2⟩ := hs.species
  obtain ⟨fv, f1, f2⟩ := hs.form
  obtain ⟨mv, m1, m2⟩ := mod_25 p
  have e1 : eval E (.cmp .ne (.bin .mod (.var "pid") (.num 0x19)) (.var "search_nature")) w = (.ok (.bool (p.toNat % 25 != nature.toNat)), w) := by
    have e0 : eval E (.bin .mod (.var "pid") (.num 0x19)) w = (.ok mv, w) :=
      Area3.bin_eval (h.var rfl) (Area3.num_eval hE.mode _) (by rw [hE.mode]; exact m1)
    have e0' : eval E (.var "search_nature") w = (.ok nv, w) := h.var n1
    rw [eval]
    simp only [M.bind, e0, e0', M.lift, compare, m2, n2]
    congr 3
    rw [Bool.eq_iff_iff]
    simp
    omega
  have e2 : eval E (.and (.var "cute_charm") (.not (.meth "cute_charm_check" (.cons (.var "pid") (.cons (.var "info") .nil))))) w
      = (.ok (.bool (cute && !cuteCharmCheck c.g.lead p info)), w) := by
    have e0 : eval E (.meth "cute_charm_check" (.cons (.var "pid") (.cons (.var "info") .nil))) w = (.ok (.bool (cuteCharmCheck c.g.lead p info)), w) :=
      meth_eval (cons_eval (h.var rfl) (cons_eval (h.var hs.info) nil_eval)) (hE.cute c.g.lead p info w (h.self rfl))
    rw [Area3.and_eval (h.var hs.cute), not_eval e0]
    cases cute <;> rfl
  have e3 : eval E (.and (.cmp .eq (.var "species") (.num 0xC9)) (.not (.call "unown_check" (.cons (.var "pid") (.cons (.var "form") .nil))))) w
      = (.ok (.bool (decide (species = 201) && !unownCheck p (form.setWidth 8))), w) := by
    have e0 : eval E (.call "unown_check" (.cons (.var "pid") (.cons (.var "form") .nil))) w = (.ok (.bool (unownCheck p (form.setWidth 8))), w) :=
      call_eval (by decide) (by decide) (cons_eval (h.var rfl) (cons_eval (h.var f1) nil_eval)) (hE.unown p fv _ w f2)
    have e0' : eval E (.cmp .eq (.var "species") (.num 0xC9)) w = (.ok (.bool (decide (species = 201))), w) := by
      rw [show (0xC9 : Int) = ((0xC9 : Nat) : Int) from rfl, cmp_num hE.mode (by decide) (h.var s1) s2]
      simp only [compare, toInt]
      congr 3
      rw [decide_eq_decide, ← BitVec.toNat_inj]
      simp
      omega
    rw [Area3.and_eval e0', not_eval e0]
    cases decide (species = 201) <;> rfl
  rw [pidCond, Area3.or_eval e1, Area3.or_eval e2, e3, acceptPid]
  cases (p.toNat % 25 != nature.toNat) <;> cases (cute && !cuteCharmCheck c.g.lead p info) <;> simp

/-- the search from a PID that is already drawn -/
def searchFrom (accept : BitVec 32 → Bool) : Nat → BitVec 32 × BitVec 32 → Res (BitVec 32 × BitVec 32)
  | 0, _ => .outOfFuel
  | n + 1, r => if accept r.2 then .ok r else searchFrom accept n (drawPid r.1)

theorem searchFrom_eq (accept : BitVec 32 → Bool) : ∀ n s, pidSearch accept n s = searchFrom accept n (drawPid s)
  | 0, _ => rfl
  | n + 1, s => by
    rw [pidSearch, searchFrom]
    simp only [searchFrom_eq accept n]

theorem In.shadow {c : Ctx} {s t : BitVec 32} {l : List (String × Val)} {w : World} {x : String} {u v : Val} (h : In c s t ((x, v) :: (x, u) :: l) w) :
    In c s t ((x, v) :: l) w := by
  refine h.sub fun y z hy => ?_
  rw [get] at hy ⊢
  by_cases hxy : x = y
  · rw [if_pos hxy] at hy ⊢
    exact hy
  · rw [if_neg hxy] at hy ⊢
    rw [get, if_neg hxy]
    exact hy

theorem search_goes {c : Ctx} {s : BitVec 32} {l : List (String × Val)} {F : Nat} {E : Env} (hE : EnvW F E) (fuel : Nat)
    {nature : BitVec 16} {cute : Bool} {species form : BitVec 16} {info : Personal} (hs : Search c l nature cute species form info) :
    ∀ (n : Nat) (t p : BitVec 32) (w : World), In c s t (("pid", pidVal p) :: l) w →
      Goes (fieldsOf c.g) (fun a w' => In c s a.1 (("pid", pidVal a.2) :: l) w') (searchFrom (acceptPid c.g.lead info cute species form nature) n (t, p))
        (whileLoop ((eval E pidCond).bind fun v => M.lift (truth v)) (exec E [] fuel (.assign (.var "pid") pidExpr)) n w)
  | 0, t, p, w, h => ⟨w, rfl, h.fields⟩
  | n + 1, t, p, w, h => by
    have hc : ((eval E pidCond).bind fun v => M.lift (truth v)) w = (.ok (!acceptPid c.g.lead info cute species form nature p), w) := by
      simp only [M.bind, pidCond_eval h hE hs, M.lift, truth]
    rw [searchFrom]
    cases ha : acceptPid c.g.lead info cute species form nature p with
    | true =>
      rw [ha] at hc
      rw [if_pos rfl]
      refine ⟨.next, w, ?_, h.fields, rfl, h⟩
      rw [whileLoop, M.bind, hc]
      rfl
    | false =>
      rw [ha] at hc
      obtain ⟨w', e1, h1⟩ := pid_eval h hE hs.go
      rw [while_next hc (assign_only e1), if_neg (by decide)]
      exact search_goes hE fuel hs n (drawPid t).1 (drawPid t).2 _ (h1.put "pid" (pidVal (drawPid t).2)).shadow

/-! ### the IVs -/

/-- the number in bits 0 to 4 of `x >> n` -/
theorem iv_bits (x : BitVec 16) (n : Nat) (hn : n < 32) : ∃ u, binop .numba .shr (.sc false 16 x) (literal .numba (n : Int)) = .ok u
    ∧ ∃ v, binop .numba .and u (literal .numba 0x1F) = .ok v ∧ cast u8 v = .ok (.sc false 8 ((x >>> n &&& 0x1F).setWidth 8)) := by
  refine ⟨.sc false 64 (x.setWidth 64 >>> n), ?_, _, rfl, ?_⟩
  · have e : (BitVec.ofInt 64 (n : Int)).toNat = n := by simp; omega
    have e' : n % 18446744073709551616 = n := by omega
    simp [binop, numbaBin, isShift, shift, conv, literal, Except.map, e', show n < 64 by omega]
  · simp only [cast, u8, conv]
    refine congrArg _ (congrArg _ ?_)
    bits

theorem iv_bits_0 (x : BitVec 16) : ∃ v, binop .numba .and (.sc false 16 x) (literal .numba 0x1F) = .ok v
    ∧ cast u8 v = .ok (.sc false 8 ((x &&& 0x1F).setWidth 8)) := by
  refine ⟨_, rfl, ?_⟩
  simp only [cast, u8, conv]
  refine congrArg _ (congrArg _ ?_)
  simp

/-- the array of the IVs -/
def ivArr (m : Nat → BitVec 8) : Arr := .w8 6 m

theorem iv_store {c : Ctx} {s t : BitVec 32} {l : List (String × Val)} {w : World} (h : In c s t l w) {E : Env} (hm : E.mode = .numba) (fuel : Nat) {e : Expr} {v : Val}
    {x : BitVec 8} {nm : String} {m : Nat → BitVec 8} (k : Nat) (i : Int) (hi : i = k) (hk : k < 6) (he : eval E e w = (.ok v, w)) (hc : cast u8 v = .ok (.sc false 8 x))
    (hn : get "ivs" l = some (.arr nm)) (ha : get nm w.arrays = some (ivArr m)) (h1 : nm ≠ c.R) (h2 : nm ≠ c.G) :
    ∃ w', exec E [] fuel (.assign (.item (.var "ivs") (.num i)) e) w = (.ok .next, w') ∧ In c s t l w'
      ∧ get nm w'.arrays = some (ivArr fun j => if j = k then x else m j) := by
  subst hi
  refine ⟨{ w with arrays := put nm (ivArr fun j => if j = k then x else m j) w.arrays }, ?_, ⟨h.fields, h.locs, h.none, ?_, ?_⟩, ?_⟩
  · have hp : position 6 (literal .numba (k : Int)) = .ok k := by rw [position_nat (small_toInt k (by omega)), if_pos hk]
    rw [exec]
    simp only [M.bind, he, store, h.var hn, Area3.num_eval hm, storeItem, ha, ivArr, Arr.len, hp, Arr.store, hc, M.pure, BitVec.setWidth_eq]
  · simp only [get_put]; rw [if_neg h1]; exact h.rng
  · simp only [get_put]; rw [if_neg h2]; exact h.go
  · simp [get_put]

def ivStmts (rest : Stmt) : Stmt :=
      (.seq
       (.ite (.cmp .eq (.self "method") (.var "Method.METHOD_2"))
        (.expr (.call ".next" (.cons (.var "go") .nil)))
        .pass)
      (.seq
       (.assign (.var "iv1") (.call ".next_u16" (.cons (.var "go") .nil)))
      (.seq
       (.ite (.cmp .eq (.self "method") (.var "Method.METHOD_4"))
        (.expr (.call ".next" (.cons (.var "go") .nil)))
        .pass)
      (.seq
       (.assign (.var "iv2") (.call ".next_u16" (.cons (.var "go") .nil)))
      (.seq
       (.assign (.var "ivs") (.call "np.empty.uint8" (.cons (.num 6) .nil)))
      (.seq
       (.assign (.item (.var "ivs") (.num 0)) (.bin .and (.var "iv1") (.num 0x1F)))
      (.seq
       (.assign (.item (.var "ivs") (.num 1)) (.bin .and (.bin .shr (.var "iv1") (.num 5)) (.num 0x1F)))
      (.seq
       (.assign (.item (.var "ivs") (.num 2)) (.bin .and (.bin .shr (.var "iv1") (.num 0xA)) (.num 0x1F)))
      (.seq
       (.assign (.item (.var "ivs") (.num 3)) (.bin .and (.bin .shr (.var "iv2") (.num 5)) (.num 0x1F)))
      (.seq
       (.assign (.item (.var "ivs") (.num 4)) (.bin .and (.bin .shr (.var "iv2") (.num 0xA)) (.num 0x1F)))
      (.seq
       (.assign (.item (.var "ivs") (.num 5)) (.bin .and (.var "iv2") (.num 0x1F)))
      rest)))))))))))

/-- `if self.method == ...: go.next()` -/
theorem method_exec {c : Ctx} {s t : BitVec 32} {l : List (String × Val)} {w : World} (h : In c s t l w) {F : Nat} {E : Env} (hE : EnvW F E) (fuel : Nat)
    (hgo : get "go" l = some (.arr c.G)) {y : String} {k : BitVec 8} (hy : (y, (k.toNat : Int)) ∈ Source.enums3) :
    ∃ w', exec E [] fuel (.ite (.cmp .eq (.self "method") (.var y)) (.expr (.call ".next" (.cons (.var "go") .nil))) .pass) w = (.ok .next, w')
      ∧ In c s (if c.g.method = k then Gen3.next t else t) l w' := by
  have e := h.eq hE (f := "method") (y := y) (k := k) rfl hy
  by_cases hm : c.g.method = k
  · rw [decide_eq_true hm] at e
    rw [if_pos hm, Area3.ite_true e]
    exact next_exec h hE fuel hgo
  · rw [decide_eq_false hm] at e
    rw [if_neg hm, Area3.ite_false e]
    exact ⟨w, rfl, h⟩

theorem ivs_exec {c : Ctx} {s t : BitVec 32} {l : List (String × Val)} {w : World} (h : In c s t l w) {F : Nat} {E : Env} (hE : EnvW F E) (fuel : Nat)
    (hgo : get "go" l = some (.arr c.G)) (rest : Stmt) :
    ∃ (w' : World) (t' : BitVec 32) (nm : String) (v1 v2 : Val) (m : Nat → BitVec 8), exec E [] fuel (ivStmts rest) w = exec E [] fuel rest w'
      ∧ In c s t' (("ivs", .arr nm) :: ("iv2", v2) :: ("iv1", v1) :: l) w' ∧ get nm w'.arrays = some (ivArr m)
      ∧ (Vector.ofFn fun i : Fin 6 => m i) = drawIvs c.g.method t := by
  obtain ⟨w1, e1, h1⟩ := method_exec h hE fuel hgo (y := "Method.METHOD_2") (k := Method.method2) (by decide +kernel)
  rw [ivStmts, drawIvs, Area3.seq_exec e1]
  generalize (if c.g.method = Method.method2 then Gen3.next t else t) = t1 at h1 ⊢
  obtain ⟨w2, e2, h2⟩ := u16_eval h1 hE hgo
  rw [Area3.assign_exec e2]
  generalize Gen3.u16 t1 = r1 at h2 ⊢
  obtain ⟨t2, iv1⟩ := r1
  simp only at h2 ⊢
  replace h2 := h2.put "iv1" (.sc false 16 iv1)
  obtain ⟨w3, e3, h3⟩ := method_exec h2 hE fuel hgo (y := "Method.METHOD_4") (k := Method.method4) (by decide +kernel)
  rw [Area3.seq_exec e3]
  generalize (if c.g.method = Method.method4 then Gen3.next t2 else t2) = t3 at h3 ⊢
  obtain ⟨w4, e4, h4⟩ := u16_eval h3 hE hgo
  rw [Area3.assign_exec e4]
  generalize Gen3.u16 t3 = r2 at h4 ⊢
  obtain ⟨t4, iv2⟩ := r2
  simp only at h4 ⊢
  replace h4 := h4.put "iv2" (.sc false 16 iv2)
  obtain ⟨junk, hj⟩ := hE.empty8
  generalize hw : World.mk (put "iv2" (.sc false 16 iv2) w4.locals) w4.fields w4.arrays = w5 at h4 ⊢
  clear hw
  have n1 : fresh w5.arrays ≠ c.R := fresh_ne h4.rng
  have n2 : fresh w5.arrays ≠ c.G := fresh_ne h4.go
  have e5 : eval E (.call "np.empty.uint8" (.cons (.num 6) .nil)) w5
      = (.ok (.arr (fresh w5.arrays)), { w5 with arrays := put (fresh w5.arrays) (ivArr junk) w5.arrays }) := by
    refine call_eval (by decide) (by decide) (cons_eval (Area3.num_eval hE.mode 6) nil_eval) ?_
    rw [hj]
    rfl
  rw [Area3.assign_exec e5]
  generalize fresh w5.arrays = nm at n1 n2 ⊢
  have h5 : In c s t4 (("iv2", .sc false 16 iv2) :: ("iv1", .sc false 16 iv1) :: l) { w5 with arrays := put nm (ivArr junk) w5.arrays } := by
    refine ⟨h4.fields, h4.locs, h4.none, ?_, ?_⟩
    · simp only [get_put]; rw [if_neg n1]; exact h4.rng
    · simp only [get_put]; rw [if_neg n2]; exact h4.go
  have a5 : get nm (put nm (ivArr junk) w5.arrays) = some (ivArr junk) := by simp [get_put]
  replace h5 := h5.put "ivs" (.arr nm)
  generalize hw : World.mk _ _ (put nm (ivArr junk) w5.arrays) = w6 at h5 ⊢
  replace a5 : get nm w6.arrays = some (ivArr junk) := by rw [← hw]; exact a5
  clear hw
  have b0 {w : World} (x : String) (iv : BitVec 16) (hx : eval E (.var x) w = (.ok (.sc false 16 iv), w)) :
      ∃ v, eval E (.bin .and (.var x) (.num 0x1F)) w = (.ok v, w) ∧ cast u8 v = .ok (.sc false 8 ((iv &&& 0x1F).setWidth 8)) := by
    obtain ⟨v, p1, p2⟩ := iv_bits_0 iv
    exact ⟨v, Area3.bin_eval hx (Area3.num_eval hE.mode _) (by rw [hE.mode]; exact p1), p2⟩
  have b1 {w : World} (x : String) (iv : BitVec 16) (n : Nat) (i : Int) (hi : i = n) (hn : n < 32) (hx : eval E (.var x) w = (.ok (.sc false 16 iv), w)) :
      ∃ v, eval E (.bin .and (.bin .shr (.var x) (.num i)) (.num 0x1F)) w = (.ok v, w) ∧ cast u8 v = .ok (.sc false 8 ((iv >>> n &&& 0x1F).setWidth 8)) := by
    subst hi
    obtain ⟨u, p0, v, p1, p2⟩ := iv_bits iv n hn
    exact ⟨v, Area3.bin_eval (Area3.bin_eval hx (Area3.num_eval hE.mode _) (by rw [hE.mode]; exact p0)) (Area3.num_eval hE.mode _) (by rw [hE.mode]; exact p1), p2⟩
  obtain ⟨v, q1, q2⟩ := b0 "iv1" iv1 (h5.var rfl)
  obtain ⟨w7, f7, h7, a7⟩ := iv_store h5 hE.mode fuel 0 0 rfl (by decide) q1 q2 rfl a5 n1 n2
  obtain ⟨v, q1, q2⟩ := b1 "iv1" iv1 5 5 rfl (by decide) (h7.var rfl)
  obtain ⟨w8, f8, h8, a8⟩ := iv_store h7 hE.mode fuel 1 1 rfl (by decide) q1 q2 rfl a7 n1 n2
  obtain ⟨v, q1, q2⟩ := b1 "iv1" iv1 10 0xA rfl (by decide) (h8.var rfl)
  obtain ⟨w9, f9, h9, a9⟩ := iv_store h8 hE.mode fuel 2 2 rfl (by decide) q1 q2 rfl a8 n1 n2
  obtain ⟨v, q1, q2⟩ := b1 "iv2" iv2 5 5 rfl (by decide) (h9.var rfl)
  obtain ⟨w10, f10, h10, a10⟩ := iv_store h9 hE.mode fuel 3 3 rfl (by decide) q1 q2 rfl a9 n1 n2
  obtain ⟨v, q1, q2⟩ := b1 "iv2" iv2 10 0xA rfl (by decide) (h10.var rfl)
  obtain ⟨w11, f11, h11, a11⟩ := iv_store h10 hE.mode fuel 4 4 rfl (by decide) q1 q2 rfl a10 n1 n2
  obtain ⟨v, q1, q2⟩ := b0 "iv2" iv2 (h11.var rfl)
  obtain ⟨w12, f12, h12, a12⟩ := iv_store h11 hE.mode fuel 5 5 rfl (by decide) q1 q2 rfl a11 n1 n2
  refine ⟨w12, t4, nm, _, _, _, ?_, h12, a12, ?_⟩
  · rw [Area3.seq_exec f7, Area3.seq_exec f8, Area3.seq_exec f9, Area3.seq_exec f10, Area3.seq_exec f11, Area3.seq_exec f12]
  · ext i hi
    simp only [Vector.getElem_ofFn]
    rcases i with _ | _ | _ | _ | _ | _ | i
    all_goals first | rfl | omega

end Verif.Py.Wild3
