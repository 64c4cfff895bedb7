import Verif.Py.Area3Level
/-
C133 for get_modified_slots of gen3/encounter_area_3.py.
-/
namespace Verif.Py.Area3
open Verif Lcrng Gen3

/-- a table of `PersonalInfo3` -/
def tableOfInfo (table : List Personal) : Val := .tup (table.map infoVal)

theorem assign_only {E : Env} {fuel : Nat} {x : String} {e : Expr} {w w' : World} {v : Val} (h : eval E e w = (.ok v, w')) :
    exec E [] fuel (.assign (.var x) e) w = (.ok .next, { w' with locals := put x v w'.locals }) := by
  rw [exec]
  simp only [M.bind, h, store, storeLocal, get]
  cases E.mode <;> rfl

theorem small_toInt (n : Nat) (h : n < 2 ^ 63) : toInt (literal .numba (n : Int)) = some (n : Int) := by
  simp only [literal, toInt, if_true, BitVec.toInt_ofInt]
  rw [Int.bmod_eq_of_le] <;> omega

/-! ### the type of the lead -/

/-- lines 127-154 -/
def leadStmt : Stmt :=
  (.ite (.cmp .eq (.var "lead") (.var "Lead.MAGNET_PULL"))
      (.assign (.var "lead_type") (.num 8))
      (.ite (.cmp .eq (.var "lead") (.var "Lead.STATIC"))
       (.assign (.var "lead_type") (.ite (.bin .and (.var "game") (.bin .or (.bin .or (.bin .or (.bin .or (.bin .or (.bin .or (.bin .or (.bin .or (.bin .or (.var "Game.RUBY") (.var "Game.SAPPHIRE")) (.var "Game.EMERALD")) (.var "Game.FIRE_RED")) (.var "Game.LEAF_GREEN")) (.var "Game.DIAMOND")) (.var "Game.PEARL")) (.var "Game.PLATINUM")) (.var "Game.HEART_GOLD")) (.var "Game.SOUL_SILVER"))) (.num 0xD) (.num 0xC)))
       (.ite (.cmp .eq (.var "lead") (.var "Lead.HARVEST"))
        (.assign (.var "lead_type") (.num 0xB))
        (.ite (.cmp .eq (.var "lead") (.var "Lead.FLASH_FIRE"))
         (.assign (.var "lead_type") (.num 9))
         (.ite (.cmp .eq (.var "lead") (.var "Lead.STORM_DRAIN"))
          (.assign (.var "lead_type") (.num 0xA))
          (.ret (.var "encounters")))))))

/-- what `leadStmt` does -/
def Led (w : World) : Option (BitVec 8) → Except PyErr Ctl × World → Prop
  | some t, o => ∃ tv, toInt tv = some (t.toNat : Int) ∧ o = (.ok .next, ⟨put "lead_type" tv w.locals, w.fields, w.arrays⟩)
  | .none, o => o = (.ok (.ret (slotsVal [])), w)

theorem led_if {E : Env} {fuel : Nat} {c : Expr} {a b : Stmt} {w : World} {P : Prop} [Decidable P] {p q : Option (BitVec 8)}
    (h : eval E c w = (.ok (.bool (decide P)), w)) (ha : Led w p (exec E [] fuel a w)) (hb : Led w q (exec E [] fuel b w)) :
    Led w (if P then p else q) (exec E [] fuel (.ite c a b) w) := by
  by_cases hp : P
  · rw [decide_eq_true hp] at h
    rw [if_pos hp, ite_true h]
    exact ha
  · rw [decide_eq_false hp] at h
    rw [if_neg hp, ite_false h]
    exact hb

theorem lead_exec {E : Env} (hE : Env3 E) (fuel : Nat) (w : World) (u v : Val) (k : BitVec 8) (g : BitVec 32) (hu : toInt u = some (k.toNat : Int))
    (hv : IsGame v g) (h1 : get "lead" w.locals = some u) (h2 : get "game" w.locals = some v) (h3 : get "encounters" w.locals = some (slotsVal []))
    (hn : ∀ y, y ∈ Source.enums3.map Prod.fst → get y w.locals = none) :
    Led w (leadType k g) (exec E [] fuel leadStmt w) := by
  have hnum (n : Nat) (i : Int) (hi : i = n := by rfl) (hs : n < 256 := by decide) : Led w (some (BitVec.ofNat 8 n)) (exec E [] fuel (.assign (.var "lead_type") (.num i)) w) := by
    subst hi
    refine ⟨literal .numba n, ?_, assign_only (num_eval hE.mode _)⟩
    rw [small_toInt n (by omega), BitVec.toNat_ofNat, Nat.mod_eq_of_lt (by omega)]
  have hm (y : String) (m : BitVec 32) (hy : (y, (m.toNat : Int)) ∈ Source.enums3) : Mask E w (.var y) m :=
    mask_member hE hy (hn y (List.mem_map_of_mem (f := Prod.fst) hy))
  have hc (y : String) (m : BitVec 8) (hy : (y, (m.toNat : Int)) ∈ Source.enums3) := cond hE (w := w) h1 hu hy (hn y (List.mem_map_of_mem (f := Prod.fst) hy))
  rw [leadStmt, leadType]
  refine led_if (hc _ _ (by decide +kernel)) (hnum 8 8) ?_
  refine led_if (hc _ _ (by decide +kernel)) ?_ ?_
  · obtain ⟨z, e, t⟩ := mask_and hE (w := w) h2 hv (mask_or hE (mask_or hE (mask_or hE (mask_or hE (mask_or hE (mask_or hE (mask_or hE (mask_or hE (mask_or hE
      (hm "Game.RUBY" Game.ruby (by decide +kernel)) (hm "Game.SAPPHIRE" Game.sapphire (by decide +kernel))) (hm "Game.EMERALD" Game.emerald (by decide +kernel)))
      (hm "Game.FIRE_RED" Game.fireRed (by decide +kernel))) (hm "Game.LEAF_GREEN" Game.leafGreen (by decide +kernel))) (hm "Game.DIAMOND" Game.diamond (by decide +kernel)))
      (hm "Game.PEARL" Game.pearl (by decide +kernel))) (hm "Game.PLATINUM" Game.platinum (by decide +kernel))) (hm "Game.HEART_GOLD" Game.heartGold (by decide +kernel)))
      (hm "Game.SOUL_SILVER" Game.soulSilver (by decide +kernel)))
    generalize Game.has g _ = b at t ⊢
    have e' : eval E (.ite (.bin .and (.var "game") (.bin .or (.bin .or (.bin .or (.bin .or (.bin .or (.bin .or (.bin .or (.bin .or (.bin .or (.var "Game.RUBY") (.var "Game.SAPPHIRE")) (.var "Game.EMERALD")) (.var "Game.FIRE_RED")) (.var "Game.LEAF_GREEN")) (.var "Game.DIAMOND")) (.var "Game.PEARL")) (.var "Game.PLATINUM")) (.var "Game.HEART_GOLD")) (.var "Game.SOUL_SILVER"))) (.num 0xD) (.num 0xC)) w
        = (.ok (literal .numba (if b then 13 else 12)), w) := by
      rw [eval]
      simp only [M.bind, e, M.lift, t]
      cases b
      · exact num_eval hE.mode _
      · exact num_eval hE.mode _
    refine ⟨_, ?_, assign_only e'⟩
    cases b
    · exact small_toInt 12 (by decide)
    · exact small_toInt 13 (by decide)
  · refine led_if (hc _ _ (by decide +kernel)) (hnum 11 11) ?_
    refine led_if (hc _ _ (by decide +kernel)) (hnum 9 9) ?_
    refine led_if (hc _ _ (by decide +kernel)) (hnum 10 10) ?_
    exact ret_exec (fuel := fuel) (var_eval h3)

/-! ### the loops -/

/-- lines 159-161 and their copies -/
def slotStmt : Stmt :=
  (.seq
   (.assign (.var "info") (.item (.var "personal_info_table") (.bin .and (.attr (.var "slot") "species") (.num 0x3FF))))
  (.ite (.or (.cmp .eq (.attr (.var "info") "type_1") (.var "lead_type")) (.cmp .eq (.attr (.var "info") "type_2") (.var "lead_type")))
   (.assign (.var "encounters") (.call ".append" (.cons (.var "encounters") (.cons (.var "slot") .nil))))
   .pass))

/-- the lists of slots that the loops make -/
def Made (w : World) : Res (List Slot3) → Except PyErr Ctl × World → Prop
  | .ok l, o => ∃ a, o = (.ok .next, ⟨a, w.fields, w.arrays⟩) ∧ get "encounters" a = some (slotsVal l)
  | .err e, o => ∃ a, o = (.error e, ⟨a, w.fields, w.arrays⟩)
  | .outOfFuel, _ => False

theorem species_and (x : BitVec 16) : ∃ v, binop .numba .and (.sc false 16 x) (literal .numba 0x3FF) = .ok v ∧ toInt v = some ((x &&& 0x3FF).toNat : Int) := by
  refine ⟨_, rfl, ?_⟩
  have h : (x.setWidth 64 &&& 0x3FF#64) = (x &&& 0x3FF).setWidth 64 := by
    rw [BitVec.setWidth_and]
    rfl
  have h2 := (x &&& 0x3FF).isLt
  have e : (conv false 64 x &&& conv true 64 (BitVec.ofInt 64 0x3FF)) = (x &&& 0x3FF).setWidth 64 := by
    rw [← h]
    rfl
  simp only [toInt, e]
  simp only [Bool.or_true, if_true, BitVec.toInt_eq_toNat_cond, BitVec.toNat_setWidth]
  rw [Nat.mod_eq_of_lt (by omega), if_pos (by omega)]

theorem type_eq {E : Env} {w : World} {f : String} {fs : List (String × Val)} {a t : BitVec 8} {tv : Val} (hi : get "info" w.locals = some (.obj fs))
    (hf : get f fs = some (.sc false 8 a)) (ht : get "lead_type" w.locals = some tv) (htv : toInt tv = some (t.toNat : Int)) :
    eval E (.cmp .eq (.attr (.var "info") f) (.var "lead_type")) w = (.ok (.bool (decide (a = t))), w) := by
  rw [eval]
  simp only [M.bind, area_attr hi hf, var_eval ht, M.lift, compare, htv]
  simp [toInt, BitVec.toNat_inj]

theorem slot_loop {E : Env} (hE : Env3 E) (fuel : Nat) (table : List Personal) (t : BitVec 8) (tv : Val) (htv : toInt tv = some (t.toNat : Int))
    (slots : List Slot3) : ∀ (enc : List Slot3) (w : World), get "personal_info_table" w.locals = some (tableOfInfo table) →
      get "lead_type" w.locals = some tv → get "encounters" w.locals = some (slotsVal enc) →
      Made w (filterLoop table t slots enc) (loop (fun v => (storeLocal E [] "slot" v).bind fun _ => exec E [] fuel slotStmt) (slots.map slotVal) w) := by
  induction slots with
  | nil =>
    intro enc w h1 h2 h3
    exact ⟨w.locals, rfl, h3⟩
  | cons slot slots ih =>
    intro enc w h1 h2 h3
    have hst : storeLocal E [] "slot" (slotVal slot) w = (.ok (), ⟨put "slot" (slotVal slot) w.locals, w.fields, w.arrays⟩) := by
      rw [storeLocal]
      simp only [get]
      cases E.mode <;> rfl
    have g1 : get "personal_info_table" (put "slot" (slotVal slot) w.locals) = some (tableOfInfo table) := by rw [get_put, if_neg (by decide), h1]
    have g2 : get "lead_type" (put "slot" (slotVal slot) w.locals) = some tv := by rw [get_put, if_neg (by decide), h2]
    have g3 : get "encounters" (put "slot" (slotVal slot) w.locals) = some (slotsVal enc) := by rw [get_put, if_neg (by decide), h3]
    have g4 : get "slot" (put "slot" (slotVal slot) w.locals) = some (slotVal slot) := by rw [get_put, if_pos rfl]
    rw [List.map_cons, loop, filterLoop]
    simp only [M.bind, hst]
    generalize put "slot" (slotVal slot) w.locals = l at g1 g2 g3 g4
    obtain ⟨iv, hi1, hi2⟩ := species_and slot.species
    have hidx : eval E (.bin .and (.attr (.var "slot") "species") (.num 0x3FF)) ⟨l, w.fields, w.arrays⟩ = (.ok iv, ⟨l, w.fields, w.arrays⟩) :=
      bin_eval (area_attr (x := "slot") (f := "species") g4 rfl) (num_eval hE.mode _) (by rw [hE.mode]; exact hi1)
    have hitem := item_tup (var_eval (E := E) (w := ⟨l, w.fields, w.arrays⟩) g1) hidx hi2
    rw [List.getElem?_map] at hitem
    rw [slotStmt]
    cases ht : table[(slot.species &&& 0x3FF).toNat]? with
    | none =>
      rw [ht] at hitem
      rw [assign_fail hitem]
      exact ⟨l, rfl⟩
    | some info =>
      rw [ht] at hitem
      rw [assign_exec hitem]
      have k1 : get "personal_info_table" (put "info" (infoVal info) l) = some (tableOfInfo table) := by rw [get_put, if_neg (by decide), g1]
      have k2 : get "lead_type" (put "info" (infoVal info) l) = some tv := by rw [get_put, if_neg (by decide), g2]
      have k3 : get "encounters" (put "info" (infoVal info) l) = some (slotsVal enc) := by rw [get_put, if_neg (by decide), g3]
      have k4 : get "slot" (put "info" (infoVal info) l) = some (slotVal slot) := by rw [get_put, if_neg (by decide), g4]
      have k5 : get "info" (put "info" (infoVal info) l) = some (infoVal info) := by rw [get_put, if_pos rfl]
      generalize put "info" (infoVal info) l = l' at k1 k2 k3 k4 k5
      have hc := or_dec (type_eq (E := E) (w := ⟨l', w.fields, w.arrays⟩) (f := "type_1") k5 rfl k2 htv) (type_eq (f := "type_2") k5 rfl k2 htv)
      by_cases hp : info.type1 = t ∨ info.type2 = t
      · rw [decide_eq_true hp] at hc
        have happ : eval E (.call ".append" (.cons (.var "encounters") (.cons (.var "slot") .nil))) ⟨l', w.fields, w.arrays⟩
            = (.ok (slotsVal (enc ++ [slot])), ⟨l', w.fields, w.arrays⟩) := by
          simp [eval, M.bind, k3, k4, M.pure, builtin, hE.append, append, slotsVal]
        rw [ite_true hc, assign_only happ]
        simp only [hp, if_true]
        exact ih (enc ++ [slot]) ⟨put "encounters" (slotsVal (enc ++ [slot])) l', w.fields, w.arrays⟩
          (by rw [get_put, if_neg (by decide), k1]) (by rw [get_put, if_neg (by decide), k2]) (by rw [get_put, if_pos rfl])
      · rw [decide_eq_false hp] at hc
        rw [ite_false hc, pass_exec]
        simp only [hp, if_false]
        exact ih enc ⟨l', w.fields, w.arrays⟩ k1 k2 k3

theorem made_if {E : Env} {fuel : Nat} {c : Expr} {a b : Stmt} {w : World} {P : Prop} [Decidable P] {p q : Res (List Slot3)}
    (h : eval E c w = (.ok (.bool (decide P)), w)) (ha : Made w p (exec E [] fuel a w)) (hb : Made w q (exec E [] fuel b w)) :
    Made w (if P then p else q) (exec E [] fuel (.ite c a b) w) := by
  by_cases hp : P
  · rw [decide_eq_true hp] at h
    rw [if_pos hp, ite_true h]
    exact ha
  · rw [decide_eq_false hp] at h
    rw [if_neg hp, ite_false h]
    exact hb

theorem for_slots {E : Env} (hE : Env3 E) (fuel : Nat) (table : List Personal) (t : BitVec 8) (tv : Val) (htv : toInt tv = some (t.toNat : Int)) (w : World)
    (f : String) (fs : List (String × Val)) (slots : List Slot3) (ha : get "encounter_area" w.locals = some (.obj fs)) (hf : get f fs = some (slotsVal slots))
    (h1 : get "personal_info_table" w.locals = some (tableOfInfo table)) (h2 : get "lead_type" w.locals = some tv)
    (h3 : get "encounters" w.locals = some (slotsVal [])) :
    Made w (filterLoop table t slots []) (exec E [] fuel (.for "slot" (.attr (.var "encounter_area") f) slotStmt) w) := by
  have h := slot_loop hE fuel table t tv htv slots [] w h1 h2 h3
  rw [exec]
  simp only [M.bind, area_attr ha hf, slotsVal]
  exact h

theorem get_modified_slots_exec {E : Env} (hE : Env3 E) (fuel : Nat) (area : EncounterArea3) (v u gv : Val) (e k : BitVec 8) (g : BitVec 32)
    (table : List Personal) (hv : toInt v = some (e.toNat : Int)) (hu : toInt u = some (k.toNat : Int)) (hg : IsGame gv g) (w : World)
    (hl : w.locals = [("encounter_area", areaVal area), ("encounter_type", v), ("lead", u), ("game", gv), ("personal_info_table", tableOfInfo table)]) :
    ∃ a, exec E [] fuel Source.get_modified_slots.body w = ((excOf slotsVal (getModifiedSlots area e k g table)).map .ret, ⟨a, w.fields, w.arrays⟩) := by
  have h1 : get "encounter_area" w.locals = some (areaVal area) := by rw [hl]; rfl
  have h2 : get "encounter_type" w.locals = some v := by rw [hl]; rfl
  have h3 : get "lead" w.locals = some u := by rw [hl]; rfl
  have h4 : get "game" w.locals = some gv := by rw [hl]; rfl
  have h5 : get "personal_info_table" w.locals = some (tableOfInfo table) := by rw [hl]; rfl
  have hn : ∀ y, y ∈ Source.enums3.map Prod.fst → get y w.locals = none ∧ y ≠ "encounters" ∧ y ≠ "lead_type" := by
    intro y hy
    have h : ∀ y ∈ Source.enums3.map Prod.fst, y ≠ "encounter_area" ∧ y ≠ "encounter_type" ∧ y ≠ "lead" ∧ y ≠ "game" ∧ y ≠ "personal_info_table"
        ∧ y ≠ "encounters" ∧ y ≠ "lead_type" := by decide +kernel
    obtain ⟨a, b, c, d, f, i, j⟩ := h y hy
    refine ⟨?_, i, j⟩
    simp [hl, get, Ne.symm a, Ne.symm b, Ne.symm c, Ne.symm d, Ne.symm f]
  have ht : eval E (.call "TypedList" .nil) w = (.ok (slotsVal []), w) := by
    simp [eval, M.bind, M.pure, builtin, hE.typedList, typedList, slotsVal]
  rw [Source.get_modified_slots]
  simp only
  rw [assign_exec ht]
  have g1 : get "encounter_area" (put "encounters" (slotsVal []) w.locals) = some (areaVal area) := by rw [get_put, if_neg (by decide), h1]
  have g2 : get "encounter_type" (put "encounters" (slotsVal []) w.locals) = some v := by rw [get_put, if_neg (by decide), h2]
  have g3 : get "lead" (put "encounters" (slotsVal []) w.locals) = some u := by rw [get_put, if_neg (by decide), h3]
  have g4 : get "game" (put "encounters" (slotsVal []) w.locals) = some gv := by rw [get_put, if_neg (by decide), h4]
  have g5 : get "personal_info_table" (put "encounters" (slotsVal []) w.locals) = some (tableOfInfo table) := by rw [get_put, if_neg (by decide), h5]
  have g6 : get "encounters" (put "encounters" (slotsVal []) w.locals) = some (slotsVal []) := by rw [get_put, if_pos rfl]
  have gn : ∀ y, y ∈ Source.enums3.map Prod.fst → get y (put "encounters" (slotsVal []) w.locals) = none := by
    intro y hy
    rw [get_put, if_neg (Ne.symm (hn y hy).2.1), (hn y hy).1]
  generalize put "encounters" (slotsVal []) w.locals = l at g1 g2 g3 g4 g5 g6 gn
  have hlead := lead_exec hE fuel ⟨l, w.fields, w.arrays⟩ u gv k g hu hg g3 g4 g6 gn
  rw [leadStmt] at hlead
  rw [getModifiedSlots]
  cases hk : leadType k g with
  | none =>
    rw [hk] at hlead
    rw [seq_ret hlead]
    exact ⟨l, rfl⟩
  | some t =>
    rw [hk] at hlead
    obtain ⟨tv, htv, hlead⟩ := hlead
    rw [seq_exec hlead]
    have k1 : get "encounter_area" (put "lead_type" tv l) = some (areaVal area) := by rw [get_put, if_neg (by decide), g1]
    have k2 : get "encounter_type" (put "lead_type" tv l) = some v := by rw [get_put, if_neg (by decide), g2]
    have k5 : get "personal_info_table" (put "lead_type" tv l) = some (tableOfInfo table) := by rw [get_put, if_neg (by decide), g5]
    have k6 : get "encounters" (put "lead_type" tv l) = some (slotsVal []) := by rw [get_put, if_neg (by decide), g6]
    have k7 : get "lead_type" (put "lead_type" tv l) = some tv := by rw [get_put, if_pos rfl]
    have kn : ∀ y, y ∈ Source.enums3.map Prod.fst → get y (put "lead_type" tv l) = none := by
      intro y hy
      rw [get_put, if_neg (Ne.symm (hn y hy).2.2), gn y hy]
    simp only
    generalize put "lead_type" tv l = l' at k1 k2 k5 k6 k7 kn
    have hc (y : String) (m : BitVec 8) (hy : (y, (m.toNat : Int)) ∈ Source.enums3) :=
      cond hE (w := ⟨l', w.fields, w.arrays⟩) k2 hv hy (kn y (List.mem_map_of_mem (f := Prod.fst) hy))
    have hf (f : String) (slots : List Slot3) (h : get f _ = some (slotsVal slots)) :=
      for_slots hE fuel table t tv htv ⟨l', w.fields, w.arrays⟩ f _ slots k1 h k5 k7 k6
    have hall := made_if (hc "Encounter.OLD_ROD" Encounter.oldRod (by decide +kernel)) (hf "fish_old" area.fishOld.toList rfl)
      (made_if (hc "Encounter.GOOD_ROD" Encounter.goodRod (by decide +kernel)) (hf "fish_good" area.fishGood.toList rfl)
      (made_if (hc "Encounter.SUPER_ROD" Encounter.superRod (by decide +kernel)) (hf "fish_super" area.fishSuper.toList rfl)
      (made_if (hc "Encounter.ROCK_SMASH" Encounter.rockSmash (by decide +kernel)) (hf "rock" area.rock.toList rfl)
      (made_if (hc "Encounter.SURFING" Encounter.surfing (by decide +kernel)) (hf "water" area.water.toList rfl) (hf "land" area.land.toList rfl)))))
    rw [slotStmt] at hall
    generalize (if e = Encounter.oldRod then filterLoop table t area.fishOld.toList [] else _) = r at hall ⊢
    match r, hall with
    | .ok slots, ⟨a, hx, ha⟩ =>
      rw [seq_exec hx]
      exact ⟨a, ret_exec (r := .ok (slotsVal slots)) (var_eval ha)⟩
    | .err er, ⟨a, hx⟩ =>
      refine ⟨a, ?_⟩
      rw [exec]
      simp only [M.bind, hx]
      rfl

/-- the call of `get_modified_slots` -/
theorem call_modified {F D fuel depth : Nat} (hD : 3 ≤ D) (hd : 2 ≤ depth) (area : EncounterArea3) (v u gv : Val) (e k : BitVec 8) (g : BitVec 32)
    (table : List Personal) (hv : toInt v = some (e.toNat : Int)) (hu : toInt u = some (k.toNat : Int)) (hg : IsGame gv g) (w : World) :
    run (prog F D) .numba fuel depth "get_modified_slots" [areaVal area, v, u, gv, tableOfInfo table] w
      = (excOf slotsVal (getModifiedSlots area e k g table), w) := by
  obtain ⟨depth, rfl⟩ := Nat.exists_eq_add_of_le' hd
  obtain ⟨a, h1⟩ := get_modified_slots_exec (env3 F D fuel depth hD) fuel area v u gv e k g table hv hu hg
    ⟨[("encounter_area", areaVal area), ("encounter_type", v), ("lead", u), ("game", gv), ("personal_info_table", tableOfInfo table)], w.fields, w.arrays⟩ rfl
  rw [run_succ (prog F D) .numba fuel (depth + 1) _ _ Source.get_modified_slots rfl]
  have h' := invoke_plain (F := Source.get_modified_slots) (args := [areaVal area, v, u, gv, tableOfInfo table]) (w := w) rfl rfl rfl rfl h1
  exact h'

end Verif.Py.Area3
