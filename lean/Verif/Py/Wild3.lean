import Verif.Py.Area3Slots
import Verif.Py.Sha1
import Verif.Py.InfoTable
/-
C133 for gen3/wild_generator_3.py: the program, and what the calls in `generate` do. Compiled code only.

The functions of gen3/encounter_area_3.py, gen3/util.py, lcrng32.py and `get_info_table_3` are their source text. What
`GeneratorState(...)` does is a parameter (`Verif/Py/State3.lean` has its source text); a state is a value with all its attributes.
-/
namespace Verif.Py.Wild3
open Verif Lcrng Gen3 Area3 Sha1

/-! ### the program -/

/-- `PokeRNGMod(seed)`: a new object with the attribute `seed` -/
def newRng (args : List Val) : M Val := fun w =>
  match args with
  | [v] =>
    match cast u32 v with
    | .ok (.sc _ _ s) => (.ok (.arr (fresh w.arrays)), { w with arrays := put (fresh w.arrays) (rngArr (s.setWidth 32)) w.arrays })
    | _ => (.error .typeError, w)
  | _ => (.error .typeError, w)

/-- the attribute `seed` of a generator -/
def seedAttr (args : List Val) : M Val := fun w =>
  match args with
  | [.arr x] =>
    match get x w.arrays with
    | some (.w32 _ m) => (.ok (.sc false 32 (m 0)), w)
    | _ => (.error .attributeError, w)
  | _ => (.error .typeError, w)

/-- `np.empty(n, np.uint8)`: a new array; its contents can be anything -/
def empty8 (junk : Nat → BitVec 8) (args : List Val) : M Val := fun w =>
  match args with
  | [n] =>
    match toInt n with
    | some n => (.ok (.arr (fresh w.arrays)), { w with arrays := put (fresh w.arrays) (.w8 n.toNat junk) w.arrays })
    | .none => (.error .typeError, w)
  | _ => (.error .typeError, w)

/-- `GeneratorState` (`gen3/state.py:20-33, 77`) -/
def stateVal (s : State) : Val :=
  .obj [("advance", .sc false 32 s.advance), ("pid", .sc false 32 s.pid), ("species", .sc false 16 s.species), ("form", .sc false 8 s.form),
    ("stats", .tup (s.stats.toList.map (.sc false 16))), ("ability_index", .sc false 16 s.abilityIndex), ("ivs", .tup (s.ivs.toList.map (.sc false 8))),
    ("ability", .sc false 8 s.ability), ("characteristic", .sc false 8 s.characteristic), ("gender", .sc false 8 s.gender),
    ("hidden_power", .sc false 8 s.hiddenPower), ("hidden_power_strength", .sc false 8 (BitVec.ofInt 8 ⌊s.hiddenPowerStrength⌋)),
    ("level", .sc false 8 s.level), ("nature", .sc false 8 s.nature), ("shiny", .sc false 8 s.shiny)]

/-- a list of states -/
def statesVal (l : List State) : Val := .tup (l.map stateVal)

/-- `ns` is the model's `GeneratorState(advance, pid, species, form, ivs, ability, level, shiny, info)`, for numbers of any type. The
level is converted to `uint8`; above 255 this is not specified. -/
def StateFun (ns : List Val → M Val) : Prop :=
  ∀ (advance pid species form ability level shiny : Nat) (av pv sv fv bv lv hv : Val) (x : String) (m : Nat → BitVec 8) (info : Personal) (w : World),
    toInt av = some (advance : Int) → toInt pv = some (pid : Int) → toInt sv = some (species : Int) → toInt fv = some (form : Int) →
    toInt bv = some (ability : Int) → toInt lv = some (level : Int) → toInt hv = some (shiny : Int) → get x w.arrays = some (.w8 6 m) →
    ns [av, pv, sv, fv, .arr x, bv, lv, hv, infoVal info] w
      = ((if level < 256 then State.new .numba advance pid species form (Vector.ofFn fun i : Fin 6 => m i) ability (BitVec.ofNat 8 level) (BitVec.ofNat 8 shiny) info
          else .error .overflowError).map stateVal, w)

/-- the members of the enumerations -/
def globals : List (String × Val) := Source.enums3.map fun e => (e.1, literal .numba e.2)

/-- gen3/wild_generator_3.py; `rand_2880` to `rand_25` as in lines 13-16 -/
def prog (F D : Nat) (junk : Nat → BitVec 8) (ns : List Val → M Val) (t : Tables) : Prog where
  funs := [("__init__", Source.WildGenerator3.__init__), ("cute_charm_check", Source.WildGenerator3.cute_charm_check),
    ("generate", Source.WildGenerator3.generate), ("unown_check", Source.unown_check), ("get_shiny", Source.get_shiny)]
  globals := globals
  fieldTypes := [("method", u8), ("encounter", u8), ("game", u8), ("lead", u8), ("tsv", u16)]
  given := [("rand_2880", method (constProg F D 2880) F D "rand_func"), ("rand_2", method (constProg F D 2) F D "rand_func"),
    ("rand_3", method (constProg F D 3) F D "rand_func"), ("rand_25", method (constProg F D 25) F D "rand_func"),
    ("PokeRNGMod", newRng), (".seed", seedAttr), (".re_init", method rngProg F D "re_init"), (".jump", method rngProg F D "jump"),
    (".next", method rngProg F D "next"), (".next_u16", method rngProg F D "next_u16"), ("TypedList", typedList), (".append", append),
    ("np.empty.uint8", empty8 junk), ("GeneratorState", ns), ("get_info_table_3", run (InfoTable.prog t) .numba F D "get_info_table_3"),
    ("get_modified_slots", run (Area3.prog F D) .numba F D "get_modified_slots"),
    ("get_encounter_rate", run (Area3.prog F D) .numba F D "get_encounter_rate"),
    ("is_rse_safari_zone", run (Area3.prog F D) .numba F D "is_rse_safari_zone"),
    ("calculate_hslot_lead", run (Area3.prog F D) .numba F D "calculate_hslot_lead"),
    ("calculate_level", run (Area3.prog F D) .numba F D "calculate_level")]

/-- the attributes of a generator -/
def fieldsOf (g : WildGenerator3) : List (String × Val) :=
  [("method", .sc false 8 g.method), ("encounter", .sc false 8 g.encounter), ("game", .sc false 8 g.game), ("lead", .sc false 8 g.lead),
    ("tsv", .sc false 16 g.tsv), ("personal_info_table", tableOfInfo g.table)]

/-! ### numbers -/

theorem toInt_small {x : BitVec 64} (h : x.toNat < 2 ^ 63) : x.toInt = x.toNat := BitVec.toInt_eq_toNat_of_lt (by omega)

/-- `x & k` -/
theorem and_num (n : Nat) (hn : n ≤ 64) (x : BitVec n) (k : Nat) (hk : k < 2 ^ 63) :
    ∃ v, binop .numba .and (.sc false n x) (literal .numba (k : Int)) = .ok v ∧ toInt v = some ((x.toNat &&& k : Nat) : Int) := by
  refine ⟨_, rfl, ?_⟩
  have h1 : (conv false 64 x &&& conv true 64 (BitVec.ofInt 64 (k : Int))).toNat = x.toNat &&& k := by
    have := Nat.lt_of_lt_of_le x.isLt (Nat.pow_le_pow_right (by omega) hn)
    rw [BitVec.toNat_and]
    congr 1
    · simp only [conv, Bool.false_and, Bool.false_eq_true, if_false, BitVec.toNat_setWidth]
      exact Nat.mod_eq_of_lt this
    · simp [conv]
      omega
  have h2 : x.toNat &&& k < 2 ^ 63 := lt_of_le_of_lt Nat.and_le_right hk
  simp only [toInt, Bool.or_true, if_true]
  rw [toInt_small (by rw [h1]; exact h2), h1]

/-- `pid & 0xFF` and so on, of a PID in a 64-bit variable -/
def pidVal (p : BitVec 32) : Val := .sc false 64 (p.setWidth 64)

theorem pid_toNat (p : BitVec 32) : (p.setWidth 64).toNat = p.toNat := by
  simp
  omega

theorem pid_toInt (p : BitVec 32) : toInt (pidVal p) = some (p.toNat : Int) := by
  simp only [pidVal, toInt, pid_toNat]
  rfl

theorem enums_nodup : (globals.map Prod.fst).Nodup := by
  have e : globals.map Prod.fst = Source.enums3.map Prod.fst := by
    simp only [globals, List.map_map]
    rfl
  rw [e]
  decide +kernel

theorem enum_get (x : String) (k : Int) (h : (x, k) ∈ Source.enums3) : get x globals = some (literal .numba k) :=
  get_mem enums_nodup (e := (x, literal .numba k)) (List.mem_map_of_mem (f := fun e => (e.1, literal .numba e.2)) h)

/-! ### the calls -/

/-- what the calls in `generate` do -/
structure EnvW (F : Nat) (E : Env) : Prop where
  mode : E.mode = .numba
  globals : E.globals = globals
  rand_2880 : ∀ x w s, get x w.arrays = some (rngArr s) → Gives w x (short .numba) (draw 2880 s) (E.call "rand_2880" [.arr x] w)
  rand_2 : ∀ x w s, get x w.arrays = some (rngArr s) → Gives w x (short .numba) (draw 2 s) (E.call "rand_2" [.arr x] w)
  rand_3 : ∀ x w s, get x w.arrays = some (rngArr s) → Gives w x (short .numba) (draw 3 s) (E.call "rand_3" [.arr x] w)
  rand_25 : ∀ x w s, get x w.arrays = some (rngArr s) → Gives w x (short .numba) (draw 25 s) (E.call "rand_25" [.arr x] w)
  newRng : E.call "PokeRNGMod" = newRng
  seedAttr : E.call ".seed" = seedAttr
  re_init : ∀ x w s s', get x w.arrays = some (rngArr s) →
    E.call ".re_init" [.arr x, .sc false 32 s'] w = (.ok .none, { w with arrays := put x (rngArr s') w.arrays })
  jump : ∀ x w s v n, get x w.arrays = some (rngArr s) → Dist .numba v n → n < F → E.call ".jump" [.arr x, v] w
    = ((jump pokeRNGParams n s).2.map (.sc false 32), { w with arrays := put x (rngArr (jump pokeRNGParams n s).1) w.arrays })
  next : ∀ x w s, get x w.arrays = some (rngArr s) →
    E.call ".next" [.arr x] w = (.ok (.sc false 32 (Gen3.next s)), { w with arrays := put x (rngArr (Gen3.next s)) w.arrays })
  next_u16 : ∀ x w s, get x w.arrays = some (rngArr s) →
    E.call ".next_u16" [.arr x] w = (.ok (.sc false 16 (Gen3.u16 s).2), { w with arrays := put x (rngArr (Gen3.u16 s).1) w.arrays })
  typedList : E.call "TypedList" = typedList
  append : E.call ".append" = append
  empty8 : ∃ junk, E.call "np.empty.uint8" = empty8 junk
  newState : StateFun (E.call "GeneratorState")
  modified : ∀ area v u gv (e k : BitVec 8) (g : BitVec 32) table w, toInt v = some (e.toNat : Int) → toInt u = some (k.toNat : Int) → IsGame gv g →
    E.call "get_modified_slots" [areaVal area, v, u, gv, tableOfInfo table] w = (excOf slotsVal (getModifiedSlots area e k g table), w)
  rate : ∀ area v (e : BitVec 8) w, toInt v = some (e.toNat : Int) →
    E.call "get_encounter_rate" [areaVal area, v] w = (.ok (.sc false 8 (getEncounterRate area e)), w)
  safari : ∀ area gv g w, IsGame gv g → E.call "is_rse_safari_zone" [areaVal area, gv] w = (.ok (.bool (isRseSafariZone area g)), w)
  hslot : ∀ area x s v u (e k : BitVec 8) slots w, toInt v = some (e.toNat : Int) → toInt u = some (k.toNat : Int) → slots.length < 2 ^ 16 →
    get x w.arrays = some (rngArr s) →
    Gives w x slotVal (calculateHslotLead area e k slots s) (E.call "calculate_hslot_lead" [areaVal area, .arr x, v, u, slotsVal slots] w)
  level : ∀ slot x s p w, get x w.arrays = some (rngArr s) →
    GivesNat w x (calculateLevel slot p s) (E.call "calculate_level" [slotVal slot, .arr x, .bool p] w)
      ∧ (E.call "calculate_level" [slotVal slot, .arr x, .bool p] w).2.locals = w.locals
  unown : ∀ pid v (f : BitVec 8) w, cast u8 v = .ok (.sc false 8 f) →
    E.call "unown_check" [pidVal pid, v] w = (.ok (.bool (unownCheck pid f)), w)
  shiny : ∀ pid t w, E.call "get_shiny" [pidVal pid, .sc false 16 t] w = (.ok (.sc false 8 (getShiny pid t)), w)
  cute : ∀ lead pid i w, get "lead" w.fields = some (.sc false 8 lead) →
    E.call "cute_charm_check" [pidVal pid, infoVal i] w = (.ok (.bool (cuteCharmCheck lead pid i)), w)

/-- the environment in which the methods run -/
abbrev env (F D : Nat) (junk : Nat → BitVec 8) (ns : List Val → M Val) (t : Tables) (fuel depth : Nat) : Env :=
  ⟨.numba, (prog F D junk ns t).globals, (prog F D junk ns t).fieldTypes, run (prog F D junk ns t) .numba fuel depth⟩

theorem member {E : Env} (hg : E.globals = globals) {x : String} {k : Int} (h : (x, k) ∈ Source.enums3) {w : World} (hl : get x w.locals = none) :
    eval E (.var x) w = (.ok (literal .numba k), w) := by
  simp [eval, hl, hg, enum_get x k h]

/-- an attribute of `self` and a member of an enumeration -/
theorem self_cmp {E : Env} (hg : E.globals = globals) {op : CmpOp} {w : World} {f y : String} {e k : BitVec 8} (hf : get f w.fields = some (.sc false 8 e))
    (hy : (y, (k.toNat : Int)) ∈ Source.enums3) (hl : get y w.locals = none) :
    eval E (.cmp op (.self f) (.var y)) w = (compare op (.int e.toNat) (.int k.toNat), w) := by
  have hk : toInt (literal .numba (k.toNat : Int)) = some (k.toNat : Int) := small_toInt _ (by have := k.isLt; omega)
  rw [eval]
  simp only [M.bind, self_eval hf, member hg hy hl, M.lift, compare, hk]
  rfl

theorem self_eq {E : Env} (hg : E.globals = globals) {w : World} {f y : String} {e k : BitVec 8} (hf : get f w.fields = some (.sc false 8 e))
    (hy : (y, (k.toNat : Int)) ∈ Source.enums3) (hl : get y w.locals = none) :
    eval E (.cmp .eq (.self f) (.var y)) w = (.ok (.bool (decide (e = k))), w) := by
  rw [self_cmp hg hf hy hl]
  simp [compare, toInt, ← BitVec.toNat_inj]

theorem self_le {E : Env} (hg : E.globals = globals) {w : World} {f y : String} {e k : BitVec 8} (hf : get f w.fields = some (.sc false 8 e))
    (hy : (y, (k.toNat : Int)) ∈ Source.enums3) (hl : get y w.locals = none) :
    eval E (.cmp .le (.self f) (.var y)) w = (.ok (.bool (decide (e ≤ k))), w) := by
  rw [self_cmp hg hf hy hl]
  simp [compare, toInt, BitVec.le_def]

theorem cute_charm_exec {E : Env} (hm : E.mode = .numba) (hg : E.globals = globals) (fuel : Nat) (lead : BitVec 8) (pid : BitVec 32) (i : Personal) (w : World)
    (hf : get "lead" w.fields = some (.sc false 8 lead)) (hl : w.locals = [("pid", pidVal pid), ("info", infoVal i)]) :
    exec E [] fuel Source.WildGenerator3.cute_charm_check.body w = (.ok (.ret (.bool (cuteCharmCheck lead pid i))), w) := by
  obtain ⟨v, h1, h2⟩ := and_num 64 (by omega) (pid.setWidth 64) 0xFF (by decide)
  rw [pid_toNat] at h2
  have e1 : eval E (.bin .and (.var "pid") (.num 0xFF)) w = (.ok v, w) :=
    Area3.bin_eval (Area3.var_eval (by rw [hl]; rfl)) (Area3.num_eval hm _) (by rw [hm]; exact h1)
  have e2 : eval E (.attr (.var "info") "gender_ratio") w = (.ok (.sc false 8 i.genderRatio), w) := area_attr (by rw [hl]; rfl) rfl
  have e3 (op : CmpOp) : eval E (.cmp op (.bin .and (.var "pid") (.num 0xFF)) (.attr (.var "info") "gender_ratio")) w
      = (compare op (.int (pid.toNat &&& 255 : Nat)) (.int i.genderRatio.toNat), w) := by
    rw [eval]
    simp only [M.bind, e1, e2, M.lift, compare, h2]
    rfl
  have e4 : (pid &&& 255#32).toNat = pid.toNat &&& 255 := by simp
  have e5 : i.genderRatio.toNat % 4294967296 = i.genderRatio.toNat := Nat.mod_eq_of_lt (by omega)
  rw [Source.WildGenerator3.cute_charm_check]
  simp only
  rw [seq_if (self_eq hg (k := Lead.cuteCharmF) hf (by decide +kernel) (by rw [hl]; rfl)), cuteCharmCheck]
  by_cases h : lead = Lead.cuteCharmF
  · rw [if_pos h, decide_eq_true h, if_pos rfl, Area3.ret_exec (e3 .ge)]
    simp [compare, toInt, Except.map, BitVec.le_def, e4, e5]
  · rw [if_neg h, decide_eq_false h, if_neg (by decide), Area3.ret_exec (e3 .lt)]
    simp [compare, toInt, Except.map, BitVec.lt_def, e4, e5]

theorem gives_draw {fuel depth : Nat} (k : Nat) (hk : BitVec.ofNat 16 k ≠ 0) (hd : 3 ≤ depth) (x : String) (w : World) (s : BitVec 32)
    (h : get x w.arrays = some (rngArr s)) :
    Gives w x (short .numba) (draw (BitVec.ofNat 16 k) s) (method (constProg fuel depth k) fuel depth "rand_func" [.arr x] w) := by
  rw [method_eq (const_rand_source s k fuel depth (by omega)) (Nat.zero_le _) (by omega) h, nextRand_ok hk, drawn _ hk]
  rfl

theorem env_w {F D : Nat} (junk : Nat → BitVec 8) {ns : List Val → M Val} (hns : StateFun ns) (t : Tables) (fuel depth : Nat) (hD : 3 ≤ D) : EnvW F (env F D junk ns t fuel (depth + 1)) where
  mode := rfl
  globals := rfl
  rand_2880 x w s h := by
    dsimp only
    rw [run_given (g := method (constProg F D 2880) F D "rand_func") rfl rfl]
    exact gives_draw 2880 (by decide) hD x w s h
  rand_2 x w s h := by
    dsimp only
    rw [run_given (g := method (constProg F D 2) F D "rand_func") rfl rfl]
    exact gives_draw 2 (by decide) hD x w s h
  rand_3 x w s h := by
    dsimp only
    rw [run_given (g := method (constProg F D 3) F D "rand_func") rfl rfl]
    exact gives_draw 3 (by decide) hD x w s h
  rand_25 x w s h := by
    dsimp only
    rw [run_given (g := method (constProg F D 25) F D "rand_func") rfl rfl]
    exact gives_draw 25 (by decide) hD x w s h
  newRng := by funext args; exact run_given (P := prog F D junk ns t) (mode := .numba) (fuel := fuel) (depth := depth) (f := "PokeRNGMod") (g := Wild3.newRng) rfl rfl
  seedAttr := by funext args; exact run_given (P := prog F D junk ns t) (mode := .numba) (fuel := fuel) (depth := depth) (f := ".seed") (g := Wild3.seedAttr) rfl rfl
  re_init x w s s' h := by
    dsimp only
    rw [run_given (g := method rngProg F D "re_init") rfl rfl]
    exact method_eq (Lcrng32.reInit_source .numba pokeRNGParams _ s s') (Nat.zero_le _) (by omega) h
  jump x w s v n h hv hn := by
    dsimp only
    rw [run_given (g := method rngProg F D "jump") rfl rfl]
    exact method_eq (Lcrng32.jump_source .numba pokeRNGParams _ s n v hv) hn (by omega) h
  next x w s h := by
    dsimp only
    rw [run_given (g := method rngProg F D "next") rfl rfl]
    exact method_eq (Lcrng32.next_source .numba pokeRNGParams _ s) (Nat.zero_le _) (by omega) h
  next_u16 x w s h := by
    dsimp only
    rw [run_given (g := method rngProg F D "next_u16") rfl rfl]
    exact method_eq (Lcrng32.nextU16_source .numba pokeRNGParams _ s) (Nat.zero_le _) (by omega) h
  typedList := by funext args; exact run_given (P := prog F D junk ns t) (mode := .numba) (fuel := fuel) (depth := depth) (f := "TypedList") (g := Area3.typedList) rfl rfl
  append := by funext args; exact run_given (P := prog F D junk ns t) (mode := .numba) (fuel := fuel) (depth := depth) (f := ".append") (g := Area3.append) rfl rfl
  empty8 := ⟨junk, by funext args; exact run_given (P := prog F D junk ns t) (mode := .numba) (fuel := fuel) (depth := depth) (f := "np.empty.uint8") (g := Wild3.empty8 junk) rfl rfl⟩
  newState := by
    rw [show (env F D junk ns t fuel (depth + 1)).call "GeneratorState" = ns by
      funext args; exact run_given (P := prog F D junk ns t) (mode := .numba) (fuel := fuel) (depth := depth) (f := "GeneratorState") (g := ns) rfl rfl]
    exact hns
  modified area v u gv e k g table w hv hu hg := by
    dsimp only
    rw [run_given (g := run (Area3.prog F D) .numba F D "get_modified_slots") rfl rfl]
    exact call_modified hD (by omega) area v u gv e k g table hv hu hg w
  rate area v e w hv := by
    dsimp only
    rw [run_given (g := run (Area3.prog F D) .numba F D "get_encounter_rate") rfl rfl]
    exact call_rate hD (by omega) area v e hv w
  safari area gv g w hg := by
    dsimp only
    rw [run_given (g := run (Area3.prog F D) .numba F D "is_rse_safari_zone") rfl rfl]
    exact call_safari hD (by omega) area gv g hg w
  hslot area x s v u e k slots w hv hu hs hx := by
    dsimp only
    rw [run_given (g := run (Area3.prog F D) .numba F D "calculate_hslot_lead") rfl rfl]
    exact call_hslot_lead hD hD area x s v u e k slots hv hu hs w hx
  level slot x s p w hx := by
    dsimp only
    rw [run_given (g := run (Area3.prog F D) .numba F D "calculate_level") rfl rfl]
    exact call_level hD (by omega) slot x s p w hx
  unown pid v f w hv := by
    dsimp only
    rw [run_succ _ _ _ _ _ _ Source.unown_check rfl]
    have h := Util.unownCheck_invoke ⟨.numba, (prog F D junk ns t).globals, (prog F D junk ns t).fieldTypes, run (prog F D junk ns t) .numba fuel depth⟩ fuel pid f w
    have hp : cast u32 (pidVal pid) = .ok (.sc false 32 pid) := by simp [py, pidVal]
    have hp' : cast u32 (.sc false 32 pid) = .ok (.sc false 32 pid) := by simp [py]
    have hf : cast u8 (.sc false 8 f) = .ok (.sc false 8 f) := by simp [py]
    rw [← h, invoke, invoke]
    simp only [Source.unown_check, castArgs, hp, hp', hv, hf, Except.bind]
  shiny pid ts w := by
    dsimp only
    rw [run_succ _ _ _ _ _ _ Source.get_shiny rfl]
    obtain ⟨v, h, -, hv⟩ := Util.getShiny_invoke ⟨.numba, (prog F D junk ns t).globals, (prog F D junk ns t).fieldTypes, run (prog F D junk ns t) .numba fuel depth⟩ fuel pid ts w
    rw [hv rfl] at h
    have hp : cast u32 (pidVal pid) = .ok (.sc false 32 pid) := by simp [py, pidVal]
    have hp' : cast u32 (.sc false 32 pid) = .ok (.sc false 32 pid) := by simp [py]
    rw [← h, invoke, invoke]
    simp only [Source.get_shiny, castArgs, hp, hp', Except.bind]
  cute lead pid i w hf := by
    dsimp only
    rw [run_succ _ _ _ _ _ _ Source.WildGenerator3.cute_charm_check rfl]
    have h := cute_charm_exec (E := ⟨.numba, (prog F D junk ns t).globals, (prog F D junk ns t).fieldTypes, run (prog F D junk ns t) .numba fuel depth⟩) rfl rfl fuel lead pid i
      ⟨[("pid", pidVal pid), ("info", infoVal i)], w.fields, w.arrays⟩ hf rfl
    have h' := invoke_plain (F := Source.WildGenerator3.cute_charm_check) (args := [pidVal pid, infoVal i]) (w := w) (q := .ok (.bool (cuteCharmCheck lead pid i)))
      rfl rfl rfl rfl h
    exact h'

end Verif.Py.Wild3
