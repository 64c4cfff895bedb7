import Verif.Py.Lcrng32
import Verif.Py.Util
import Verif.Model.Gen3Area
/-
C133 for gen3/encounter_area_3.py: the source text computes what the model says, in compiled code (the functions do not run in
plain Python, see Model/WildGen3).

A generator that a function gets as an argument is the entry of this name in the arrays: an array of one element, its seed. Its
methods are the source text of lcrng32.py.
-/
namespace Verif.Py.Area3
open Verif Lcrng Gen3

/-! ### the generators -/

/-- the class `PokeRNGMod` -/
abbrev rngProg : Prog := Lcrng32.prog pokeRNGParams Source.LCRNG32.next_rand_modulo

/-- `PokeRNGMod.const_rand(maximum)`: the inner function, with the variable `maximum` of the outer one -/
def constProg (fuel depth : Nat) (maximum : Int) : Prog where
  funs := [("rand_func", Source.LCRNG32.rand_func_modulo)]
  globals := [("maximum", literal .numba maximum)]
  fieldTypes := rngProg.fieldTypes
  given := [("next_u16", run rngProg .numba fuel depth "next_u16")]

/-- the object whose attribute `seed` is this -/
def rngArr (seed : BitVec 32) : Arr := .w32 1 ⟨fun _ => seed⟩

/-- the value of the attribute `seed` -/
def seedOf (o : List (String × Val)) : Option (BitVec 32) :=
  match get "seed" o with
  | some (.sc _ _ s) => some (s.setWidth 32)
  | _ => .none

/-- a method of the generator that is the entry `x` of the arrays: it runs on an object with this seed, and the new seed is kept -/
def onRng (P : Prog) (fuel depth : Nat) (f : String) (args : List Val) (x : String) : M Val := fun w =>
  match get x w.arrays with
  | some (.w32 _ m) =>
    let r := run P .numba fuel depth f args ⟨[], [("seed", .sc false 32 (m 0))], []⟩
    match seedOf r.2.fields with
    | some s => (r.1, { w with arrays := put x (rngArr s) w.arrays })
    | .none => (.error .attributeError, w)
  | _ => (.error .attributeError, w)

/-- a method of the generator that is the first argument -/
def method (P : Prog) (fuel depth : Nat) (f : String) (vs : List Val) : M Val :=
  match vs with
  | .arr x :: args => onRng P fuel depth f args x
  | _ => M.fail .typeError

theorem method_eq {P : Prog} {n d fuel depth : Nat} {f : String} {args : List Val} {s s' : BitVec 32} {r : Except PyErr Val}
    (h : Calls P .numba Lcrng32.Rep n d f args s r s') (hn : n ≤ fuel) (hd : d ≤ depth) {x : String} {w : World}
    (hx : get x w.arrays = some (rngArr s)) :
    method P fuel depth f (.arr x :: args) w = (r, { w with arrays := put x (rngArr s') w.arrays }) := by
  obtain ⟨o', h1, h2⟩ := h fuel depth hn hd ⟨[("seed", .sc false 32 s)], []⟩ rfl
  have h3 : run P .numba fuel depth f args ⟨[], [("seed", .sc false 32 s)], []⟩ = (r, ⟨[], [("seed", .sc false 32 s')], []⟩) := by
    rw [show (⟨[], [("seed", .sc false 32 s')], []⟩ : World) = o'.world [] by rw [h1]; rfl]
    exact h2 []
  have h4 : seedOf [("seed", .sc false 32 s')] = some s' := by simp [seedOf, get]
  change onRng P fuel depth f args x w = _
  rw [onRng]
  simp only [hx, rngArr]
  rw [h3]
  simp only [h4]

/-- the arguments `maximum`: any integer; it is converted to 16 bits -/
theorem next_rand_source (s : BitVec 32) (v : Val) (maximum : BitVec 16) (hv : cast u16 v = .ok (.sc false 16 maximum)) :
    Calls rngProg .numba Lcrng32.Rep 0 3 "next_rand" [v] s
      ((nextRand32 .numba pokeRNGParams .modulo maximum s).2.map (short .numba)) (nextRand32 .numba pokeRNGParams .modulo maximum s).1 := by
  refine calls_of Source.LCRNG32.next_rand_modulo rfl ?_
  intro fuel depth hn hd o ho
  obtain ⟨o', h1, h2⟩ := Lcrng32.nextU16_source .numba pokeRNGParams Source.LCRNG32.next_rand_modulo s fuel depth hn hd o ho
  refine ⟨o', h1, fun l => ?_⟩
  simp only [Obj.world] at h2
  have hc (x : BitVec 16) : cast u16 (.sc false 16 x) = .ok (.sc false 16 x) := by simp [py]
  simp only [invoke, castArgs, Source.LCRNG32.next_rand_modulo, exec, eval, M.bind, h2, Obj.world, M.lift, List.zip_cons_cons, List.zip_nil_left, get,
    if_true, M.pure, hv, hc, List.length_cons, List.length_nil]
  by_cases h0 : maximum = 0#16 <;>
    simp [binop, numbaBin, isShift, arith, conv, nextRand32, pyMod, short, h0, umod_short, short_eq_zero, Except.map, castResult, castTuple, Except.bind]

theorem run_given {P : Prog} {mode : Mode} {fuel depth : Nat} {f : String} {args : List Val} {g : List Val → M Val} (h : get f P.funs = none)
    (hg : get f P.given = some g) : run P mode fuel (depth + 1) f args = g args := by
  rw [run, h]
  simp only [hg]

theorem const_rand_source (s : BitVec 32) (k : Nat) (fuel' depth' : Nat) (hd' : 2 ≤ depth') :
    Calls (constProg fuel' depth' k) .numba Lcrng32.Rep 0 2 "rand_func" [] s
      ((nextRand32 .numba pokeRNGParams .modulo (BitVec.ofNat 16 k) s).2.map (short .numba))
      (nextRand32 .numba pokeRNGParams .modulo (BitVec.ofNat 16 k) s).1 := by
  refine calls_of Source.LCRNG32.rand_func_modulo rfl ?_
  intro fuel depth hn hd o ho
  obtain ⟨o', h1, h2⟩ := Lcrng32.nextU16_source .numba pokeRNGParams Source.LCRNG32.next_rand_modulo s fuel' depth' (Nat.zero_le _) hd' o ho
  refine ⟨o', h1, fun l => ?_⟩
  obtain ⟨depth, rfl⟩ := Nat.exists_eq_add_of_le' hd
  have h3 : run (constProg fuel' depth' k) .numba fuel (depth + 1) "next_u16" [] = run rngProg .numba fuel' depth' "next_u16" [] :=
    run_given rfl rfl
  simp only [Obj.world] at h2
  have hc (x : BitVec 16) : cast u16 (.sc false 16 x) = .ok (.sc false 16 x) := by simp [py]
  have hk : cast u16 (literal .numba k) = .ok (.sc false 16 (BitVec.ofNat 16 k)) := by simp [py]
  have hg : (constProg fuel' depth' k).globals = [("maximum", literal .numba k)] := rfl
  simp only [invoke, castArgs, Source.LCRNG32.rand_func_modulo, exec, eval, M.bind, h3, h2, Obj.world, M.lift, get, hg,
    if_true, M.pure, hk, hc, List.length_nil, List.zip_nil_left]
  generalize BitVec.ofNat 16 k = maximum
  by_cases h0 : maximum = 0#16 <;>
    simp [binop, numbaBin, isShift, arith, conv, nextRand32, pyMod, short, h0, umod_short, short_eq_zero, Except.map, castResult, castTuple, Except.bind]

/-! ### values -/

/-- `Slot3` (`data/encounter/encounter_area_3.py:9-14`) -/
def slotVal (s : Slot3) : Val :=
  .obj [("min_level", .sc false 8 s.minLevel), ("max_level", .sc false 8 s.maxLevel), ("species", .sc false 16 s.species)]

/-- an array of slots -/
def slotsVal (l : List Slot3) : Val := .tup (l.map slotVal)

/-- `EncounterArea3` (`data/encounter/encounter_area_3.py:21-34`) -/
def areaVal (a : EncounterArea3) : Val :=
  .obj [("location", .sc false 16 a.location), ("land_rate", .sc false 8 a.landRate), ("land", slotsVal a.land.toList),
    ("water_rate", .sc false 8 a.waterRate), ("water", slotsVal a.water.toList), ("rock_rate", .sc false 8 a.rockRate),
    ("rock", slotsVal a.rock.toList), ("fish_rate", .sc false 8 a.fishRate), ("fish_old", slotsVal a.fishOld.toList),
    ("fish_good", slotsVal a.fishGood.toList), ("fish_super", slotsVal a.fishSuper.toList)]

/-- `PersonalInfo3` (`data/personal/personal_info.py:80-105`), the attributes that are read -/
def infoVal (i : Personal) : Val :=
  .obj [("hp", .sc false 8 i.hp), ("attack", .sc false 8 i.attack), ("defense", .sc false 8 i.defense), ("speed", .sc false 8 i.speed),
    ("special_attack", .sc false 8 i.specialAttack), ("special_defense", .sc false 8 i.specialDefense), ("type_1", .sc false 8 i.type1),
    ("type_2", .sc false 8 i.type2), ("gender_ratio", .sc false 8 i.genderRatio), ("ability_1", .sc false 8 i.ability1),
    ("ability_2", .sc false 8 i.ability2)]

/-- a table made by `compute_table` -/
def tableVal (ranges : List Int) : Val := .tup ((tableOf ranges).map (.sc false 8))

/-- `len(l)` -/
def len : List Val → M Val
  | [.tup vs] => M.pure (literal .numba vs.length)
  | _ => M.fail .typeError

/-- `TypedList()` -/
def typedList : List Val → M Val
  | [] => M.pure (.tup [])
  | _ => M.fail .typeError

/-- the list `l` after `l.append(v)` -/
def append : List Val → M Val
  | [.tup vs, v] => M.pure (.tup (vs ++ [v]))
  | _ => M.fail .typeError

/-- the names of the module: members of the enumerations and the tables -/
def globals : List (String × Val) :=
  [("GRASS_TABLE", tableVal grassRanges), ("OLD_ROD_TABLE", tableVal oldRodRanges), ("GOOD_ROD_TABLE", tableVal goodRodRanges),
      ("SUPER_ROD_TABLE", tableVal superRodRanges), ("ROCK_SMASH_AND_SURF_TABLE", tableVal rockSmashAndSurfRanges)]
    ++ Source.enums3.map (fun e => (e.1, literal .numba e.2))

/-- gen3/encounter_area_3.py; `hslot_rand` and `rand_2` as in lines 32-33 -/
def prog (fuel depth : Nat) : Prog where
  funs := [("calculate_hslot", Source.calculate_hslot), ("calculate_hslot_lead", Source.calculate_hslot_lead),
    ("calculate_level", Source.calculate_level), ("is_rse_safari_zone", Source.is_rse_safari_zone),
    ("get_modified_slots", Source.get_modified_slots), ("get_encounter_rate", Source.get_encounter_rate)]
  globals := globals
  fieldTypes := []
  given := [("hslot_rand", method (constProg fuel depth 100) fuel depth "rand_func"),
    ("rand_2", method (constProg fuel depth 2) fuel depth "rand_func"), (".next_rand", method rngProg fuel depth "next_rand"),
    ("len", len), ("TypedList", typedList), (".append", append)]

/-- what the calls in the functions do -/
structure Env3 (E : Env) : Prop where
  mode : E.mode = .numba
  globals : E.globals = globals
  hslot_rand : ∀ x w s, get x w.arrays = some (rngArr s) → E.call "hslot_rand" [.arr x] w
    = ((nextRand32 .numba pokeRNGParams .modulo 100 s).2.map (short .numba),
      { w with arrays := put x (rngArr (nextRand32 .numba pokeRNGParams .modulo 100 s).1) w.arrays })
  rand_2 : ∀ x w s, get x w.arrays = some (rngArr s) → E.call "rand_2" [.arr x] w
    = ((nextRand32 .numba pokeRNGParams .modulo 2 s).2.map (short .numba),
      { w with arrays := put x (rngArr (nextRand32 .numba pokeRNGParams .modulo 2 s).1) w.arrays })
  next_rand : ∀ x w s v k, get x w.arrays = some (rngArr s) → cast u16 v = .ok (.sc false 16 k) → E.call ".next_rand" [.arr x, v] w
    = ((nextRand32 .numba pokeRNGParams .modulo k s).2.map (short .numba),
      { w with arrays := put x (rngArr (nextRand32 .numba pokeRNGParams .modulo k s).1) w.arrays })
  len : E.call "len" = len
  typedList : E.call "TypedList" = typedList
  append : E.call ".append" = append

/-- the environment in which the functions run -/
abbrev env (F D fuel depth : Nat) : Env :=
  ⟨.numba, (prog F D).globals, (prog F D).fieldTypes, run (prog F D) .numba fuel depth⟩

theorem env3 (F D fuel depth : Nat) (hD : 3 ≤ D) : Env3 (env F D fuel (depth + 1)) where
  mode := rfl
  globals := rfl
  hslot_rand x w s h := by
    dsimp only
    rw [run_given (g := method (constProg F D 100) F D "rand_func") rfl rfl]
    exact method_eq (const_rand_source s 100 F D (by omega)) (Nat.zero_le _) (by omega) h
  rand_2 x w s h := by
    dsimp only
    rw [run_given (g := method (constProg F D 2) F D "rand_func") rfl rfl]
    exact method_eq (const_rand_source s 2 F D (by omega)) (Nat.zero_le _) (by omega) h
  next_rand x w s v k h hv := by
    dsimp only
    rw [run_given (g := method rngProg F D "next_rand") rfl rfl]
    exact method_eq (next_rand_source s v k hv) (Nat.zero_le _) hD h
  len := by funext args; exact run_given (P := prog F D) (mode := .numba) (fuel := fuel) (depth := depth) (f := "len") (g := Area3.len) rfl rfl
  typedList := by funext args; exact run_given (P := prog F D) (mode := .numba) (fuel := fuel) (depth := depth) (f := "TypedList") (g := Area3.typedList) rfl rfl
  append := by funext args; exact run_given (P := prog F D) (mode := .numba) (fuel := fuel) (depth := depth) (f := ".append") (g := Area3.append) rfl rfl

theorem tables_get (a b c d e : Val) (l : List (String × Val)) :
    get "GRASS_TABLE" ([("GRASS_TABLE", a), ("OLD_ROD_TABLE", b), ("GOOD_ROD_TABLE", c), ("SUPER_ROD_TABLE", d),
        ("ROCK_SMASH_AND_SURF_TABLE", e)] ++ l) = some a
      ∧ get "OLD_ROD_TABLE" ([("GRASS_TABLE", a), ("OLD_ROD_TABLE", b), ("GOOD_ROD_TABLE", c), ("SUPER_ROD_TABLE", d),
        ("ROCK_SMASH_AND_SURF_TABLE", e)] ++ l) = some b
      ∧ get "GOOD_ROD_TABLE" ([("GRASS_TABLE", a), ("OLD_ROD_TABLE", b), ("GOOD_ROD_TABLE", c), ("SUPER_ROD_TABLE", d),
        ("ROCK_SMASH_AND_SURF_TABLE", e)] ++ l) = some c
      ∧ get "SUPER_ROD_TABLE" ([("GRASS_TABLE", a), ("OLD_ROD_TABLE", b), ("GOOD_ROD_TABLE", c), ("SUPER_ROD_TABLE", d),
        ("ROCK_SMASH_AND_SURF_TABLE", e)] ++ l) = some d
      ∧ get "ROCK_SMASH_AND_SURF_TABLE" ([("GRASS_TABLE", a), ("OLD_ROD_TABLE", b), ("GOOD_ROD_TABLE", c), ("SUPER_ROD_TABLE", d),
        ("ROCK_SMASH_AND_SURF_TABLE", e)] ++ l) = some e := by
  simp [get]

theorem grass_get : get "GRASS_TABLE" globals = some (tableVal grassRanges) := (tables_get _ _ _ _ _ _).1
theorem old_get : get "OLD_ROD_TABLE" globals = some (tableVal oldRodRanges) := (tables_get _ _ _ _ _ _).2.1
theorem good_get : get "GOOD_ROD_TABLE" globals = some (tableVal goodRodRanges) := (tables_get _ _ _ _ _ _).2.2.1
theorem super_get : get "SUPER_ROD_TABLE" globals = some (tableVal superRodRanges) := (tables_get _ _ _ _ _ _).2.2.2.1
theorem rock_get : get "ROCK_SMASH_AND_SURF_TABLE" globals = some (tableVal rockSmashAndSurfRanges) := (tables_get _ _ _ _ _ _).2.2.2.2

theorem get_mem {l : List (String × α)} (h : (l.map Prod.fst).Nodup) {e : String × α} (he : e ∈ l) : get e.1 l = some e.2 := by
  induction l with
  | nil => simp at he
  | cons p l ih =>
    obtain ⟨y, v⟩ := p
    simp only [List.map_cons, List.nodup_cons] at h
    rcases List.mem_cons.mp he with rfl | h'
    · simp [get]
    · have : y ≠ e.1 := fun e' => h.1 (e' ▸ List.mem_map_of_mem (f := Prod.fst) h')
      simp [get, this, ih h.2 h']

theorem enum_get (x : String) (k : Int) (h : (x, k) ∈ Source.enums3) : get x globals = some (literal .numba k) := by
  have hn : (globals.map Prod.fst).Nodup := by
    have e : globals.map Prod.fst = ["GRASS_TABLE", "OLD_ROD_TABLE", "GOOD_ROD_TABLE", "SUPER_ROD_TABLE", "ROCK_SMASH_AND_SURF_TABLE"]
        ++ Source.enums3.map Prod.fst := by
      simp only [globals, List.map_append, List.map_map]
      rfl
    rw [e]
    decide +kernel
  exact get_mem hn (e := (x, literal .numba k)) (List.mem_append_right _ (List.mem_map_of_mem (f := fun e => (e.1, literal .numba e.2)) h))

/-! ### conditions -/

/-- a member of an enumeration -/
theorem member {x : String} {v : Val} (h : get x globals = some v) {E : Env} (hE : Env3 E) {w : World} (hl : get x w.locals = none) :
    eval E (.var x) w = (.ok v, w) := by
  simp [eval, hl, hE.globals, h]

theorem cond {E : Env} (hE : Env3 E) {w : World} {x y : String} {v : Val} {e k : BitVec 8} (hx : get x w.locals = some v)
    (hv : toInt v = some (e.toNat : Int)) (hy : (y, (k.toNat : Int)) ∈ Source.enums3) (hl : get y w.locals = none) :
    eval E (.cmp .eq (.var x) (.var y)) w = (.ok (.bool (decide (e = k))), w) := by
  have h1 : eval E (.var x) w = (.ok v, w) := by simp [eval, hx]
  have hk : toInt (literal .numba (k.toNat : Int)) = some (k.toNat : Int) := by
    have := k.isLt
    simp only [literal, toInt, if_true, BitVec.toInt_ofInt]
    rw [Int.bmod_eq_of_le] <;> omega
  have h2 := member (enum_get y _ hy) hE hl
  rw [eval]
  simp only [M.bind, h1, h2, M.lift, compare, hv, hk]
  simp [BitVec.toNat_inj]

/-- `if c: return e` in front of other statements -/
theorem seq_if {E : Env} {fuel : Nat} {c e : Expr} {rest : Stmt} {w : World} {b : Bool} (h : eval E c w = (.ok (.bool b), w)) :
    exec E [] fuel (.seq (.ite c (.ret e) .pass) rest) w = if b then exec E [] fuel (.ret e) w else exec E [] fuel rest w := by
  cases b <;> simp [exec, M.bind, h, M.lift, truth, M.pure]
  cases eval E e w with
  | mk r w' => cases r <;> rfl

/-! ### get_encounter_rate -/

theorem area_attr {E : Env} {w : World} {x f : String} {fs : List (String × Val)} {v : Val} (h : get x w.locals = some (.obj fs)) (hf : get f fs = some v) :
    eval E (.attr (.var x) f) w = (.ok v, w) := by
  simp [eval, M.bind, h, loadAttr, hf, M.pure]

theorem get_encounter_rate_exec {E : Env} (hE : Env3 E) (fuel : Nat) (area : EncounterArea3) (v : Val) (e : BitVec 8)
    (hv : toInt v = some (e.toNat : Int)) (w : World) :
    exec E [] fuel Source.get_encounter_rate.body { w with locals := [("encounter_area", areaVal area), ("encounter_type", v)] }
      = (.ok (.ret (.sc false 8 (getEncounterRate area e))), { w with locals := [("encounter_area", areaVal area), ("encounter_type", v)] }) := by
  have ha {f : String} {u : Val} (hf : get f _ = some u) := area_attr (E := E) (x := "encounter_area") (f := f)
    (w := { w with locals := [("encounter_area", areaVal area), ("encounter_type", v)] }) rfl hf
  rw [Source.get_encounter_rate]
  simp only
  rw [seq_if (cond hE (k := Encounter.grass) rfl hv (by decide +kernel) rfl), seq_if (cond hE (k := Encounter.rockSmash) rfl hv (by decide +kernel) rfl),
    seq_if (cond hE (k := Encounter.surfing) rfl hv (by decide +kernel) rfl)]
  simp only [exec, M.bind, M.pure]
  rw [ha (f := "fish_rate") rfl, ha (f := "rock_rate") rfl, ha (f := "water_rate") rfl, ha (f := "land_rate") rfl, getEncounterRate]
  simp only [decide_eq_true_eq]
  split_ifs <;> rfl

/-! ### calculate_hslot -/

/-- the result of a model function that always ends -/
def excOf (enc : α → Val) : Res α → Except PyErr Val
  | .ok a => .ok (enc a)
  | .err e => .error e
  | .outOfFuel => .error .other

theorem nextRand_ok {k : BitVec 16} (hk : k ≠ 0) (s : BitVec 32) :
    nextRand32 .numba pokeRNGParams .modulo k s = ((nextU16 pokeRNGParams s).1, .ok ((nextU16 pokeRNGParams s).2 % k)) := by
  simp only [nextRand32, pyMod]
  rw [if_neg hk]

theorem short_toInt (x : BitVec 16) : toInt (short .numba x) = some (x.toNat : Int) := by
  have := x.isLt
  simp only [short, toInt, BitVec.toNat_setWidth]
  rw [Nat.mod_eq_of_lt (by omega)]
  rfl

theorem position_nat {n i : Nat} {v : Val} (h : toInt v = some (i : Int)) : position n v = if i < n then .ok i else .error .indexError := by
  simp [position, h]

theorem item_tup {E : Env} {w w' w'' : World} {a i : Expr} {vs : List Val} {v : Val} {k : Nat} (h1 : eval E a w = (.ok (.tup vs), w'))
    (h2 : eval E i w' = (.ok v, w'')) (h3 : toInt v = some (k : Int)) :
    eval E (.item a i) w = (match vs[k]? with | some u => .ok u | .none => .error .indexError, w'') := by
  simp only [eval, M.bind, h1, h2, loadItem, position_nat h3]
  by_cases h : k < vs.length
  · simp [h, Except.bind]
  · simp [h, Except.bind]

theorem hslot_rand_eval {E : Env} (hE : Env3 E) {w : World} {x : String} {s : BitVec 32} (hr : get "rng" w.locals = some (.arr x))
    (hx : get x w.arrays = some (rngArr s)) :
    eval E (.call "hslot_rand" (.cons (.var "rng") .nil)) w
      = (.ok (short .numba ((nextU16 pokeRNGParams s).2 % 100)), { w with arrays := put x (rngArr (nextU16 pokeRNGParams s).1) w.arrays }) := by
  have h := hE.hslot_rand x w s hx
  rw [nextRand_ok (by decide)] at h
  simp [eval, M.bind, hr, M.pure, builtin, h, Except.map]

theorem rand_2_eval {E : Env} (hE : Env3 E) {w : World} {x : String} {s : BitVec 32} (hr : get "rng" w.locals = some (.arr x))
    (hx : get x w.arrays = some (rngArr s)) :
    eval E (.call "rand_2" (.cons (.var "rng") .nil)) w
      = (.ok (short .numba ((nextU16 pokeRNGParams s).2 % 2)), { w with arrays := put x (rngArr (nextU16 pokeRNGParams s).1) w.arrays }) := by
  have h := hE.rand_2 x w s hx
  rw [nextRand_ok (by decide)] at h
  simp [eval, M.bind, hr, M.pure, builtin, h, Except.map]

/-- `encounter_area.f[T[hslot_rand(rng)]]` -/
theorem pick_eval {E : Env} (hE : Env3 E) {w : World} {x f t : String} {s : BitVec 32} {fs : List (String × Val)} {n : Nat}
    {slots : Vector Slot3 n} {ranges : List Int}
    (ha : get "encounter_area" w.locals = some (.obj fs)) (hf : get f fs = some (slotsVal slots.toList))
    (hr : get "rng" w.locals = some (.arr x)) (hx : get x w.arrays = some (rngArr s))
    (ht : get t globals = some (tableVal ranges)) (hl : get t w.locals = none) :
    eval E (.item (.attr (.var "encounter_area") f) (.item (.var t) (.call "hslot_rand" (.cons (.var "rng") .nil)))) w
      = (excOf slotVal (pick slots ranges ((nextU16 pokeRNGParams s).2 % 100)),
        { w with arrays := put x (rngArr (nextU16 pokeRNGParams s).1) w.arrays }) := by
  have h1 := area_attr (E := E) ha hf
  have h2 := item_tup (member ht hE hl) (hslot_rand_eval hE hr hx) (short_toInt _)
  rw [pick]
  cases hi : (tableOf ranges)[((nextU16 pokeRNGParams s).2 % 100).toNat]? with
  | none =>
    rw [List.getElem?_map, hi] at h2
    rw [eval]
    simp only [M.bind, h1, h2, excOf, Option.map_none]
  | some i =>
    rw [List.getElem?_map, hi] at h2
    rw [item_tup h1 h2 (k := i.toNat) rfl]
    simp only [List.getElem?_map, Vector.getElem?_toList]
    cases slots[i.toNat]? <;> rfl

theorem ret_exec {E : Env} {fuel : Nat} {e : Expr} {w w' : World} {r : Except PyErr Val} (h : eval E e w = (r, w')) :
    exec E [] fuel (.ret e) w = (r.map .ret, w') := by
  cases r <;> simp [exec, M.bind, h, M.pure, Except.map]

theorem seq_if_ret {E : Env} {fuel : Nat} {c e : Expr} {rest : Stmt} {w w' : World} {b : Bool} {r q : Except PyErr Val}
    (h : eval E c w = (.ok (.bool b), w)) (he : eval E e w = (r, w')) (hq : exec E [] fuel rest w = (q.map .ret, w')) :
    exec E [] fuel (.seq (.ite c (.ret e) .pass) rest) w = ((if b then r else q).map .ret, w') := by
  rw [seq_if h, ret_exec he, hq]
  cases b <;> rfl

/-- the slot that `calculate_hslot` picks for a number -/
def slotFor (area : EncounterArea3) (e : BitVec 8) (roll : BitVec 16) : Res Slot3 :=
  if e = Encounter.oldRod then pick area.fishOld oldRodRanges roll
  else if e = Encounter.goodRod then pick area.fishGood goodRodRanges roll
  else if e = Encounter.superRod then pick area.fishSuper superRodRanges roll
  else if e = Encounter.rockSmash then pick area.rock rockSmashAndSurfRanges roll
  else if e = Encounter.surfing then pick area.water rockSmashAndSurfRanges roll
  else pick area.land grassRanges roll

theorem excOf_slotFor (area : EncounterArea3) (e : BitVec 8) (roll : BitVec 16) : excOf slotVal (slotFor area e roll)
    = if e = Encounter.oldRod then excOf slotVal (pick area.fishOld oldRodRanges roll)
      else if e = Encounter.goodRod then excOf slotVal (pick area.fishGood goodRodRanges roll)
      else if e = Encounter.superRod then excOf slotVal (pick area.fishSuper superRodRanges roll)
      else if e = Encounter.rockSmash then excOf slotVal (pick area.rock rockSmashAndSurfRanges roll)
      else if e = Encounter.surfing then excOf slotVal (pick area.water rockSmashAndSurfRanges roll)
      else excOf slotVal (pick area.land grassRanges roll) := by
  rw [slotFor]
  split_ifs <;> rfl

theorem calculateHslot_eq (area : EncounterArea3) (e : BitVec 8) (s : BitVec 32) :
    calculateHslot area e s = (slotFor area e ((nextU16 pokeRNGParams s).2 % 100)).bind fun slot => .ok ((nextU16 pokeRNGParams s).1, slot) := by
  rw [calculateHslot, draw, nextRand_ok (by decide), slotFor]
  simp only [Res.ok_bind]
  split_ifs <;> rfl

theorem excOf_hslot (area : EncounterArea3) (e : BitVec 8) (s : BitVec 32) :
    excOf (fun r => slotVal r.2) (calculateHslot area e s) = excOf slotVal (slotFor area e ((nextU16 pokeRNGParams s).2 % 100)) := by
  rw [calculateHslot_eq]
  cases slotFor area e ((nextU16 pokeRNGParams s).2 % 100) <;> rfl

theorem calculate_hslot_exec {E : Env} (hE : Env3 E) (fuel : Nat) (area : EncounterArea3) (x : String) (s : BitVec 32) (v : Val) (e : BitVec 8)
    (hv : toInt v = some (e.toNat : Int)) (w : World) (hl : w.locals = [("encounter_area", areaVal area), ("rng", .arr x), ("encounter_type", v)])
    (hx : get x w.arrays = some (rngArr s)) :
    exec E [] fuel Source.calculate_hslot.body w
      = ((excOf (fun r => slotVal r.2) (calculateHslot area e s)).map .ret,
        { w with arrays := put x (rngArr (nextU16 pokeRNGParams s).1) w.arrays }) := by
  rw [excOf_hslot, excOf_slotFor]
  have h1 : get "encounter_area" w.locals = some (areaVal area) := by rw [hl]; rfl
  have h2 : get "rng" w.locals = some (.arr x) := by rw [hl]; rfl
  have h3 : get "encounter_type" w.locals = some v := by rw [hl]; rfl
  have hn (y : String) (h : y ≠ "encounter_area" := by decide) (h' : y ≠ "rng" := by decide) (h'' : y ≠ "encounter_type" := by decide) :
      get y w.locals = none := by
    simp [hl, get, Ne.symm h, Ne.symm h', Ne.symm h'']
  have hi {k : BitVec 8} {a b : Except PyErr Val} : (if e = k then a else b) = if decide (e = k) = true then a else b := by
    by_cases h : e = k <;> simp [h]
  rw [hi, hi, hi, hi, hi]
  refine seq_if_ret (cond hE h3 hv (by decide +kernel) (hn _)) (pick_eval hE h1 rfl h2 hx old_get (hn _)) ?_
  refine seq_if_ret (cond hE h3 hv (by decide +kernel) (hn _)) (pick_eval hE h1 rfl h2 hx good_get (hn _)) ?_
  refine seq_if_ret (cond hE h3 hv (by decide +kernel) (hn _)) (pick_eval hE h1 rfl h2 hx super_get (hn _)) ?_
  refine seq_if_ret (cond hE h3 hv (by decide +kernel) (hn _)) (pick_eval hE h1 rfl h2 hx rock_get (hn _)) ?_
  refine seq_if_ret (cond hE h3 hv (by decide +kernel) (hn _)) (pick_eval hE h1 rfl h2 hx rock_get (hn _)) ?_
  exact ret_exec (pick_eval hE h1 rfl h2 hx grass_get (hn _))

/-! ### calculate_hslot_lead -/

theorem cmp_num {E : Env} (hE : E.mode = .numba) {w w' : World} {a : Expr} {v : Val} {n : Nat} {op : CmpOp} {k : Nat} (hk : k < 2 ^ 63)
    (h : eval E a w = (.ok v, w')) (hv : toInt v = some (n : Int)) :
    eval E (.cmp op a (.num k)) w = (compare op (.int n) (.int k), w') := by
  have h1 : toInt (literal .numba (k : Int)) = some (k : Int) := by
    simp only [literal, toInt, if_true, BitVec.toInt_ofInt]
    rw [Int.bmod_eq_of_le] <;> omega
  have h2 : ∀ w, eval E (.num k) w = (.ok (literal .numba (k : Int)), w) := fun w => by simp [eval, hE, M.pure]
  rw [eval]
  simp only [M.bind, h, h2, M.lift, compare, hv, h1]
  rfl

theorem rand_2_zero {E : Env} (hE : Env3 E) {w : World} {x : String} {s : BitVec 32} (hr : get "rng" w.locals = some (.arr x))
    (hx : get x w.arrays = some (rngArr s)) :
    eval E (.cmp .eq (.call "rand_2" (.cons (.var "rng") .nil)) (.num 0)) w
      = (.ok (.bool (decide ((nextU16 pokeRNGParams s).2 % 2 = 0))), ⟨w.locals, w.fields, put x (rngArr (nextU16 pokeRNGParams s).1) w.arrays⟩) := by
  have hr := cmp_num (op := .eq) (k := 0) hE.mode (by decide) (rand_2_eval hE hr hx) (short_toInt _)
  generalize (nextU16 pokeRNGParams s).2 % 2 = r at hr ⊢
  refine hr.trans ?_
  simp [compare, toInt, ← BitVec.toNat_inj]

theorem and_eval {E : Env} {w w' : World} {a b : Expr} {p : Bool} (h : eval E a w = (.ok (.bool p), w')) :
    eval E (.and a b) w = if p then eval E b w' else (.ok (.bool false), w') := by
  cases p <;> simp [eval, M.bind, h, M.lift, truth, M.pure]

theorem or_eval {E : Env} {w w' : World} {a b : Expr} {p : Bool} (h : eval E a w = (.ok (.bool p), w')) :
    eval E (.or a b) w = if p then (.ok (.bool true), w') else eval E b w' := by
  cases p <;> simp [eval, M.bind, h, M.lift, truth, M.pure]

/-- `if c: return e` in front of other statements -/
theorem seq_if' {E : Env} {fuel : Nat} {c e : Expr} {rest : Stmt} {w w' : World} {b : Bool} (h : eval E c w = (.ok (.bool b), w')) :
    exec E [] fuel (.seq (.ite c (.ret e) .pass) rest) w = if b then exec E [] fuel (.ret e) w' else exec E [] fuel rest w' := by
  cases b <;> simp [exec, M.bind, h, M.lift, truth, M.pure]
  cases eval E e w' with
  | mk r w' => cases r <;> rfl

/-- a function of the generator `x` that returns `a` in the state `s'`, or raises -/
def Gives (w : World) (x : String) (enc : α → Val) : Res (BitVec 32 × α) → Except PyErr Val × World → Prop
  | .ok (s, a), o => o = (.ok (enc a), { w with arrays := put x (rngArr s) w.arrays })
  | .err e, o => ∃ l, o = (.error e, ⟨w.locals, w.fields, l⟩)
  | .outOfFuel, _ => False

theorem put_put (x : String) (a b : α) (l : List (String × α)) : put x b (put x a l) = put x b l := by
  induction l with
  | nil => simp [put]
  | cons p l ih =>
    obtain ⟨y, u⟩ := p
    by_cases h : y = x <;> simp [put, h, ih]

theorem drawn (k : BitVec 16) (hk : k ≠ 0) (s : BitVec 32) :
    draw k s = .ok ((nextU16 pokeRNGParams s).1, (nextU16 pokeRNGParams s).2 % k) := by
  rw [draw, nextRand_ok hk]

/-- a function without declared types -/
theorem invoke_plain {E : Env} {fuel : Nat} {F : Fun} {args : List Val} {w w' : World} {q : Except PyErr Val} (ha : F.args = .none)
    (hr : F.result = .none) (hs : F.results = .none) (hl : args.length = F.params.length)
    (h : exec E F.locals fuel F.body ⟨F.params.zip args, w.fields, w.arrays⟩ = (q.map .ret, w')) :
    invoke E fuel F args w = (q, ⟨w.locals, w'.fields, w'.arrays⟩) := by
  have e : castArgs E.mode F.args args = .ok args := by rw [ha]; cases args <;> rfl
  rw [invoke, e]
  simp only [hl, if_true, h, hr, hs, castResult]
  cases q with
  | error e => rfl
  | ok v => cases E.mode <;> rfl

/-- the call of `calculate_hslot` -/
theorem call_hslot {F D fuel depth : Nat} (hD : 3 ≤ D) (hd : 2 ≤ depth) (area : EncounterArea3) (x : String) (s : BitVec 32) (v : Val)
    (e : BitVec 8) (hv : toInt v = some (e.toNat : Int)) (w : World) (hx : get x w.arrays = some (rngArr s)) :
    Gives w x slotVal (calculateHslot area e s) (run (prog F D) .numba fuel depth "calculate_hslot" [areaVal area, .arr x, v] w) := by
  obtain ⟨depth, rfl⟩ := Nat.exists_eq_add_of_le' hd
  have h := calculate_hslot_exec (env3 F D fuel depth hD) fuel area x s v e hv
    { w with locals := [("encounter_area", areaVal area), ("rng", .arr x), ("encounter_type", v)] } rfl hx
  rw [run_succ (prog F D) .numba fuel (depth + 1) _ _ Source.calculate_hslot rfl]
  have h' : invoke (env F D fuel (depth + 1)) fuel Source.calculate_hslot [areaVal area, .arr x, v] w
      = (excOf (fun r => slotVal r.2) (calculateHslot area e s), { w with arrays := put x (rngArr (nextU16 pokeRNGParams s).1) w.arrays }) := by
    exact invoke_plain (F := Source.calculate_hslot) (args := [areaVal area, .arr x, v]) (w := w) rfl rfl rfl rfl h
  rw [h', calculateHslot_eq]
  cases hs : slotFor area e ((nextU16 pokeRNGParams s).2 % 100) with
  | ok slot => rfl
  | err er => exact ⟨_, rfl⟩
  | outOfFuel =>
    exfalso
    have hp {n : Nat} (sl : Vector Slot3 n) (r : List Int) (roll : BitVec 16) : pick sl r roll ≠ .outOfFuel := by
      rw [pick]
      cases (tableOf r)[roll.toNat]? with
      | none => simp
      | some i => cases h : sl[i.toNat]? <;> simp [h]
    rw [slotFor] at hs
    split_ifs at hs <;> exact hp _ _ _ hs

theorem Gives.mono {w : World} {x : String} {enc : α → Val} {r : Res (BitVec 32 × α)} {o : Except PyErr Val × World} {a : List (String × Arr)}
    {s : BitVec 32} (ha : a = put x (rngArr s) w.arrays) (h : Gives ⟨w.locals, w.fields, a⟩ x enc r o) : Gives w x enc r o := by
  subst ha
  match r, h with
  | .ok (s, a), h => rw [Gives, put_put] at h; exact h
  | .err e, h => exact h

theorem gives_ret {E : Env} {fuel : Nat} {e : Expr} {w w₁ : World} {x : String} {enc : α → Val} {r : Res (BitVec 32 × α)}
    (h : Gives w x enc r (eval E e w₁)) : ∃ q w', exec E [] fuel (.ret e) w₁ = (q.map .ret, w') ∧ Gives w x enc r (q, w') := by
  obtain ⟨o, ho⟩ : ∃ o, eval E e w₁ = o := ⟨_, rfl⟩
  obtain ⟨q, w'⟩ := o
  rw [ho] at h
  exact ⟨q, w', ret_exec ho, h⟩

/-- what the calls of the functions of the module do -/
structure Env3' (E : Env) : Prop extends Env3 E where
  hslot : ∀ area x s v (e : BitVec 8) w, toInt v = some (e.toNat : Int) → get x w.arrays = some (rngArr s) →
    Gives w x slotVal (calculateHslot area e s) (E.call "calculate_hslot" [areaVal area, .arr x, v] w)

theorem hslot_lead_exec {E : Env} (hE : Env3' E) (fuel : Nat) (area : EncounterArea3) (x : String) (s : BitVec 32) (v u : Val) (e k : BitVec 8)
    (slots : List Slot3) (hv : toInt v = some (e.toNat : Int)) (hu : toInt u = some (k.toNat : Int)) (hs : slots.length < 2 ^ 16) (w : World)
    (hl : w.locals = [("encounter_area", areaVal area), ("rng", .arr x), ("encounter_type", v), ("lead", u), ("modified_slots", slotsVal slots)])
    (hx : get x w.arrays = some (rngArr s)) :
    ∃ q w', exec E [] fuel Source.calculate_hslot_lead.body w = (q.map .ret, w')
      ∧ Gives w x slotVal (calculateHslotLead area e k slots s) (q, w') := by
  have h1 : get "encounter_area" w.locals = some (areaVal area) := by rw [hl]; rfl
  have h2 : get "rng" w.locals = some (.arr x) := by rw [hl]; rfl
  have h3 : get "encounter_type" w.locals = some v := by rw [hl]; rfl
  have h4 : get "lead" w.locals = some u := by rw [hl]; rfl
  have h5 : get "modified_slots" w.locals = some (slotsVal slots) := by rw [hl]; rfl
  have hlen : ∀ a, eval E (.call "len" (.cons (.var "modified_slots") .nil)) ⟨w.locals, w.fields, a⟩
      = (.ok (literal .numba slots.length), ⟨w.locals, w.fields, a⟩) := fun a => by
    simp [eval, M.bind, h5, M.pure, builtin, hE.len, slotsVal, len]
  have hcall : ∀ a s', get x a = some (rngArr s') → Gives ⟨w.locals, w.fields, a⟩ x slotVal (calculateHslot area e s')
      (eval E (.call "calculate_hslot" (.cons (.var "encounter_area") (.cons (.var "rng") (.cons (.var "encounter_type") .nil)))) ⟨w.locals, w.fields, a⟩) := fun a s' hx' => by
    have h := hE.hslot area x s' v e ⟨w.locals, w.fields, a⟩ hv hx'
    simpa [eval, M.bind, h1, h2, h3, M.pure, builtin] using h
  have hmp := cond hE.toEnv3 (w := w) (k := Lead.magnetPull) (y := "Lead.MAGNET_PULL") h4 hu (by decide +kernel) (by rw [hl]; rfl)
  have hst := cond hE.toEnv3 (w := w) (k := Lead.static) (y := "Lead.STATIC") h4 hu (by decide +kernel) (by rw [hl]; rfl)
  have hor : eval E (.or (.cmp .eq (.var "lead") (.var "Lead.MAGNET_PULL")) (.cmp .eq (.var "lead") (.var "Lead.STATIC"))) w
      = (.ok (.bool (decide (k = Lead.magnetPull ∨ k = Lead.static))), w) := by
    rw [or_eval hmp, hst]
    by_cases h : k = Lead.magnetPull <;> simp [h]
  have hr := rand_2_zero hE.toEnv3 h2 hx
  obtain ⟨s1, r, hr, hd2⟩ : ∃ s1 r, eval E (.cmp .eq (.call "rand_2" (.cons (.var "rng") .nil)) (.num 0)) w
      = (.ok (.bool (decide (r = 0))), ⟨w.locals, w.fields, put x (rngArr s1) w.arrays⟩) ∧ draw 2 s = .ok (s1, r) :=
    ⟨_, _, hr, drawn 2 (by decide) s⟩
  obtain ⟨a1, ha1⟩ : ∃ a1, a1 = put x (rngArr s1) w.arrays := ⟨_, rfl⟩
  have hx1 : get x a1 = some (rngArr s1) := by rw [ha1, get_put, if_pos rfl]
  rw [← ha1] at hr
  rw [calculateHslotLead]
  by_cases hk : k = Lead.magnetPull ∨ k = Lead.static
  · rw [if_pos hk, hd2]
    simp only [Res.ok_bind]
    have hne := cmp_num (op := .ne) (k := 0) hE.mode (by decide) (hlen a1) (n := slots.length) (by
      simp only [literal, toInt, if_true, BitVec.toInt_ofInt]
      rw [Int.bmod_eq_of_le] <;> omega)
    have hc : eval E (.and (.or (.cmp .eq (.var "lead") (.var "Lead.MAGNET_PULL")) (.cmp .eq (.var "lead") (.var "Lead.STATIC")))
        (.and (.cmp .eq (.call "rand_2" (.cons (.var "rng") .nil)) (.num 0)) (.cmp .ne (.call "len" (.cons (.var "modified_slots") .nil)) (.num 0)))) w
        = (.ok (.bool (decide (r = 0 ∧ slots.length ≠ 0))), ⟨w.locals, w.fields, a1⟩) := by
      rw [and_eval hor]
      simp only [hk, decide_true, if_true]
      rw [and_eval hr]
      by_cases h0 : r = 0
      · simp only [h0, decide_true, if_true]
        refine hne.trans ?_
        simp [compare, toInt]
      · simp only [h0, decide_false, false_and, Bool.false_eq_true, if_false]
    rw [Source.calculate_hslot_lead]
    simp only
    rw [seq_if' hc]
    by_cases h0 : r = 0 ∧ slots.length ≠ 0
    · have hk0 : BitVec.ofNat 16 slots.length ≠ 0 := by
        intro h
        have := congrArg BitVec.toNat h
        simp only [BitVec.toNat_ofNat, BitVec.ofNat_eq_ofNat, Nat.zero_mod] at this
        omega
      have hcast : cast u16 (literal .numba (slots.length : Int)) = .ok (.sc false 16 (BitVec.ofNat 16 slots.length)) := by simp [py]
      have hn := hE.next_rand x ⟨w.locals, w.fields, a1⟩ s1 _ _ hx1 hcast
      have hd3 := drawn _ hk0 s1
      rw [nextRand_ok hk0] at hn
      rw [if_pos h0, hd3]
      generalize (nextU16 pokeRNGParams s1).1 = s2 at hn
      generalize (nextU16 pokeRNGParams s1).2 % BitVec.ofNat 16 slots.length = j at hn
      have hcall : eval E (.call ".next_rand" (.cons (.var "rng") (.cons (.call "len" (.cons (.var "modified_slots") .nil)) .nil)))
          ⟨w.locals, w.fields, a1⟩ = (.ok (short .numba j), ⟨w.locals, w.fields, put x (rngArr s2) a1⟩) := by
        have hl' := hlen a1
        rw [eval]
        rw [eval, eval]
        simp only [M.bind]
        rw [eval]
        simp only [h2, hl', M.bind, builtin]
        rw [eval]
        simp only [M.pure]
        simpa [Except.map] using hn
      have hm : eval E (.var "modified_slots") ⟨w.locals, w.fields, a1⟩ = (.ok (.tup (slots.map slotVal)), ⟨w.locals, w.fields, a1⟩) := by
        simp [eval, h5, slotsVal]
      have hr := ret_exec (fuel := fuel) (item_tup hm hcall (short_toInt j))
      rw [if_pos (decide_eq_true h0)]
      refine ⟨_, _, hr, ?_⟩
      · simp only [Res.ok_bind, List.getElem?_map]
        cases slots[j.toNat]? with
        | none => exact ⟨_, rfl⟩
        | some sl => rw [ha1, put_put]; rfl
    · rw [if_neg h0]
      simp only [h0, decide_false, Bool.false_eq_true, if_false]
      exact gives_ret (Gives.mono ha1 (hcall a1 s1 hx1))
  · rw [if_neg hk]
    have hc : eval E (.and (.or (.cmp .eq (.var "lead") (.var "Lead.MAGNET_PULL")) (.cmp .eq (.var "lead") (.var "Lead.STATIC")))
        (.and (.cmp .eq (.call "rand_2" (.cons (.var "rng") .nil)) (.num 0)) (.cmp .ne (.call "len" (.cons (.var "modified_slots") .nil)) (.num 0)))) w
        = (.ok (.bool false), w) := by
      rw [and_eval hor]
      simp only [hk, decide_false, Bool.false_eq_true, if_false]
    rw [Source.calculate_hslot_lead]
    simp only
    rw [seq_if' hc]
    simp only [Bool.false_eq_true, if_false]
    exact gives_ret (hcall w.arrays s hx)

theorem env3' (F D fuel depth : Nat) (hD : 3 ≤ D) : Env3' (env F D fuel (depth + 2)) where
  toEnv3 := env3 F D fuel (depth + 1) hD
  hslot area x s v e w hv hx := call_hslot hD (by omega) area x s v e hv w hx

theorem run_plain {P : Prog} {fuel depth : Nat} {f : String} {F : Fun} {args : List Val} {w : World} {x : String} {enc : α → Val}
    {r : Res (BitVec 32 × α)} (hF : get f P.funs = some F) (ha : F.args = .none) (hr : F.result = .none) (hs : F.results = .none)
    (ht : F.locals = []) (hl : args.length = F.params.length)
    (h : ∃ q w', exec ⟨.numba, P.globals, P.fieldTypes, run P .numba fuel depth⟩ [] fuel F.body ⟨F.params.zip args, w.fields, w.arrays⟩ = (q.map .ret, w')
      ∧ Gives ⟨F.params.zip args, w.fields, w.arrays⟩ x enc r (q, w')) :
    Gives w x enc r (run P .numba fuel (depth + 1) f args w) := by
  obtain ⟨q, w', h1, h2⟩ := h
  rw [run_succ P .numba fuel depth _ _ F hF, invoke_plain ha hr hs hl (by rw [ht]; exact h1)]
  match r, h2 with
  | .ok (s, a), h2 =>
    rw [Gives] at h2
    obtain ⟨rfl, rfl⟩ := Prod.mk.inj h2
    rfl
  | .err e, h2 =>
    obtain ⟨l, h2⟩ := h2
    obtain ⟨rfl, rfl⟩ := Prod.mk.inj h2
    exact ⟨l, rfl⟩

/-- the call of `calculate_hslot_lead` -/
theorem call_hslot_lead {F D fuel depth : Nat} (hD : 3 ≤ D) (hd : 3 ≤ depth) (area : EncounterArea3) (x : String) (s : BitVec 32) (v u : Val)
    (e k : BitVec 8) (slots : List Slot3) (hv : toInt v = some (e.toNat : Int)) (hu : toInt u = some (k.toNat : Int)) (hs : slots.length < 2 ^ 16)
    (w : World) (hx : get x w.arrays = some (rngArr s)) :
    Gives w x slotVal (calculateHslotLead area e k slots s)
      (run (prog F D) .numba fuel depth "calculate_hslot_lead" [areaVal area, .arr x, v, u, slotsVal slots] w) := by
  obtain ⟨depth, rfl⟩ := Nat.exists_eq_add_of_le' hd
  exact run_plain (F := Source.calculate_hslot_lead) rfl rfl rfl rfl rfl rfl
    (hslot_lead_exec (env3' F D fuel depth hD) fuel area x s v u e k slots hv hu hs
      ⟨[("encounter_area", areaVal area), ("rng", .arr x), ("encounter_type", v), ("lead", u), ("modified_slots", slotsVal slots)], w.fields, w.arrays⟩
      rfl hx)

end Verif.Py.Area3
