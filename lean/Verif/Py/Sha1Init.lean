import Verif.Py.Sha1
/-
C133 for sha1.py, second part: the nazo constants, `get_nazo` and `__init__`, and the methods of the whole program.
-/
namespace Verif.Py.Sha1
open Verif Verif.Sha1

/-! ### the calls of the program -/

theorem bwrngNext_eq (mode : Mode) (x : BitVec 64) (w : World) :
    bwrngNext mode [.sc false 64 x] w = (.ok (.sc false 64 (Lcrng.next Lcrng.bwrngParams x)), w) := by
  have e1 : run (Lcrng64.prog Lcrng.bwrngParams Source.LCRNG64.next_rand) mode 0 1 "re_init" [.sc false 64 x] ⟨[], [("seed", .none)], []⟩
      = (.ok .none, ⟨[], [("seed", .sc false 64 x)], []⟩) := by
    rw [run_succ _ _ _ _ _ _ Source.LCRNG64.re_init rfl]
    cases mode <;> simp [py, Source.LCRNG64.re_init, Lcrng64.prog]
  obtain ⟨o, h1, h2⟩ := Lcrng64.next_source mode Lcrng.bwrngParams Source.LCRNG64.next_rand x 0 1 (le_refl _) (le_refl _) _ rfl
  have h3 := h2 []
  simp only [Obj.world] at h3
  simp only [bwrngNext, e1, h3]

theorem run_given {P : Prog} {mode : Mode} {fuel depth : Nat} {f : String} {args : List Val} {g : List Val → M Val} (h : get f P.funs = none)
    (hg : get f P.given = some g) : run P mode fuel (depth + 1) f args = g args := by
  rw [run, h]
  simp only [hg]

/-- the environment in which the functions run -/
abbrev env (mode : Mode) (junk : Mem) (fuel depth : Nat) : Env :=
  ⟨mode, (prog mode junk).globals, (prog mode junk).fieldTypes, run (prog mode junk) mode fuel depth⟩

theorem callees (mode : Mode) (junk : Mem) (fuel depth : Nat) : Callees (env mode junk fuel (depth + 2)) junk where
  toHelpers := helpers mode junk fuel (depth + 1)
  sections s a b c d e x w := by
    dsimp only
    rw [run_succ _ _ _ _ _ _ (secFun s) (by cases s <;> rfl)]
    exact section_invoke _ (helpers mode junk fuel depth) fuel s a b c d e x w
  calcs nm m i w lo hi hw := by
    dsimp only
    rw [run_succ _ _ _ _ _ _ Source.SHA1.calc_w rfl]
    exact calcW_invoke (env mode junk fuel (depth + 1)) (helpers mode junk fuel depth) fuel nm m i w lo hi hw
  simd nm m i w lo hi hw := by
    dsimp only
    rw [run_succ _ _ _ _ _ _ Source.SHA1.calc_w_simd rfl]
    exact calcWSimd_invoke (env mode junk fuel (depth + 1)) (helpers mode junk fuel depth) fuel nm m i w lo hi hw
  empty n w hn := by
    dsimp only
    rw [run_given (g := empty junk) rfl rfl]
    simp only [empty, toInt_literal mode n hn, Int.toNat_natCast]
  bwrng x w := by
    dsimp only
    rw [run_given (g := bwrngNext mode) rfl rfl]
    exact bwrngNext_eq mode x w

/-! ### the constants -/

theorem assign2_item {E : Env} {w : World} {fuel : Nat} {a : String} {e : Expr} {f : String} {n j k : Nat} {m : Mem} {v : Val} {x : BitVec 32}
    (hj : j < n) (hk : k < n) (hn : n < 2 ^ 63) (h : eval E e w = (.ok v, w)) (h1 : get a w.locals = some (.arr f))
    (h3 : get f w.arrays = some (.w32 n m)) (h5 : cast u32 v = .ok (.sc false 32 x)) :
    exec E [] fuel (.assign2 (.item (.var a) (.num (j : Int))) (.item (.var a) (.num (k : Int))) e) w
      = (.ok .next, ⟨w.locals, w.fields, put f (.w32 n ((m.set j x).set k x)) (put f (.w32 n (m.set j x)) w.arrays)⟩) := by
  simp [exec, M.bind, h, store, eval, h1, M.pure, storeItem, h3, Arr.len, position_num E hj hn, position_num E hk hn, Arr.store, h5, get_put]

theorem setEntry {E : Env} {fuel : Nat} {w : World} {a nm : String} {n k : Nat} {m : Mem} {e : Expr} {v : Val} {x : BitVec 32} (hk : k < n)
    (hn : n < 2 ^ 63) (hx : eval E e w = (.ok v, w)) (hv : cast u32 v = .ok (.sc false 32 x)) (ha : get a w.locals = some (.arr nm))
    (hm : get nm w.arrays = some (.w32 n m)) :
    exec E [] fuel (.assign (.item (.var a) (.num (k : Int))) e) w
      = (.ok .next, ⟨w.locals, w.fields, put nm (.w32 n (m.set k x)) w.arrays⟩) :=
  assign_item hx (var_eval ha) num_eval hm (position_num E hk hn) hv rfl

/-- a call that returns a new array with these words -/
def Fresh (w : World) (n : Nazo) (r : Except PyErr Val × World) : Prop :=
  ∃ a' m, r = (.ok (.arr (fresh w.arrays)), ⟨w.locals, w.fields, a'⟩) ∧ get (fresh w.arrays) a' = some (.w32 5 m)
    ∧ Words m n.n0 n.n1 n.n2 n.n3 n.n4 ∧ Others (fresh w.arrays) w.arrays a'

theorem add_wide (mode : Mode) (x y : BitVec 32) : binop mode .add (.sc false 32 x) (.sc false 32 y) = .ok
    (match mode with | .numba => .sc false 64 (x.setWidth 64 + y.setWidth 64) | .numpy => .sc false 32 (x + y)) := by
  cases mode <;> simp [py]

theorem endian_eval {E : Env} {junk : Mem} (C : Callees E junk) {w : World} {e : Expr} {v : Val} {x : BitVec 32} (h : eval E e w = (.ok v, w))
    (hv : cast u32 v = .ok (.sc false 32 x)) :
    eval E (.call "change_endian_u32" (.cons e .nil)) w = (.ok (.sc false 32 (Util.changeEndian x)), w) :=
  call_eval (by decide) (by decide) (cons_eval h nil_eval) (C.endian _ _ _ hv)

theorem nazoBw_invoke (E : Env) (junk : Mem) (C : Callees E junk) (fuel : Nat) (v : Val) (n : BitVec 32) (hv : cast u32 v = .ok (.sc false 32 n))
    (w : World) : Fresh w (nazoBw n) (invoke E fuel Source.compute_nazo_bw [v] w) := by
  rw [recast1 rfl rfl rfl hv (c32 n)]
  let l0 : List (String × Val) := [("input_nazo", .sc false 32 n)]
  let fr := fresh w.arrays
  let l1 := put "nazos" (.arr fr) (put "input_nazo" (.sc false 32 n) l0)
  have hi : get "input_nazo" l1 = some (.sc false 32 n) := by simp [l1, l0, get_put]
  have hn : get "nazos" l1 = some (.arr fr) := by simp [l1, get_put]
  let a1 := put fr (.w32 5 junk) w.arrays
  let m1 := junk.set 0 (Util.changeEndian n)
  let a2 := put fr (.w32 5 m1) a1
  let x := Util.changeEndian (n + 0xFC)
  let y := Util.changeEndian (n + 0xFC + 0x4C)
  let m2 := (m1.set 1 x).set 2 x
  let a3 := put fr (.w32 5 m2) (put fr (.w32 5 (m1.set 1 x)) a2)
  let m3 := (m2.set 3 y).set 4 y
  let a4 := put fr (.w32 5 m3) (put fr (.w32 5 (m2.set 3 y)) a3)
  refine ⟨a4, m3, ?_, by simp [a4, get_put, fr], ⟨rfl, rfl, rfl, rfl, rfl⟩, fun z hz => by simp [a4, a3, a2, a1, get_put, fr, hz.symm]⟩
  refine invoke_ret' (F := Source.compute_nazo_bw) (args' := [.sc false 32 n]) (w' := ⟨l1, w.fields, a4⟩) (v := .arr fr) ?_
    (castResult_none _ _) rfl ?_
  · cases E.mode <;> simp [py, Source.compute_nazo_bw]
  change exec E [] fuel _ ⟨l0, w.fields, w.arrays⟩ = _
  refine (seq_next (assign_var (v := .sc false 32 n) (w1 := ⟨l0, w.fields, w.arrays⟩) (cast_eval (var_eval (by simp [l0, get])) (c32 n)))).trans ?_
  refine (seq_next (assign_var (w := ⟨put "input_nazo" (.sc false 32 n) l0, w.fields, w.arrays⟩)
    (call_eval (by decide) (by decide) (cons_eval num_eval nil_eval) (C.empty 5 _ (by decide))))).trans ?_
  refine (seq_next (setEntry (k := 0) (w := ⟨l1, w.fields, a1⟩) (m := junk) (n := 5) (by decide) (by decide)
    (endian_eval C (var_eval hi) (c32 n)) (c32 _) hn (by simp [a1, get_put]))).trans ?_
  refine (seq_next (assign2_item (j := 1) (k := 2) (w := ⟨l1, w.fields, a2⟩) (m := m1) (n := 5) (by decide) (by decide) (by decide)
    (endian_eval C (bin_eval (var_eval hi) (num_cast E _ 0xFC) (add_wide _ _ _)) (x := n + 0xFC) ?_) hn (by simp [a2, get_put]) (c32 _))).trans ?_
  · cases E.mode <;> simp [py, narrow_add]
  have e2 : eval E (.bin .add (.bin .add (.var "input_nazo") (.cast u32 (.num 0xFC))) (.cast u32 (.num 0x4C))) ⟨l1, w.fields, a3⟩
      = (.ok (match E.mode with | .numba => .sc false 64 (n.setWidth 64 + 0xFC + 0x4C) | .numpy => .sc false 32 (n + 0xFC + 0x4C)), ⟨l1, w.fields, a3⟩) := by
    refine bin_eval (bin_eval (var_eval hi) (num_cast E _ 0xFC) (add_wide _ _ _)) (num_cast E _ 0x4C) ?_
    cases E.mode <;> simp [py]
  refine (seq_next (assign2_item (j := 3) (k := 4) (w := ⟨l1, w.fields, a3⟩) (m := m2) (n := 5) (by decide) (by decide) (by decide)
    (endian_eval C e2 (x := n + 0xFC + 0x4C) ?_) hn (by simp [a3, get_put]) (c32 _))).trans ?_
  · cases E.mode <;> simp [py, narrow_add]
  exact ret_exec (var_eval hn)

theorem recast3 {E : Env} {fuel : Nat} {F : Fun} {p q r : String} {t : Ty} {rest : Stmt} {v v' k k' z z' : Val} {w : World} (hp : F.params = [p, q, r])
    (ha : F.args = some [t, t, t])
    (hb : F.body = .seq (.assign (.var p) (.cast t (.var p))) (.seq (.assign (.var q) (.cast t (.var q))) (.seq (.assign (.var r) (.cast t (.var r))) rest)))
    (hpq : p ≠ q) (hpr : p ≠ r) (hqr : q ≠ r)
    (hv : cast t v = .ok v') (hv' : cast t v' = .ok v') (hk : cast t k = .ok k') (hk' : cast t k' = .ok k') (hz : cast t z = .ok z')
    (hz' : cast t z' = .ok z') : invoke E fuel F [v, k, z] w = invoke E fuel F [v', k', z'] w := by
  cases hm : E.mode
  · simp only [invoke, hm, ha, castArgs, Except.bind, hv, hv', hk, hk', hz, hz']
  · simp only [invoke, hm, ha, castArgs, hp, hb, List.length_cons, List.length_nil, if_true, List.zip_cons_cons, List.zip_nil_left, exec,
      eval, M.bind, get, M.lift, M.pure, hv, hv', hk, hk', hz, hz', store, storeLocal_numpy hm, put, if_neg hpq, if_neg hpr, if_neg hqr]

theorem nazoBw2_invoke (E : Env) (junk : Mem) (C : Callees E junk) (fuel : Nat) (v v0 v1 : Val) (n n0 n1 : BitVec 32)
    (hv : cast u32 v = .ok (.sc false 32 n)) (hv0 : cast u32 v0 = .ok (.sc false 32 n0)) (hv1 : cast u32 v1 = .ok (.sc false 32 n1))
    (w : World) : Fresh w (nazoBw2 n n0 n1) (invoke E fuel Source.compute_nazo_bw2 [v, v0, v1] w) := by
  rw [recast3 rfl rfl rfl (by decide) (by decide) (by decide) hv (c32 n) hv0 (c32 n0) hv1 (c32 n1)]
  let l0 : List (String × Val) := [("input_nazo", .sc false 32 n), ("input_nazo0", .sc false 32 n0), ("input_nazo1", .sc false 32 n1)]
  let fr := fresh w.arrays
  let la := put "input_nazo" (.sc false 32 n) l0
  let lb := put "input_nazo0" (.sc false 32 n0) la
  let lc := put "input_nazo1" (.sc false 32 n1) lb
  let l1 := put "nazos" (.arr fr) lc
  have hi : get "input_nazo" l1 = some (.sc false 32 n) := by simp [l1, lc, lb, la, get_put]
  have hi0 : get "input_nazo0" l1 = some (.sc false 32 n0) := by simp [l1, lc, lb, la, get_put]
  have hi1 : get "input_nazo1" l1 = some (.sc false 32 n1) := by simp [l1, lc, lb, la, get_put]
  have hn : get "nazos" l1 = some (.arr fr) := by simp [l1, get_put]
  let a1 := put fr (.w32 5 junk) w.arrays
  let m1 := junk.set 0 (Util.changeEndian n0)
  let a2 := put fr (.w32 5 m1) a1
  let m2 := m1.set 1 (Util.changeEndian n1)
  let a3 := put fr (.w32 5 m2) a2
  let m3 := m2.set 2 (Util.changeEndian n)
  let a4 := put fr (.w32 5 m3) a3
  let y := Util.changeEndian (n + 0x54)
  let m4 := (m3.set 3 y).set 4 y
  let a5 := put fr (.w32 5 m4) (put fr (.w32 5 (m3.set 3 y)) a4)
  refine ⟨a5, m4, ?_, by simp [a5, get_put, fr], ⟨rfl, rfl, rfl, rfl, rfl⟩, fun z hz => by simp [a5, a4, a3, a2, a1, get_put, fr, hz.symm]⟩
  refine invoke_ret' (F := Source.compute_nazo_bw2) (args' := [.sc false 32 n, .sc false 32 n0, .sc false 32 n1]) (w' := ⟨l1, w.fields, a5⟩)
    (v := .arr fr) ?_ (castResult_none _ _) rfl ?_
  · cases E.mode <;> simp [py, Source.compute_nazo_bw2]
  change exec E [] fuel _ ⟨l0, w.fields, w.arrays⟩ = _
  refine (seq_next (assign_var (v := .sc false 32 n) (w1 := ⟨l0, w.fields, w.arrays⟩) (cast_eval (var_eval (by simp [l0, get])) (c32 n)))).trans ?_
  refine (seq_next (assign_var (v := .sc false 32 n0) (w := ⟨la, w.fields, w.arrays⟩) (cast_eval (var_eval (by simp [la, l0, get_put, get])) (c32 n0)))).trans ?_
  refine (seq_next (assign_var (v := .sc false 32 n1) (w := ⟨lb, w.fields, w.arrays⟩) (cast_eval (var_eval (by simp [lb, la, l0, get_put, get])) (c32 n1)))).trans ?_
  refine (seq_next (assign_var (w := ⟨lc, w.fields, w.arrays⟩)
    (call_eval (by decide) (by decide) (cons_eval num_eval nil_eval) (C.empty 5 _ (by decide))))).trans ?_
  refine (seq_next (setEntry (k := 0) (w := ⟨l1, w.fields, a1⟩) (m := junk) (n := 5) (by decide) (by decide)
    (endian_eval C (var_eval hi0) (c32 n0)) (c32 _) hn (by simp [a1, get_put]))).trans ?_
  refine (seq_next (setEntry (k := 1) (w := ⟨l1, w.fields, a2⟩) (m := m1) (n := 5) (by decide) (by decide)
    (endian_eval C (var_eval hi1) (c32 n1)) (c32 _) hn (by simp [a2, get_put]))).trans ?_
  refine (seq_next (setEntry (k := 2) (w := ⟨l1, w.fields, a3⟩) (m := m2) (n := 5) (by decide) (by decide)
    (endian_eval C (var_eval hi) (c32 n)) (c32 _) hn (by simp [a3, get_put]))).trans ?_
  refine (seq_next (assign2_item (j := 3) (k := 4) (w := ⟨l1, w.fields, a4⟩) (m := m3) (n := 5) (by decide) (by decide) (by decide)
    (endian_eval C (bin_eval (var_eval hi) (num_cast E _ 0x54) (add_wide _ _ _)) (x := n + 0x54) ?_) hn (by simp [a4, get_put]) (c32 _))).trans ?_
  · cases E.mode <;> simp [py, narrow_add]
  exact ret_exec (var_eval hn)

/-- the words of the array that the right-hand side of the definition of a constant (lines 50-111) computes -/
def nazoOf : Expr → Option Nazo
  | .call f (.cons (.num (Int.ofNat n)) .nil) => if f = "compute_nazo_bw" then some (nazoBw (BitVec.ofNat 32 n)) else .none
  | .call f (.cons (.num (Int.ofNat n)) (.cons (.num (Int.ofNat n0)) (.cons (.num (Int.ofNat n1)) .nil))) =>
    if f = "compute_nazo_bw2" then some (nazoBw2 (BitVec.ofNat 32 n) (BitVec.ofNat 32 n0) (BitVec.ofNat 32 n1)) else .none
  | _ => .none

theorem nazoOf_eval (mode : Mode) (junk : Mem) (fuel depth : Nat) (e : Expr) (n : Nazo) (h : nazoOf e = some n) (w : World) :
    Fresh w n (eval (env mode junk fuel (depth + 3)) e w) := by
  unfold nazoOf at h
  split at h
  · split at h
    · subst_vars
      cases h
      rw [call_eval (by decide) (by decide) (cons_eval num_eval nil_eval) rfl]
      dsimp only
      rw [run_succ _ _ _ _ _ _ Source.compute_nazo_bw rfl]
      exact nazoBw_invoke _ junk (callees mode junk fuel depth) fuel _ _ (Mt.cast_literal mode _) w
    · cases h
  · split at h
    · subst_vars
      cases h
      rw [call_eval (by decide) (by decide) (cons_eval num_eval (cons_eval num_eval (cons_eval num_eval nil_eval))) rfl]
      dsimp only
      rw [run_succ _ _ _ _ _ _ Source.compute_nazo_bw2 rfl]
      exact nazoBw2_invoke _ junk (callees mode junk fuel depth) fuel _ _ _ _ _ _ (Mt.cast_literal mode _) (Mt.cast_literal mode _)
        (Mt.cast_literal mode _) w
    · cases h
  · cases h

/-! ### `get_nazo` -/

theorem get_mem {l : List (String × α)} (hn : (l.map Prod.fst).Nodup) {e : String × α} (he : e ∈ l) : get e.1 l = some e.2 := by
  induction l with
  | nil => cases he
  | cons x l ih =>
    rw [List.map_cons, List.nodup_cons] at hn
    rw [get]
    rcases List.mem_cons.mp he with rfl | h
    · simp
    · rw [if_neg (fun e' => hn.1 (by rw [e']; exact List.mem_map_of_mem h)), ih hn.2 h]

/-- the names of the constants of the module -/
def globalNames : List String := "BCD" :: (Source.enums.map Prod.fst ++ Source.sha1_constants.map Prod.fst)

theorem globalNames_nodup : globalNames.Nodup := by decide +kernel

/-- what the module knows -/
structure Globals (E : Env) : Prop where
  bcd : get "BCD" E.globals = some (.tup bcdTable)
  enums : ∀ e ∈ Source.enums, get e.1 E.globals = some (literal E.mode e.2)
  consts : ∀ x ∈ Source.sha1_constants.map Prod.fst, get x E.globals = some (.arr x)

theorem globals (mode : Mode) (junk : Mem) (fuel depth : Nat) : Globals (env mode junk fuel depth) := by
  have hn : ((prog mode junk).globals.map Prod.fst).Nodup := by
    have e : (prog mode junk).globals.map Prod.fst = globalNames := by
      simp only [prog, globalNames, List.map_cons, List.map_append, List.map_map]
      rfl
    rw [e]
    exact globalNames_nodup
  refine ⟨rfl, fun e he => ?_, fun x hx => ?_⟩
  · exact get_mem hn (e := (e.1, literal mode e.2)) (List.mem_cons_of_mem _ (List.mem_append_left _ (List.mem_map_of_mem (f := fun e => (e.1, literal mode e.2)) he)))
  · obtain ⟨c, hc, rfl⟩ := List.mem_map.mp hx
    exact get_mem hn (e := (c.1, .arr c.1)) (List.mem_cons_of_mem _ (List.mem_append_right _ (List.mem_map_of_mem (f := fun c => (c.1, Val.arr c.1)) hc)))

/-- the games of `get_nazo` with their constants, for a DS and for others -/
abbrev Row := String × Int × String × String

def rowStmt (r : Row) : Stmt :=
  .ite (.cmp .eq (.var "version") (.var r.1))
    (.ret (.ite (.cmp .eq (.var "ds_type") (.var "DSType.DS")) (.var r.2.2.1) (.var r.2.2.2))) .pass

def rowsStmt : List Row → Stmt
  | [] => .pass
  | [r] => rowStmt r
  | r :: s :: rs => .seq (rowStmt r) (rowsStmt (s :: rs))

def langStmt (l : String × Int × List Row) : Stmt := .ite (.cmp .eq (.var "language") (.var l.1)) (rowsStmt l.2.2) .pass

def four (a b c d e f g h : String) : List Row :=
  [("Game.BLACK", 0x1000, a, b), ("Game.WHITE", 0x2000, c, d), ("Game.BLACK2", 0x4000, e, f), ("Game.WHITE2", 0x8000, g, h)]

/-- the branches of `get_nazo` -/
def table : List (String × Int × List Row) :=
  [("Language.ENGLISH", 0, four "ENGLISH_BLACK" "ENGLISH_BLACK_DSI" "ENGLISH_WHITE" "ENGLISH_WHITE_DSI"
      "ENGLISH_BLACK2" "ENGLISH_BLACK2_DSI" "ENGLISH_WHITE2" "ENGLISH_WHITE2_DSI"),
   ("Language.JAPANESE", 4, four "JAPANESE_BLACK" "JAPANESE_BLACK_DSI" "JAPANESE_WHITE" "JAPANESE_WHITE_DSI"
      "JAPANESE_BLACK2" "JAPANESE_BLACK2_DSI" "JAPANESE_WHITE2" "JAPANESE_WHITE2_DSI"),
   ("Language.GERMAN", 2, four "GERMAN_BLACK" "GERMAN_BLACK_DSI" "GERMAN_WHITE" "GERMAN_WHITE_DSI"
      "GERMAN_BLACK2" "GERMAN_BLACK2_DSI" "GERMAN_WHITE2" "GERMAN_WHITE2_DSI"),
   ("Language.SPANISH", 6, four "SPANISH_BLACK" "SPANISH_BLACK_DSI" "SPANISH_WHITE" "SPANISH_WHITE_DSI"
      "SPANISH_BLACK2" "SPANISH_BLACK2_DSI" "SPANISH_WHITE2" "SPANISH_WHITE2_DSI"),
   ("Language.FRENCH", 1, four "FRENCH_BLACK" "FRENCH_BLACK_DSI" "FRENCH_WHITE" "FRENCH_WHITE_DSI"
      "FRENCH_BLACK2" "FRENCH_BLACK2_DSI" "FRENCH_WHITE2" "FRENCH_WHITE2_DSI"),
   ("Language.ITALIAN", 3, four "ITALIAN_BLACK" "ITALIAN_BLACK_DSI" "ITALIAN_WHITE" "ITALIAN_WHITE_DSI"
      "ITALIAN_BLACK2" "ITALIAN_BLACK2_DSI" "ITALIAN_WHITE2" "ITALIAN_WHITE2_DSI"),
   ("Language.KOREAN", 5, four "KOREAN_BLACK" "KOREAN_BLACK_DSI" "KOREAN_WHITE" "KOREAN_WHITE_DSI"
      "KOREAN_BLACK2" "KOREAN_BLACK2_DSI" "KOREAN_WHITE2" "KOREAN_WHITE2_DSI")]

theorem getNazo_body : Source.get_nazo.body
    = seqs (table.map langStmt) (.ret (.call "np.zeros.uint32" (.cons (.num 5) .nil))) := by rfl

/-- the constant that the rows choose -/
def pickRow (v d : Int) (rs : List Row) : Option String :=
  rs.findSome? fun r => if v = r.2.1 then some (if d = 0 then r.2.2.1 else r.2.2.2) else none

def pick (v l d : Int) (t : List (String × Int × List Row)) : Option String :=
  t.findSome? fun x => if l = x.2.1 then pickRow v d x.2.2 else none

/-- the arguments of `get_nazo` -/
structure Args (v l d : Int) (loc : List (String × Val)) : Prop where
  version : ∃ a, get "version" loc = some a ∧ toInt a = some v
  language : ∃ a, get "language" loc = some a ∧ toInt a = some l
  dsType : ∃ a, get "ds_type" loc = some a ∧ toInt a = some d
  other : ∀ x ∈ globalNames, get x loc = none

/-- what a statement that may return a constant does -/
def ctl : Option String → Ctl
  | some x => .ret (.arr x)
  | .none => .next

theorem enum_eq {E : Env} (G : Globals E) {w : World} {x g : String} {a : Val} {v k : Int} (hx : get x w.locals = some a) (ha : toInt a = some v)
    (hg : (g, k) ∈ Source.enums) (hl : get g w.locals = none) (hk : 0 ≤ k ∧ k < 2 ^ 63) :
    eval E (.cmp .eq (.var x) (.var g)) w = (.ok (.bool (decide (v = k))), w) := by
  refine cmp_eval (var_eval hx) (y := literal E.mode k) (w2 := w) ?_ ?_
  · simp only [eval, hl, G.enums _ hg]
  · obtain ⟨n, rfl⟩ := Int.eq_ofNat_of_zero_le hk.1
    simp only [compare, ha, toInt_literal E.mode n (by omega)]

theorem row_exec (E : Env) (G : Globals E) (fuel : Nat) (w : World) (v l d : Int) (A : Args v l d w.locals) (r : Row)
    (h1 : (r.1, r.2.1) ∈ Source.enums) (h2 : 0 ≤ r.2.1 ∧ r.2.1 < 2 ^ 63) (h3 : r.2.2.1 ∈ Source.sha1_constants.map Prod.fst)
    (h4 : r.2.2.2 ∈ Source.sha1_constants.map Prod.fst) : exec E [] fuel (rowStmt r) w = (.ok (ctl (pickRow v d [r])), w) := by
  obtain ⟨a, ha, ha'⟩ := A.version
  obtain ⟨t, ht, ht'⟩ := A.dsType
  have mem_enum {x : String} {k : Int} (h : (x, k) ∈ Source.enums) : x ∈ globalNames :=
    List.mem_cons_of_mem _ (List.mem_append_left _ (List.mem_map_of_mem (f := Prod.fst) h))
  have mem_const {x : String} (h : x ∈ Source.sha1_constants.map Prod.fst) : x ∈ globalNames :=
    List.mem_cons_of_mem _ (List.mem_append_right _ h)
  have hd : ("DSType.DS", (0 : Int)) ∈ Source.enums := by decide +kernel
  have e1 := enum_eq G ha ha' h1 (A.other _ (mem_enum h1)) h2
  have e2 := enum_eq G ht ht' hd (A.other _ (mem_enum hd)) (by decide)
  have e3 : eval E (.var r.2.2.1) w = (.ok (.arr r.2.2.1), w) := by simp only [eval, A.other _ (mem_const h3), G.consts _ h3]
  have e4 : eval E (.var r.2.2.2) w = (.ok (.arr r.2.2.2), w) := by simp only [eval, A.other _ (mem_const h4), G.consts _ h4]
  rw [rowStmt, pickRow, List.findSome?_cons, List.findSome?_nil]
  by_cases hv : v = r.2.1
  · rw [ite_true' e1 (by simp [truth, hv]), if_pos hv]
    refine (ret_exec (v := .arr (if d = 0 then r.2.2.1 else r.2.2.2)) (w1 := w) ?_).trans rfl
    rw [ite_eval e2]
    by_cases h0 : d = 0 <;> simp [h0, e3, e4]
  · rw [ite_false' e1 (by simp [truth, hv]), if_neg hv]
    rfl

/-- rows about members and constants -/
def RowsOk (rs : List Row) : Prop := ∀ r ∈ rs, (r.1, r.2.1) ∈ Source.enums ∧ (0 ≤ r.2.1 ∧ r.2.1 < 2 ^ 63)
  ∧ r.2.2.1 ∈ Source.sha1_constants.map Prod.fst ∧ r.2.2.2 ∈ Source.sha1_constants.map Prod.fst

instance (rs : List Row) : Decidable (RowsOk rs) := by unfold RowsOk; infer_instance

theorem rows_exec (E : Env) (G : Globals E) (fuel : Nat) (w : World) (v l d : Int) (A : Args v l d w.locals) : ∀ (rs : List Row), RowsOk rs →
    exec E [] fuel (rowsStmt rs) w = (.ok (ctl (pickRow v d rs)), w)
  | [], _ => rfl
  | [r], h => by
    obtain ⟨h1, h2, h3, h4⟩ := h r (by simp)
    exact row_exec E G fuel w v l d A r h1 h2 h3 h4
  | r :: s :: rs, h => by
    obtain ⟨h1, h2, h3, h4⟩ := h r (by simp)
    have e1 := row_exec E G fuel w v l d A r h1 h2 h3 h4
    have e2 := rows_exec E G fuel w v l d A (s :: rs) (fun x hx => h x (List.mem_cons_of_mem _ hx))
    rw [rowsStmt, exec, M.bind, e1]
    simp only [pickRow, List.findSome?_cons (a := r), List.findSome?_nil]
    by_cases hv : v = r.2.1
    · simp only [if_pos hv]
      rfl
    · simp only [if_neg hv]
      exact e2

theorem langs_exec (E : Env) (G : Globals E) (fuel : Nat) (w : World) (v l d : Int) (A : Args v l d w.locals) (rest : Stmt) :
    ∀ t : List (String × Int × List Row), (∀ x ∈ t, (x.1, x.2.1) ∈ Source.enums ∧ (0 ≤ x.2.1 ∧ x.2.1 < 2 ^ 63) ∧ RowsOk x.2.2) →
      exec E [] fuel (seqs (t.map langStmt) rest) w = (match pick v l d t with | some x => (.ok (.ret (.arr x)), w) | .none => exec E [] fuel rest w)
  | [], _ => rfl
  | x :: t, h => by
    obtain ⟨h1, h2, h3⟩ := h x (by simp)
    have ih := langs_exec E G fuel w v l d A rest t (fun y hy => h y (List.mem_cons_of_mem _ hy))
    obtain ⟨a, ha, ha'⟩ := A.language
    have e1 := enum_eq G ha ha' h1 (A.other _ (List.mem_cons_of_mem _ (List.mem_append_left _ (List.mem_map_of_mem (f := Prod.fst) h1)))) h2
    rw [List.map_cons]
    change exec E [] fuel (.seq (langStmt x) (seqs (t.map langStmt) rest)) w = _
    simp only [pick, List.findSome?_cons]
    by_cases hl : l = x.2.1
    · have e2 : exec E [] fuel (langStmt x) w = (.ok (ctl (pickRow v d x.2.2)), w) := by
        rw [langStmt, ite_true' e1 (by simp [truth, hl])]
        exact rows_exec E G fuel w v l d A x.2.2 h3
      rw [exec, M.bind, e2, if_pos hl]
      cases pickRow v d x.2.2 with
      | none => exact ih
      | some y => rfl
    · rw [if_neg hl]
      refine (seq_next (w' := w) ?_).trans ih
      rw [langStmt, ite_false' e1 (by simp [truth, hl])]
      rfl

theorem table_ok : ∀ x ∈ table, (x.1, x.2.1) ∈ Source.enums ∧ (0 ≤ x.2.1 ∧ x.2.1 < 2 ^ 63) ∧ RowsOk x.2.2 := by decide +kernel

/-- the words of the constant of this name -/
def nazoNamed (x : String) : Option Nazo := (get x Source.sha1_constants).bind nazoOf

/-- the module has been loaded: its arrays have the contents their definitions compute (see `nazoOf_eval`) -/
def Loaded (a : List (String × Arr)) : Prop := ∀ x n, nazoNamed x = some n → ∃ m, get x a = some (.w32 5 m) ∧ Words m n.n0 n.n1 n.n2 n.n3 n.n4

/-- the arrays that were there are still there, unchanged -/
def Keeps (a a' : List (String × Arr)) : Prop := ∀ x u, get x a = some u → get x a' = some u

theorem Keeps.trans {a b c : List (String × Arr)} (h1 : Keeps a b) (h2 : Keeps b c) : Keeps a c := fun x u h => h2 x u (h1 x u h)

theorem Loaded.keeps {a b : List (String × Arr)} (h : Loaded a) (k : Keeps a b) : Loaded b := fun x n hn => by
  obtain ⟨m, h1, h2⟩ := h x n hn
  exact ⟨m, k _ _ h1, h2⟩

theorem keeps_fresh (a : List (String × Arr)) (v : Arr) : Keeps a (put (fresh a) v a) := fun x u h => by
  rw [get_put, if_neg (fresh_ne h), h]

/-- the game that a number stands for -/
def verOf (n : BitVec 32) : Version :=
  if n = 0x1000 then .black else if n = 0x2000 then .white else if n = 0x4000 then .black2 else if n = 0x8000 then .white2 else .other

def langNum : Language → BitVec 8
  | .english => 0 | .french => 1 | .german => 2 | .italian => 3 | .japanese => 4 | .korean => 5 | .spanish => 6

/-- the words of the constant chosen by `get_nazo`, or zeros -/
theorem choice (n : BitVec 32) (L : Language) (t : DSType) :
    match pick n.toNat (langNum L).toNat (dsNum t).toNat table with
    | some x => nazoNamed x = some (getNazo (verOf n) L t)
    | .none => getNazo (verOf n) L t = ⟨0, 0, 0, 0, 0⟩ := by
  by_cases h1 : n = 0x1000
  · subst h1; cases L <;> cases t <;> rfl
  by_cases h2 : n = 0x2000
  · subst h2; cases L <;> cases t <;> rfl
  by_cases h3 : n = 0x4000
  · subst h3; cases L <;> cases t <;> rfl
  by_cases h4 : n = 0x8000
  · subst h4; cases L <;> cases t <;> rfl
  have e : verOf n = .other := by rw [verOf, if_neg h1, if_neg h2, if_neg h3, if_neg h4]
  have ne {k : Nat} (hk : k < 2 ^ 32) (h : n ≠ BitVec.ofNat 32 k) : ((n.toNat : Nat) : Int) ≠ (k : Int) := by
    intro h'
    apply h
    apply BitVec.eq_of_toNat_eq
    rw [BitVec.toNat_ofNat, Nat.mod_eq_of_lt hk]
    exact_mod_cast h'
  have n1 := ne (k := 0x1000) (by decide) h1
  have n2 := ne (k := 0x2000) (by decide) h2
  have n3 := ne (k := 0x4000) (by decide) h3
  have n4 := ne (k := 0x8000) (by decide) h4
  simp only [Nat.cast_ofNat] at n1 n2 n3 n4
  have hr (d : Int) (a b c d' e f g h : String) : pickRow n.toNat d (four a b c d' e f g h) = none := by
    simp [pickRow, four, n1, n2, n3, n4]
  have hp (l d : Int) : pick n.toNat l d table = none := by
    simp [pick, table, hr]
  rw [hp, e]
  cases L <;> rfl

/-- a value for a parameter of an unsigned type: the number itself, or a Python integer -/
structure Stands (w : Nat) (a : Val) (x : BitVec w) : Prop where
  cast : Py.cast ⟨false, w⟩ a = .ok (.sc false w x)
  int : toInt a = some (x.toNat : Int)

theorem Stands.self (x : BitVec w) : Stands w (.sc false w x) x := ⟨by simp [py], by simp [toInt]⟩

/-- calls that return an array of five words and change no other -/
def Gives (w : World) (n : Nazo) (r : Except PyErr Val × World) : Prop :=
  ∃ nm a' m, r = (.ok (.arr nm), ⟨w.locals, w.fields, a'⟩) ∧ get nm a' = some (.w32 5 m) ∧ Words m n.n0 n.n1 n.n2 n.n3 n.n4 ∧ Keeps w.arrays a'

theorem getNazo_invoke (E : Env) (G : Globals E)
    (hz : ∀ w : World, E.call "np.zeros.uint32" [literal E.mode 5] w
      = (.ok (.arr (fresh w.arrays)), ⟨w.locals, w.fields, put (fresh w.arrays) (.w32 5 ⟨fun _ => 0⟩) w.arrays⟩))
    (fuel : Nat) (v l d : Val) (n : BitVec 32) (L : Language) (t : DSType) (hv : Stands 32 v n) (hl : Stands 8 l (langNum L)) (hd : Stands 8 d (dsNum t))
    (w : World) (hw : Loaded w.arrays) : Gives w (getNazo (verOf n) L t) (invoke E fuel Source.get_nazo [v, l, d] w) := by
  obtain ⟨v', l', d', hc, hv', hl', hd'⟩ : ∃ v' l' d', castArgs E.mode (some [u32, u8, u8]) [v, l, d] = .ok [v', l', d']
      ∧ toInt v' = some (n.toNat : Int) ∧ toInt l' = some ((langNum L).toNat : Int) ∧ toInt d' = some ((dsNum t).toNat : Int) := by
    cases hm : E.mode
    · refine ⟨.sc false 32 n, .sc false 8 (langNum L), .sc false 8 (dsNum t), ?_, by simp [toInt], by simp [toInt], by simp [toInt]⟩
      have e1 : Py.cast u32 v = _ := hv.cast
      have e2 : Py.cast u8 l = _ := hl.cast
      have e3 : Py.cast u8 d = _ := hd.cast
      simp [castArgs, e1, e2, e3, Except.bind]
    · exact ⟨v, l, d, rfl, hv.int, hl.int, hd.int⟩
  let loc : List (String × Val) := [("version", v'), ("language", l'), ("ds_type", d')]
  have A : Args n.toNat (langNum L).toNat (dsNum t).toNat loc := by
    refine ⟨⟨v', by simp [loc, get], hv'⟩, ⟨l', by simp [loc, get], hl'⟩, ⟨d', by simp [loc, get], hd'⟩, fun x hx => ?_⟩
    have h1 : "version" ≠ x := fun e => (by decide +kernel : "version" ∉ globalNames) (e ▸ hx)
    have h2 : "language" ≠ x := fun e => (by decide +kernel : "language" ∉ globalNames) (e ▸ hx)
    have h3 : "ds_type" ≠ x := fun e => (by decide +kernel : "ds_type" ∉ globalNames) (e ▸ hx)
    simp [loc, get, h1, h2, h3]
  have e1 := langs_exec E G fuel ⟨loc, w.fields, w.arrays⟩ _ _ _ A (.ret (.call "np.zeros.uint32" (.cons (.num 5) .nil))) table table_ok
  have e2 := choice n L t
  rw [← getNazo_body] at e1
  cases hp : pick n.toNat (langNum L).toNat (dsNum t).toNat table with
  | some x =>
    rw [hp] at e1 e2
    obtain ⟨m, h1, h2⟩ := hw x _ e2
    exact ⟨x, w.arrays, m, invoke_ret' (F := Source.get_nazo) (w' := ⟨loc, w.fields, w.arrays⟩) hc (castResult_none _ _) rfl e1, h1, h2, fun _ _ h => h⟩
  | none =>
    rw [hp] at e1 e2
    refine ⟨fresh w.arrays, put (fresh w.arrays) (.w32 5 ⟨fun _ => 0⟩) w.arrays, ⟨fun _ => 0⟩, ?_, by simp [get_put], ?_, keeps_fresh _ _⟩
    · refine invoke_ret' (F := Source.get_nazo) (w' := ⟨loc, w.fields, put (fresh w.arrays) (.w32 5 ⟨fun _ => 0⟩) w.arrays⟩) hc
        (castResult_none _ _) rfl (e1.trans ?_)
      exact ret_exec (call_eval (by decide) (by decide) (cons_eval num_eval nil_eval) (hz _))
    · rw [e2]
      exact ⟨rfl, rfl, rfl, rfl, rfl⟩

/-! ### `__init__` -/

/-- what `__init__` calls -/
structure Starts (E : Env) (junk : Mem) : Prop extends Callees E junk where
  nazo : ∀ (v l d : Val) (n : BitVec 32) (L : Language) (t : DSType), Stands 32 v n → Stands 8 l (langNum L) → Stands 8 d (dsNum t) →
    ∀ w : World, Loaded w.arrays → Gives w (getNazo (verOf n) L t) (E.call "get_nazo" [v, l, d] w)
  slice : ∀ args w, E.call "[:]=" args w = setSlice args w
  type : get "ds_type" E.fieldTypes = some u8
  noType : get "data" E.fieldTypes = none

theorem assign_plain {E : Env} {w w1 : World} {fuel : Nat} {x : String} {e : Expr} {v : Val} (ht : get x E.fieldTypes = none)
    (h : eval E e w = (.ok v, w1)) : exec E [] fuel (.assign (.self x) e) w = (.ok .next, ⟨w1.locals, put x v w1.fields, w1.arrays⟩) := by
  cases hm : E.mode <;> simp [exec, M.bind, h, store, storeField, M.pure, ht, hm]

theorem mac_eval (E : Env) (w : World) (mac : BitVec 64) (h : get "mac" w.locals = some (.sc false 64 mac)) : ∃ v,
    eval E (.bin .and (.var "mac") (.cast u32 (.num 0xFFFF))) w = (.ok v, w) ∧ cast u32 v = .ok (.sc false 32 ((mac &&& 0xFFFF).setWidth 32)) := by
  refine ⟨.sc false 64 (mac &&& 0xFFFF), bin_eval (var_eval h) (num_cast E w 0xFFFF) ?_, by simp [py]⟩
  cases E.mode <;> simp [py]

theorem frame_eval (E : Env) (w : World) (mac : BitVec 64) (v g : BitVec 8) (h1 : get "mac" w.locals = some (.sc false 64 mac))
    (h2 : get "v_frame" w.locals = some (.sc false 8 v)) (h3 : get "gx_state" w.locals = some (.sc false 8 g)) : ∃ x,
    eval E (.bin .xor (.bin .xor (.cast u32 (.bin .shr (.var "mac") (.cast u64 (.num 0x10)))) (.bin .shl (.cast u32 (.var "v_frame")) (.cast u32 (.num 0x18)))) (.cast u32 (.var "gx_state"))) w
      = (.ok x, w) ∧ cast u32 x = .ok (.sc false 32 ((mac >>> 16).setWidth 32 ^^^ (v.setWidth 32 <<< 24) ^^^ g.setWidth 32)) := by
  cases hm : E.mode
  · exact ⟨_, by simp [py, h1, h2, h3, hm]; rfl, by simp [py]⟩
  · exact ⟨_, by simp [py, h1, h2, h3, hm]; rfl, by simp [py]⟩

theorem reset_exec (E : Env) (fuel : Nat) (w : World) (fr : String) (m : Mem) (b : Bool) (hd : get "data" w.locals = some (.arr fr))
    (hb : get "soft_reset" w.locals = some (.bool b)) (hm : get fr w.arrays = some (.w32 80 m)) :
    exec E [] fuel (.ite (.var "soft_reset") (.aug .xor (.item (.var "data") (.num 6)) (.cast u32 (.num 0x1000000))) .pass) w
      = (.ok .next, ⟨w.locals, w.fields, if b then put fr (.w32 80 (m.set 6 (m 6 ^^^ 0x1000000))) w.arrays else w.arrays⟩) := by
  cases b with
  | false => rw [ite_false' (var_eval hb) rfl]; rfl
  | true =>
    rw [ite_true' (var_eval hb) rfl]
    have e1 : eval E (.item (.var "data") (.num 6)) w = (.ok (.sc false 32 (m 6)), w) :=
      item_eval 6 (var_eval hd) num_eval hm (position_num E (k := 6) (by decide) (by decide))
    have e2 := num_cast E w 0x1000000
    simp only [Nat.cast_ofNat] at e2
    have p := position_num E (n := 80) (k := 6) (by decide) (by decide)
    simp only [Nat.cast_ofNat] at p
    simp only [exec, M.bind, e1, e2, xor_wide', M.lift, store, var_eval hd, num_eval, storeItem, hm, Arr.len, p, Arr.store, cast_wide]
    simp [M.pure]

theorem copyTo_five (dst src : Mem) {v0 v1 v2 v3 v4 : BitVec 32} (h : Words src v0 v1 v2 v3 v4) :
    copyTo dst src 5 = ((((dst.set 0 v0).set 1 v1).set 2 v2).set 3 v3).set 4 v4 := by
  obtain ⟨rfl, rfl, rfl, rfl, rfl⟩ := h
  rfl

theorem init_invoke (E : Env) (junk : Mem) (S : Starts E junk) (fuel : Nat) (v l d mac vf gx : Val) (n : BitVec 32) (L : Language) (t : DSType)
    (x : BitVec 64) (reset : Bool) (f g : BitVec 8) (hv : Stands 32 v n) (hl : Stands 8 l (langNum L)) (hd : Stands 8 d (dsNum t))
    (hx : cast u64 mac = .ok (.sc false 64 x)) (hf : cast u8 vf = .ok (.sc false 8 f)) (hg : cast u8 gx = .ok (.sc false 8 g)) (w : World)
    (hw : Loaded w.arrays) : ∃ a', invoke E fuel Source.SHA1.__init__ [v, l, d, mac, .bool reset, vf, gx] w
        = (.ok .none, ⟨w.locals, put "data" (.arr (fresh w.arrays)) (put "ds_type" (.sc false 8 (dsNum t)) w.fields), a'⟩)
      ∧ get (fresh w.arrays) a' = some (.w32 80 (new E.mode junk (verOf n) L t x reset f g).data) ∧ Keeps w.arrays a' := by
  let fr := fresh w.arrays
  let l0 : List (String × Val) := [("version", v), ("language", l), ("ds_type", d), ("mac", mac), ("soft_reset", .bool reset), ("v_frame", vf), ("gx_state", gx)]
  let l1 := put "mac" (.sc false 64 x) l0
  let l2 := put "v_frame" (.sc false 8 f) l1
  let l3 := put "gx_state" (.sc false 8 g) l2
  let l4 := put "data" (.arr fr) l3
  let f1 := put "ds_type" (.sc false 8 (dsNum t)) w.fields
  let f2 := put "data" (.arr fr) f1
  let a1 := put fr (.w32 80 junk) w.arrays
  have k1 : Keeps w.arrays a1 := keeps_fresh _ _
  have lm : get "mac" l4 = some (.sc false 64 x) := by simp [l4, l3, l2, l1, get_put]
  have lf : get "v_frame" l4 = some (.sc false 8 f) := by simp [l4, l3, l2, get_put]
  have lg : get "gx_state" l4 = some (.sc false 8 g) := by simp [l4, l3, get_put]
  have ld : get "data" l4 = some (.arr fr) := by simp [l4, get_put]
  have lr : get "soft_reset" l4 = some (.bool reset) := by simp [l4, l3, l2, l1, l0, get_put, get]
  have lv : get "version" l4 = some v := by simp [l4, l3, l2, l1, l0, get_put, get]
  have ll : get "language" l4 = some l := by simp [l4, l3, l2, l1, l0, get_put, get]
  have lt : get "ds_type" l4 = some d := by simp [l4, l3, l2, l1, l0, get_put, get]
  obtain ⟨nm, a2, mn, hn, hn1, hn2, k2⟩ := S.nazo v l d n L t hv hl hd ⟨l4, f2, a1⟩ (hw.keeps k1)
  have h2 : get fr a2 = some (.w32 80 junk) := k2 _ _ (by simp [a1, get_put])
  let m0 := copyTo junk mn 5
  let b0 := put fr (.w32 80 m0) a2
  let m1 := m0.set 6 ((x &&& 0xFFFF).setWidth 32)
  let b1 := put fr (.w32 80 m1) b0
  let m2 := if reset then m1.set 6 (m1 6 ^^^ 0x1000000) else m1
  let b2 := if reset then put fr (.w32 80 (m1.set 6 (m1 6 ^^^ 0x1000000))) b1 else b1
  have g2 : get fr b2 = some (.w32 80 m2) := by cases hr : reset <;> simp [b2, m2, hr, b1, get_put]
  let m3 := m2.set 7 ((x >>> 16).setWidth 32 ^^^ (f.setWidth 32 <<< 24) ^^^ g.setWidth 32)
  let b3 := put fr (.w32 80 m3) b2
  let m4 := m3.set 10 0
  let b4 := put fr (.w32 80 m4) b3
  let m5 := m4.set 11 0
  let b5 := put fr (.w32 80 m5) b4
  let m6 := m5.set 13 0x80000000
  let b6 := put fr (.w32 80 m6) b5
  let m7 := m6.set 14 0
  let b7 := put fr (.w32 80 m7) b6
  let m8 := m7.set 15 0x1A0
  let b8 := put fr (.w32 80 m8) b7
  let m9 := m8.set 18 (rotl E.mode (m8 15 ^^^ m8 10 ^^^ m8 4 ^^^ m8 2) 1)
  let b9 := put fr (.w32 80 m9) b8
  have hnew : (new E.mode junk (verOf n) L t x reset f g).data = m9 := by
    simp only [m9, m8, m7, m6, m5, m4, m3, m2, m1, m0, copyTo_five _ _ hn2, new]
  refine ⟨b9, ?_, by rw [hnew]; simp [b9, get_put, fr], fun y u hy => ?_⟩
  swap
  · have ne : fr ≠ y := fresh_ne hy
    have e2 : get y a2 = some u := k2 _ _ (k1 _ _ hy)
    cases hr : reset <;> simp [b9, b8, b7, b6, b5, b4, b3, b2, b1, b0, get_put, ne, hr, e2]
  refine invoke_proc (F := Source.SHA1.__init__) rfl rfl (l' := l4) ?_
  change exec E [] fuel _ ⟨l0, w.fields, w.arrays⟩ = _
  refine (seq_next (assign_var (w := ⟨l0, w.fields, w.arrays⟩) (cast_eval (var_eval (v := mac) (by simp [l0, get])) hx))).trans ?_
  refine (seq_next (assign_var (w := ⟨l1, w.fields, w.arrays⟩) (cast_eval (var_eval (v := vf) (by simp [l1, l0, get_put, get])) hf))).trans ?_
  refine (seq_next (assign_var (w := ⟨l2, w.fields, w.arrays⟩) (cast_eval (var_eval (v := gx) (by simp [l2, l1, l0, get_put, get])) hg))).trans ?_
  refine (seq_next (assign_self (w := ⟨l3, w.fields, w.arrays⟩) S.type (cast_eval (var_eval (v := d) (by simp [l3, l2, l1, l0, get_put, get])) hd.cast) (c8 _))).trans ?_
  refine (seq_next (assign_plain (w := ⟨l3, f1, w.arrays⟩) S.noType
    (call_eval (by decide) (by decide) (cons_eval num_eval nil_eval) (S.empty 80 _ (by decide))))).trans ?_
  refine (seq_next (assign_var (w := ⟨l3, f2, a1⟩) (self_eval (v := .arr fr) (by simp [f2, get_put])))).trans ?_
  have e0 : eval E (.call "get_nazo" (.cons (.var "version") (.cons (.var "language") (.cons (.var "ds_type") .nil)))) ⟨l4, f2, a1⟩
      = (.ok (.arr nm), ⟨l4, f2, a2⟩) :=
    call_eval (by decide) (by decide) (cons_eval (var_eval lv) (cons_eval (var_eval ll) (cons_eval (var_eval lt) nil_eval))) hn
  have e1 : eval E (.call "[:]=" (.cons (.var "data") (.cons (.num 5) (.cons (.call "get_nazo" (.cons (.var "version") (.cons (.var "language") (.cons (.var "ds_type") .nil)))) .nil)))) ⟨l4, f2, a1⟩
      = (.ok .none, ⟨l4, f2, b0⟩) := by
    refine call_eval (by decide) (by decide) (cons_eval (var_eval ld) (cons_eval num_eval (cons_eval e0 nil_eval))) ?_
    rw [S.slice]
    have p := toInt_literal E.mode 5 (by decide)
    simp only [Nat.cast_ofNat] at p
    simp [setSlice, p, h2, hn1, b0, m0]
  refine (seq_next (expr_exec e1)).trans ?_
  obtain ⟨u1, e2, e2'⟩ := mac_eval E ⟨l4, f2, b0⟩ x lm
  refine (seq_next (setEntry (k := 6) (n := 80) (m := m0) (by decide) (by decide) e2 e2' ld (by simp [b0, get_put]))).trans ?_
  refine (seq_next (reset_exec E fuel ⟨l4, f2, b1⟩ fr m1 reset ld lr (by simp [b1, get_put]))).trans ?_
  obtain ⟨u3, e3, e3'⟩ := frame_eval E ⟨l4, f2, b2⟩ x f g lm lf lg
  refine (seq_next (setEntry (k := 7) (n := 80) (m := m2) (by decide) (by decide) e3 e3' ld g2)).trans ?_
  refine (seq_next (setEntry (k := 10) (n := 80) (m := m3) (w := ⟨l4, f2, b3⟩) (x := 0) (by decide) (by decide) num_eval (Mt.cast_literal _ 0) ld (by simp [b3, get_put]))).trans ?_
  refine (seq_next (setEntry (k := 11) (n := 80) (m := m4) (w := ⟨l4, f2, b4⟩) (x := 0) (by decide) (by decide) num_eval (Mt.cast_literal _ 0) ld (by simp [b4, get_put]))).trans ?_
  refine (seq_next (setEntry (k := 13) (n := 80) (m := m5) (w := ⟨l4, f2, b5⟩) (x := 0x80000000) (by decide) (by decide) num_eval (Mt.cast_literal _ 0x80000000) ld (by simp [b5, get_put]))).trans ?_
  refine (seq_next (setEntry (k := 14) (n := 80) (m := m6) (w := ⟨l4, f2, b6⟩) (x := 0) (by decide) (by decide) num_eval (Mt.cast_literal _ 0) ld (by simp [b6, get_put]))).trans ?_
  refine (seq_next (setEntry (k := 15) (n := 80) (m := m7) (w := ⟨l4, f2, b7⟩) (x := 0x1A0) (by decide) (by decide) num_eval (Mt.cast_literal _ 0x1A0) ld (by simp [b7, get_put]))).trans ?_
  have g8 : get fr b8 = some (.w32 80 m8) := by simp [b8, get_put]
  have it (k : Nat) (hk : k < 80) : eval E (.item (.var "data") (.num (k : Int))) ⟨l4, f2, b8⟩ = (.ok (.sc false 32 (m8 k)), ⟨l4, f2, b8⟩) :=
    item_eval k (var_eval ld) num_eval g8 (position_num E hk (by decide))
  refine setEntry (k := 18) (n := 80) (m := m8) (w := ⟨l4, f2, b8⟩) (by decide) (by decide) ?_ (c32 _) ld g8
  refine call_eval (by decide) (by decide) (cons_eval (bin_eval (bin_eval (bin_eval (it 15 (by decide)) (it 10 (by decide)) (xor_wide' _ _ _)) (it 4 (by decide)) (xor_wide _ _ _)) (it 2 (by decide)) (xor_wide _ _ _)) (cons_eval num_eval nil_eval)) ?_
  exact S.left _ _ _ 1 _ (cast_wide _ _) (by cases E.mode <;> simp [py]) (by decide)

theorem starts (mode : Mode) (junk : Mem) (fuel depth : Nat) : Starts (env mode junk fuel (depth + 3)) junk where
  toCallees := callees mode junk fuel (depth + 1)
  nazo v l d n L t hv hl hd w hw := by
    dsimp only
    rw [run_succ _ _ _ _ _ _ Source.get_nazo rfl]
    refine getNazo_invoke (env mode junk fuel (depth + 2)) (globals mode junk fuel (depth + 2)) (fun w => ?_) fuel v l d n L t hv hl hd w hw
    dsimp only
    rw [run_given (g := zeros) rfl rfl]
    have p := toInt_literal mode 5 (by decide)
    simp only [Nat.cast_ofNat] at p
    simp only [zeros, empty, p]
    rfl
  slice args w := by
    dsimp only
    rw [run_given (g := setSlice) rfl rfl]
  type := rfl
  noType := rfl

/-! ### the object -/

/-- the attributes `data` and `ds_type`; `K` are the other arrays in use -/
def Rep (K : List (String × Arr)) (s : Verif.Sha1.Obj) (o : Obj) : Prop :=
  ∃ nm, Data nm s.data (o.world []) ∧ get "ds_type" o.fields = some (.sc false 8 (dsNum s.dsType))
    ∧ ∀ x u, get x K = some u → nm ≠ x ∧ get x o.arrays = some u

/-- the local variables of the caller do not matter -/
theorem invoke_locals {E : Env} {fuel : Nat} {F : Fun} {args : List Val} {l : List (String × Val)} {o : Obj} {r : Except PyErr Val} {f' : List (String × Val)}
    {a' : List (String × Arr)} (h : invoke E fuel F args (o.world l) = (r, ⟨l, f', a'⟩)) (l2 : List (String × Val)) :
    invoke E fuel F args (o.world l2) = (r, ⟨l2, f', a'⟩) := by
  simp only [invoke, Obj.world] at h ⊢
  split at h
  · cases h
    rfl
  · split at h
    · next hl =>
      rw [if_pos hl]
      generalize exec E F.locals fuel F.body _ = q at h ⊢
      obtain ⟨c, w'⟩ := q
      rcases c with e | (_ | _ | _ | v) <;> simp only [Prod.mk.injEq, World.mk.injEq] at h ⊢ <;> exact ⟨h.1, trivial, h.2.2⟩
    · next hl =>
      rw [if_neg hl]
      simp only [Prod.mk.injEq, World.mk.injEq] at h ⊢
      exact ⟨h.1, trivial, h.2.2⟩

theorem Rep.put {K : List (String × Arr)} {s s' : Verif.Sha1.Obj} {o : Obj} {nm : String} (hw : Data nm s.data (o.world []))
    (ht : get "ds_type" o.fields = some (.sc false 8 (dsNum s.dsType))) (hk : ∀ x u, get x K = some u → nm ≠ x ∧ get x o.arrays = some u)
    (hs : s'.dsType = s.dsType) : Rep K s' ⟨o.fields, put nm (.w32 80 s'.data) o.arrays⟩ := by
  refine ⟨nm, ⟨hw.1, by simp [Obj.world, get_put]⟩, by rw [hs]; exact ht, fun x u hx => ?_⟩
  obtain ⟨h1, h2⟩ := hk x u hx
  exact ⟨h1, by simp only [get_put, if_neg h1, h2]⟩

theorem setButton_source (mode : Mode) (junk : Mem) (K : List (String × Arr)) (s : Verif.Sha1.Obj) (button : BitVec 32) :
    Calls (prog mode junk) mode (Rep K) 0 1 "set_button" [.sc false 32 button] s (.ok .none) (setButton s button) := by
  refine calls_of Source.SHA1.set_button rfl ?_
  rintro fuel depth - - o ⟨nm, hw, ht, hk⟩
  exact ⟨_, Rep.put hw ht hk rfl, fun l => setButton_invoke _ fuel nm s (o.world l) ⟨hw.1, hw.2⟩ button⟩

theorem setTimer0_source (mode : Mode) (junk : Mem) (K : List (String × Arr)) (s : Verif.Sha1.Obj) (timer0 : BitVec 32) (vcount : BitVec 8) :
    Calls (prog mode junk) mode (Rep K) 0 2 "set_timer0" [.sc false 32 timer0, .sc false 8 vcount] s (.ok .none) (setTimer0 s timer0 vcount) := by
  refine calls_of Source.SHA1.set_timer0 rfl ?_
  rintro fuel depth - hd o ⟨nm, hw, ht, hk⟩
  obtain ⟨e, rfl⟩ := Nat.exists_eq_add_of_le' hd
  exact ⟨_, Rep.put hw ht hk rfl, fun l => setTimer0_invoke _ (helpers mode junk fuel e) fuel nm s (o.world l) ⟨hw.1, hw.2⟩ timer0 vcount⟩

/-- the object after a method that may raise an exception -/
def after (s : Verif.Sha1.Obj) (r : Except PyErr Verif.Sha1.Obj) : Verif.Sha1.Obj := match r with | .ok s' => s' | .error _ => s

theorem outcome_source {P : Prog} {mode : Mode} {K : List (String × Arr)} {s : Verif.Sha1.Obj} {n d : Nat} {f : String} {args : List Val}
    {r : Except PyErr Verif.Sha1.Obj} (F : Fun) (h : get f P.funs = some F) (hs : ∀ s', r = .ok s' → s'.dsType = s.dsType)
    (hi : ∀ fuel depth, n ≤ fuel → d ≤ depth → ∀ nm w, Data nm s.data w → get "ds_type" w.fields = some (.sc false 8 (dsNum s.dsType)) →
      invoke ⟨mode, P.globals, P.fieldTypes, run P mode fuel depth⟩ fuel F args w = Outcome nm w r) :
    Calls P mode (Rep K) n (d + 1) f args s (r.map fun _ => .none) (after s r) := by
  refine calls_of F h ?_
  rintro fuel depth hn hd o ⟨nm, hw, ht, hk⟩
  have e := fun l => hi fuel depth hn hd nm (o.world l) ⟨hw.1, hw.2⟩ ht
  cases r with
  | error x => exact ⟨o, ⟨nm, hw, ht, hk⟩, e⟩
  | ok s' => exact ⟨_, Rep.put hw ht hk (hs s' rfl), e⟩

theorem setDate_type {s s' : Verif.Sha1.Obj} {year : BitVec 16} {month day dow : BitVec 8} (h : setDate s year month day dow = .ok s') :
    s'.dsType = s.dsType := by
  unfold setDate at h
  cases h1 : bcd (year - 2000).toNat <;> cases h2 : bcd month.toNat <;> cases h3 : bcd day.toNat <;>
    rw [h1, h2, h3] at h <;> cases h
  rfl

theorem setTime_type {s s' : Verif.Sha1.Obj} {hour minute second : BitVec 8} (h : setTime s hour minute second = .ok s') :
    s'.dsType = s.dsType := by
  unfold setTime at h
  cases h1 : bcd hour.toNat <;> cases h2 : bcd minute.toNat <;> cases h3 : bcd second.toNat <;> rw [h1, h2, h3] at h <;> cases h
  rfl

theorem setDate_source (mode : Mode) (junk : Mem) (K : List (String × Arr)) (s : Verif.Sha1.Obj) (year : BitVec 16) (month day dow : BitVec 8) :
    Calls (prog mode junk) mode (Rep K) 0 1 "set_date" [.sc false 16 year, .sc false 8 month, .sc false 8 day, .sc false 8 dow] s
      ((setDate s year month day dow).map fun _ => .none) (after s (setDate s year month day dow)) :=
  outcome_source Source.SHA1.set_date rfl (fun _ h => setDate_type h) fun fuel depth _ _ nm w hw _ =>
    setDate_invoke _ (globals mode junk fuel depth).bcd fuel nm s w hw year month day dow

theorem setTime_source (mode : Mode) (junk : Mem) (K : List (String × Arr)) (s : Verif.Sha1.Obj) (hour minute second : BitVec 8) :
    Calls (prog mode junk) mode (Rep K) 0 1 "set_time" [.sc false 8 hour, .sc false 8 minute, .sc false 8 second] s
      ((setTime s hour minute second).map fun _ => .none) (after s (setTime s hour minute second)) :=
  outcome_source Source.SHA1.set_time rfl (fun _ h => setTime_type h) fun fuel depth _ _ nm w hw ht =>
    setTime_invoke _ (globals mode junk fuel depth).bcd ((globals mode junk fuel depth).enums ("DSType.DS3", 2) (by decide +kernel)) fuel nm s w hw ht
      hour minute second

/-- a new array with the words of `alpha`, beside those that were there -/
def AlphaAt (alpha : Alpha) (x : String) (K : List (String × Arr)) : Prop :=
  ∃ m, get x K = some (.w32 5 m) ∧ Words m alpha.v0 alpha.v1 alpha.v2 alpha.v3 alpha.v4

theorem precompute_source (mode : Mode) (junk : Mem) (K : List (String × Arr)) (s : Verif.Sha1.Obj) (fuel depth : Nat) (hd : 3 ≤ depth) (o : Obj)
    (ho : Rep K s o) : ∃ x K' o', Rep K' (precompute mode s).1 o' ∧ AlphaAt (precompute mode s).2 x K' ∧ Keeps K K'
      ∧ ∀ l, run (prog mode junk) mode fuel depth "precompute" [] (o.world l) = (.ok (.arr x), o'.world l) := by
  obtain ⟨nm, hw, ht, hk⟩ := ho
  obtain ⟨e, rfl⟩ := Nat.exists_eq_add_of_le' hd
  obtain ⟨x, a', m', h1, h2, h3, h4, h5, h6, h7⟩ := precompute_invoke (env mode junk fuel (e + 2)) junk (callees mode junk fuel e) fuel nm s (o.world []) hw
  have hx : ∀ y u, get y K = some u → x ≠ y := fun y u hy e' => by
    have := (hk y u hy).2
    rw [← e', show get x o.arrays = none from h4] at this
    cases this
  refine ⟨x, (x, .w32 5 m') :: K, ⟨o.fields, a'⟩, ⟨nm, ⟨hw.1, h2⟩, ht, fun y u hy => ?_⟩, ⟨m', by simp [get], h6⟩, fun y u hy => ?_, fun l => ?_⟩
  · rw [get] at hy
    split at hy
    · next e' => subst e'; cases hy; exact ⟨h3.symm, h5⟩
    · next e' =>
      obtain ⟨i1, i2⟩ := hk y u hy
      exact ⟨i1, (h7 y i1.symm (Ne.symm e')).trans i2⟩
  · rw [get, if_neg (hx y u hy), hy]
  · rw [run_succ _ _ _ _ _ _ Source.SHA1.precompute rfl]
    exact invoke_locals h1 l

theorem hashSeed_source (mode : Mode) (junk : Mem) (K : List (String × Arr)) (s : Verif.Sha1.Obj) (alpha : Alpha) (x : String) (hx : AlphaAt alpha x K) (n : Nat) :
    Calls (prog mode junk) mode (Rep K) n 3 "hash_seed" [.arr x] s (.ok (.sc false 64 (hashSeed mode s alpha).2)) (hashSeed mode s alpha).1 := by
  refine calls_of Source.SHA1.hash_seed rfl ?_
  rintro fuel depth - hd o ⟨nm, hw, ht, hk⟩
  obtain ⟨e, rfl⟩ := Nat.exists_eq_add_of_le' hd
  obtain ⟨ma, hx1, hx2⟩ := hx
  obtain ⟨a', h1, h2, h3⟩ := hashSeed_invoke (env mode junk fuel (e + 2)) junk (callees mode junk fuel e) fuel nm x s alpha ma (o.world []) hw
    (hk x _ hx1).2 hx2
  refine ⟨⟨o.fields, a'⟩, ⟨nm, ⟨hw.1, h2⟩, ht, fun y u hy => ?_⟩, fun l => invoke_locals h1 l⟩
  obtain ⟨i1, i2⟩ := hk y u hy
  exact ⟨i1, (h3 y i1.symm).trans i2⟩

theorem init_source (mode : Mode) (junk : Mem) (v l d mac vf gx : Val) (n : BitVec 32) (L : Language) (t : DSType)
    (x : BitVec 64) (reset : Bool) (f g : BitVec 8) (hv : Stands 32 v n) (hl : Stands 8 l (langNum L)) (hd : Stands 8 d (dsNum t))
    (hx : cast u64 mac = .ok (.sc false 64 x)) (hf : cast u8 vf = .ok (.sc false 8 f)) (hg : cast u8 gx = .ok (.sc false 8 g))
    (fuel depth : Nat) (hdepth : 4 ≤ depth) (K : List (String × Arr)) (hK : Loaded K) (fields : List (String × Val)) :
    ∃ o', Rep K (new mode junk (verOf n) L t x reset f g) o' ∧ ∀ loc,
      run (prog mode junk) mode fuel depth "__init__" [v, l, d, mac, .bool reset, vf, gx] ⟨loc, fields, K⟩ = (.ok .none, o'.world loc) := by
  obtain ⟨e, rfl⟩ := Nat.exists_eq_add_of_le' hdepth
  obtain ⟨a', h1, h2, h3⟩ := init_invoke (env mode junk fuel (e + 3)) junk (starts mode junk fuel e) fuel v l d mac vf gx n L t x reset f g hv hl hd hx hf hg
    ⟨[], fields, K⟩ hK
  refine ⟨⟨put "data" (.arr (fresh K)) (put "ds_type" (.sc false 8 (dsNum t)) fields), a'⟩, ⟨fresh K, ⟨by simp [Obj.world, get_put], h2⟩, by simp [get_put, new], fun y u hy => ⟨fresh_ne hy, h3 y u hy⟩⟩, fun loc => ?_⟩
  rw [run_succ _ _ _ _ _ _ Source.SHA1.__init__ rfl]
  exact invoke_locals (o := ⟨fields, K⟩) h1 loc

end Verif.Py.Sha1
