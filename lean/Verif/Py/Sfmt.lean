import Verif.Py.SfmtShuffle
/-
C133 for the class `SIMDFastMersenneTwister` of mersenne_twister/sfmt.py.
-/
namespace Verif.Py.Sfmt
open Verif Verif.Sfmt

/-- the class `SIMDFastMersenneTwister` and the function `sfmt_shuffle`. In compiled code the text of that function is replaced
(`sfmt.py:13-18`, `259-263`) by generated instructions; those are modelled by `irShuffle` and do the same (C19). -/
def prog : Prog where
  funs := [("sfmt_shuffle", Source.sfmt_shuffle), ("re_init", Source.SIMDFastMersenneTwister.re_init),
    ("advance", Source.SIMDFastMersenneTwister.advance), ("next", Source.SIMDFastMersenneTwister.next),
    ("shuffle", Source.SIMDFastMersenneTwister.shuffle), ("next_rand", Source.SIMDFastMersenneTwister.next_rand)]
  globals := []
  fieldTypes := [("index", u16)]

@[py] theorem prog_globals : prog.globals = [] := rfl
@[py] theorem prog_fieldTypes : prog.fieldTypes = [("index", u16)] := rfl

/-- the object with this array and index -/
def obj (m : Mem) (ix : Val) : Obj := ⟨[("state", .arr "state"), ("index", ix)], [("state", .w32 624 m)]⟩

/-- The attribute `index` holds this number: as an `np.uint16`; without numba also as a Python integer (after `self.index = 0`) or as
an `np.int64` (after `self.index += 1`). -/
def IsIndex (mode : Mode) (v : Val) (n : Nat) : Prop :=
  (∃ ix : BitVec 16, v = .sc false 16 ix ∧ n = ix.toNat) ∨
    mode = .numpy ∧ n < 2 ^ 16 ∧ (v = .int n ∨ v = .sc true 64 (BitVec.ofNat 64 n))

/-- the attributes `state` and `index` -/
def Rep (mode : Mode) (s : State) (o : Obj) : Prop := ∃ v, o = obj s.state v ∧ IsIndex mode v s.index

variable {mode : Mode} {v : Val} {n : Nat}

/-- what an assignment of `u` to an attribute of type `t` leaves there -/
def Stored (mode : Mode) (t : Ty) (u v : Val) : Prop :=
  match mode with | .numba => Py.cast t u = .ok v | .numpy => u = v

theorem IsIndex.lt (h : IsIndex mode v n) : n < 2 ^ 16 := by
  obtain ⟨ix, rfl, rfl⟩ | ⟨-, h, -⟩ := h
  · exact ix.isLt
  · exact h

theorem long_toInt {n : Nat} (h : n < 2 ^ 16) : (BitVec.ofNat 64 n).toInt = n := by
  rw [BitVec.toInt_eq_toNat_of_lt (by simp; omega)]
  simp
  omega

theorem IsIndex.toInt (h : IsIndex mode v n) : Py.toInt v = some (n : Int) := by
  obtain ⟨ix, rfl, rfl⟩ | ⟨-, h, rfl | rfl⟩ := h
  · rfl
  · rfl
  · simp only [Py.toInt, if_true, long_toInt h]

theorem IsIndex.position (h : IsIndex mode v n) (k : Nat) : Py.position k v = if n < k then .ok n else .error .indexError := by
  simp [Py.position, h.toInt]

theorem IsIndex.succ (h : IsIndex mode v n) (hn : n + 1 < 2 ^ 16) :
    ∃ u v', binop mode .add v (literal mode 1) = .ok u ∧ Stored mode u16 u v' ∧
      IsIndex mode v' (n + 1) := by
  obtain ⟨ix, rfl, rfl⟩ | ⟨rfl, h, rfl | rfl⟩ := h
  · cases mode
    · refine ⟨.sc true 64 (ix.setWidth 64 + 1), .sc false 16 (ix + 1), by simp [py], ?_, .inl ⟨_, rfl, ?_⟩⟩
      · simp [Stored, py]
        rw [BitVec.setWidth_add _ _ (by decide)]
        simp
      · simp
        omega
    · refine ⟨.sc true 64 (ix.setWidth 64 + 1), _, by simp [py], rfl, .inr ⟨rfl, hn, .inr ?_⟩⟩
      congr 1
  · exact ⟨.int (n + 1), _, rfl, rfl, .inr ⟨rfl, hn, .inl rfl⟩⟩
  · refine ⟨.sc true 64 (BitVec.ofNat 64 n + 1), _, by simp [py], rfl, .inr ⟨rfl, hn, .inr ?_⟩⟩
    congr 1
    apply BitVec.eq_of_toNat_eq
    simp

theorem IsIndex.cast (h : IsIndex mode v n) : Py.cast u32 v = .ok (.sc false 32 (BitVec.ofNat 32 n)) := by
  obtain ⟨ix, rfl, rfl⟩ | ⟨rfl, h, rfl | rfl⟩ := h
  · simp [py]
  · simp [py]
  · simp [py]

theorem shuffleFun_source (mode : Mode) (fuel depth : Nat) (hd : 1 ≤ depth) (m : Mem) (v : Val) (l : List (String × Val)) :
    run prog mode fuel depth "sfmt_shuffle" [.arr "state"] ((obj m v).world l) = (.ok .none, (obj (pyShuffle m) v).world l) := by
  obtain ⟨e, rfl⟩ := Nat.exists_eq_add_of_le' hd
  rw [run_succ prog mode fuel e "sfmt_shuffle" _ Source.sfmt_shuffle rfl]
  obtain ⟨l', h⟩ := SfmtShuffle.shuffle_exec (E := ⟨mode, prog.globals, prog.fieldTypes, run prog mode fuel e⟩)
    (F := [("state", .arr "state"), ("index", v)]) fuel m
  exact invoke_next (o := obj m v) (o' := obj (pyShuffle m) v) (l' := l') rfl rfl h

theorem zero_isIndex (mode : Mode) : ∃ v', Stored mode u16 (literal mode 0) v' ∧
    IsIndex mode v' 0 := by
  cases mode
  · exact ⟨.sc false 16 0, by simp [Stored, py], .inl ⟨0, rfl, rfl⟩⟩
  · exact ⟨_, rfl, .inr ⟨rfl, by decide, .inl rfl⟩⟩

theorem put_put (x : String) (u v : α) : ∀ l : List (String × α), put x u (put x v l) = put x u l
  | [] => by simp [put]
  | (y, z) :: l => by
    by_cases h : y = x
    · simp [put, h]
    · simp [put, h, put_put x u v l]

theorem assign_field {E : Env} {w w1 : World} {fuel : Nat} {x : String} {e : Expr} {v v' : Val} {t : Ty} (ht : get x E.fieldTypes = some t)
    (h : eval E e w = (.ok v, w1)) (hv : Stored E.mode t v v') :
    exec E [] fuel (.assign (.self x) e) w = (.ok .next, ⟨w1.locals, put x v' w1.fields, w1.arrays⟩) := by
  cases hm : E.mode <;> rw [hm] at hv <;> simp only [Stored] at hv <;> simp [exec, M.bind, h, store, storeField, M.pure, ht, hv, hm]

theorem aug_field {E : Env} {w w1 : World} {fuel : Nat} {op : BinOp} {x : String} {e : Expr} {a b v v' : Val} {t : Ty}
    (ht : get x E.fieldTypes = some t) (ha : get x w.fields = some a) (h : eval E e w = (.ok b, w1)) (hb : binop E.mode op a b = .ok v)
    (hv : Stored E.mode t v v') :
    exec E [] fuel (.aug op (.self x) e) w = (.ok .next, ⟨w1.locals, put x v' w1.fields, w1.arrays⟩) := by
  cases hm : E.mode <;> rw [hm] at hv hb <;> simp only [Stored] at hv <;>
    simp [exec, M.bind, self_eval ha, h, M.lift, hb, store, storeField, M.pure, ht, hv, hm]

theorem shuffle_source (mode : Mode) (s : State) : Calls prog mode (Rep mode) 0 2 "shuffle" [] s (.ok .none) (shuffle s) := by
  refine calls_of Source.SIMDFastMersenneTwister.shuffle rfl ?_
  rintro fuel depth - hd o ⟨v, rfl, hv⟩
  let E : Env := ⟨mode, prog.globals, prog.fieldTypes, run prog mode fuel depth⟩
  obtain ⟨v', h1, h2⟩ := zero_isIndex mode
  refine ⟨obj (pyShuffle s.state) v', ⟨v', rfl, h2⟩, fun l => invoke_next (l' := [("state", .arr "state")]) rfl rfl ?_⟩
  change exec E [] fuel _ _ = _
  refine Eq.trans (seq_next (w' := (obj s.state v).world [("state", .arr "state")]) (assign_var (self_eval rfl))) ?_
  refine Eq.trans (seq_next (w' := (obj (pyShuffle s.state) v).world [("state", .arr "state")]) ?_) ?_
  · have := shuffleFun_source mode fuel depth hd s.state v [("state", .arr "state")]
    change E.call _ _ _ = _ at this
    simp only [exec, eval, M.bind, M.pure, Obj.world, get, if_true, builtin] at this ⊢
    simp [this]
  · exact assign_field (t := u16) rfl num_eval h1

/-! ### seeding -/

/-- the variable `inner` from the first shift on -/
def folded (mode : Mode) (y : BitVec 32) : Val :=
  match mode with | .numba => .sc false 64 (y.setWidth 64) | .numpy => .sc true 64 (y.setWidth 64)

theorem sshr (y : BitVec 32) (n : Nat) : (y.setWidth 64).sshiftRight n = (y >>> n).setWidth 64 := by
  rw [BitVec.sshiftRight_eq_of_msb_false (by simp [BitVec.msb_setWidth]), widen_shr]

theorem fold_step (E : Env) (fuel : Nat) (w : World) (n : Nat) (h1 : n < 32) (y : BitVec 32) (v : Val)
    (h : get "inner" w.locals = some v) (hv : v = wide E.mode y ∨ v = folded E.mode y) :
    exec E [] fuel (.aug .xor (.var "inner") (.bin .shr (.var "inner") (.num n))) w
      = (.ok .next, ⟨put "inner" (folded E.mode (y ^^^ y >>> n)) w.locals, w.fields, w.arrays⟩) := by
  have h2 : n < 64 := by omega
  refine aug_var h (bin_eval (var_eval h) num_eval (v := folded E.mode (y >>> n)) ?_) ?_
  · rcases hv with rfl | rfl <;> cases E.mode <;> simp [py, wide, folded, Mt.small64 n h1, h2, sshr]
  · rcases hv with rfl | rfl <;> cases E.mode <;> simp [py, wide, folded]

theorem reInit_source (mode : Mode) (s : State) (seed : BitVec 32) :
    Calls prog mode (Rep mode) 0 1 "re_init" [.sc false 32 seed] s (.ok .none) (reInit s seed) := by
  refine calls_of Source.SIMDFastMersenneTwister.re_init rfl ?_
  rintro fuel depth - - _ ⟨ix, rfl, hi⟩
  let E : Env := ⟨mode, prog.globals, prog.fieldTypes, run prog mode fuel depth⟩
  let L : List (String × Val) := [("seed", .sc false 32 seed)]
  let L1 : List (String × Val) := [("seed", .sc false 32 seed), ("inner", .sc false 32 (seed &&& 1))]
  obtain ⟨w, h, l', rfl, g1, g2⟩ := Mt.loop_seed E fuel ((obj (s.state.set 0 seed) (.sc false 16 624)).world L1) (s.state.set 0 seed, seed)
    (q := some (.sc false 32 (seed &&& 1))) ⟨L1, rfl, rfl, rfl⟩
  rw [reInit]
  have hs : Mt.seedStep = seedStep := rfl
  rw [hs] at h g1
  generalize (List.range' 1 623).foldl seedStep (s.state.set 0 seed, seed) = f at h g1 ⊢
  let x : BitVec 32 := (seed &&& 1) ^^^ (f.1 3 &&& 0x13C9E684)
  let y := parityFold x
  refine ⟨obj (f.1.set 0 (f.1 0 ^^^ (~~~ y &&& 1))) (.sc false 16 624), ⟨_, rfl, .inl ⟨624, rfl, rfl⟩⟩,
    fun l => invoke_next (l' := put "inner" (folded mode y) l') rfl rfl ?_⟩
  change exec E [] fuel _ _ = _
  refine Eq.trans (seq_next (w' := (obj s.state ix).world L) ?_) ?_
  · cases mode <;> simp [py, Obj.world, obj, L, E, Source.SIMDFastMersenneTwister.re_init]
  refine Eq.trans (seq_next (w' := (obj (s.state.set 0 seed) ix).world L) ?_) ?_
  · cases mode <;> simp [py, Obj.world, obj, L, E]
  refine Eq.trans (seq_next (w' := (obj (s.state.set 0 seed) (.sc false 16 624)).world L) ?_) ?_
  · cases mode <;> simp [py, Obj.world, obj, L, E]
  refine Eq.trans (seq_next (w' := (obj (s.state.set 0 seed) (.sc false 16 624)).world L1) ?_) ?_
  · cases mode <;> simp [py, Obj.world, obj, L, E, L1]
  refine Eq.trans (seq_next h) ?_
  refine Eq.trans (seq_next (w' := (obj f.1 (.sc false 16 624)).world (put "inner" (wide mode x) l')) ?_) ?_
  · refine aug_var g2 (bin_eval (item_eval (f := "state") (n := 624) (m := f.1) 3 (self_eval rfl) num_eval rfl ?_)
      (cast_eval num_eval (Mt.cast_literal mode 0x13C9E684)) (v := wide mode (f.1 3 &&& 0x13C9E684)) ?_) ?_
    · cases mode <;> simp [py, E]
    · cases mode <;> simp [py, wide, E]
    · cases mode <;> simp [py, wide, E, x]
  have p (a b : Val) : put "inner" a (put "inner" b l') = put "inner" a l' := put_put _ _ _ _
  have g (a : Val) : get "inner" (put "inner" a l') = some a := by simp [get_put]
  refine Eq.trans (seq_next (fold_step E fuel _ 16 (by decide) x _ (g _) (.inl rfl))) ?_
  simp only [Obj.world, p]
  refine Eq.trans (seq_next (fold_step E fuel _ 8 (by decide) _ _ (g _) (.inr rfl))) ?_
  simp only [p]
  refine Eq.trans (seq_next (fold_step E fuel _ 4 (by decide) _ _ (g _) (.inr rfl))) ?_
  simp only [p]
  refine Eq.trans (seq_next (fold_step E fuel _ 2 (by decide) _ _ (g _) (.inr rfl))) ?_
  simp only [p]
  refine Eq.trans (seq_next (fold_step E fuel _ 1 (by decide) _ _ (g _) (.inr rfl))) ?_
  simp only [p]
  change exec E [] fuel _ ⟨put "inner" (folded mode y) l', (obj f.1 (.sc false 16 624)).fields, (obj f.1 (.sc false 16 624)).arrays⟩ = _
  generalize hw : World.mk (put "inner" (folded mode y) l') (obj f.1 (.sc false 16 624)).fields (obj f.1 (.sc false 16 624)).arrays = w
  have g3 : get "inner" w.locals = some (folded mode y) := by rw [← hw]; exact g _
  have hi : eval E (.inv (.var "inner")) w
      = (.ok (match mode with | .numba => .sc false 64 (~~~ y.setWidth 64) | .numpy => .sc true 64 (~~~ y.setWidth 64)), w) := by
    rw [eval]
    simp only [M.bind, var_eval g3]
    cases mode <;> simp [py, folded, E]
  have ha : (~~~ y.setWidth 64 : BitVec 64) &&& 1#64 = (~~~ y &&& 1#32).setWidth 64 := by
    rw [show (1#64 : BitVec 64) = (1#32 : BitVec 32).setWidth 64 by rfl, Mt.and_mask]
    simp
  refine Eq.trans (SfmtShuffle.aug_item (f := "state") (n := 624) (k := 0) (m := f.1) (x := f.1 0 ^^^ (~~~ y &&& 1)) (self_eval (by rw [← hw]; rfl)) num_eval (by rw [← hw]; rfl) ?_
    (bin_eval hi (cast_eval num_eval (Mt.cast_literal mode 1)) (v := folded mode (~~~ y &&& 1)) ?_) (r := folded mode (f.1 0 ^^^ (~~~ y &&& 1))) ?_ ?_) ?_
  · cases mode <;> simp [py, E]
  · cases mode <;> simp [py, folded, E, ha]
  · cases mode <;> simp [py, folded, E]
  · cases mode <;> simp [py, folded]
  · rw [← hw]
    rfl

/-! ### output -/

/-- what follows the `if` of `next` -/
def nextRest : Stmt :=
    (.seq
     (.assign (.var "low") (.item (.self "state") (.self "index")))
    (.seq
     (.aug .add (.self "index") (.num 1))
    (.seq
     (.assign (.var "high") (.item (.self "state") (.self "index")))
    (.seq
     (.aug .add (.self "index") (.num 1))
    (.ret (.bin .or (.cast u64 (.var "low")) (.bin .shl (.cast u64 (.var "high")) (.cast u64 (.num 0x20)))))))))

theorem item_error {E : Env} {w : World} {a i : Expr} {f : String} {n : Nat} {m : Mem} {v : Val} {e : PyErr}
    (h1 : eval E a w = (.ok (.arr f), w)) (h2 : eval E i w = (.ok v, w)) (h3 : get f w.arrays = some (.w32 n m))
    (h4 : Py.position n v = .error e) : eval E (.item a i) w = (.error e, w) := by
  simp [eval, M.bind, h1, h2, loadItem, h3, Arr.len, h4, Except.map]

theorem assign_error {E : Env} {w w1 : World} {fuel : Nat} {t e : Expr} {x : PyErr} (h : eval E e w = (.error x, w1)) :
    exec E [] fuel (.assign t e) w = (.error x, w1) := by
  simp [exec, M.bind, h]

theorem next_first (mode : Mode) (s : State) (fuel depth : Nat) (hd : 2 ≤ depth) (o : Obj) (ho : Rep mode s o) :
    ∃ o', Rep mode (if s.index = 624 then shuffle s else s) o' ∧
      exec ⟨mode, prog.globals, prog.fieldTypes, run prog mode fuel depth⟩ [] fuel
        (.ite (.cmp .eq (.self "index") (.cast u16 (.num 0x270))) (.expr (.meth "shuffle" .nil)) .pass) (o.world [])
        = (.ok .next, o'.world []) := by
  have ho' := ho
  obtain ⟨v, rfl, hi⟩ := ho'
  let E : Env := ⟨mode, prog.globals, prog.fieldTypes, run prog mode fuel depth⟩
  have hc : eval E (.cmp .eq (.self "index") (.cast u16 (.num 0x270))) ((obj s.state v).world [])
      = (.ok (.bool (decide (s.index = 624))), (obj s.state v).world []) := by
    have e1 : eval E (.self "index") ((obj s.state v).world []) = (.ok v, (obj s.state v).world []) := self_eval rfl
    have e2 : eval E (.cast u16 (.num 0x270)) ((obj s.state v).world []) = (.ok (.sc false 16 624), (obj s.state v).world []) :=
      cast_eval num_eval (by cases mode <;> simp [py, E])
    have e3 : Py.toInt (.sc false 16 624) = some (624 : Int) := rfl
    rw [eval]
    simp only [M.bind, e1, e2, M.lift, Py.compare, hi.toInt, e3]
    norm_cast
  by_cases h : s.index = 624
  · obtain ⟨o1, r1, e1⟩ := shuffle_source mode s fuel depth (Nat.zero_le _) hd _ ho
    rw [if_pos h]
    refine ⟨o1, r1, ?_⟩
    rw [ite_true' hc (by simp [truth, h])]
    exact Mt.expr_call (e1 [])
  · rw [if_neg h]
    exact ⟨_, ho, by rw [ite_false' hc (by simp [truth, h])]; rfl⟩

theorem next_source (mode : Mode) (s : State) :
    Calls prog mode (Rep mode) 0 3 "next" [] s ((next s).2.map (.sc false 64)) (next s).1 := by
  refine calls_of Source.SIMDFastMersenneTwister.next rfl ?_
  rintro fuel depth hn hd o ho
  obtain ⟨o1, r1, e1⟩ := next_first mode s fuel depth hd o ho
  rw [next]
  generalize (if s.index = 624 then shuffle s else s) = t at r1 ⊢
  obtain ⟨v, rfl, hi⟩ := r1
  let E : Env := ⟨mode, prog.globals, prog.fieldTypes, run prog mode fuel depth⟩
  by_cases h : t.index < 624
  · obtain ⟨u1, v1, b1, s1, i1⟩ := hi.succ (by omega)
    have m1 : (t.index + 1) % 2 ^ 16 = t.index + 1 := by omega
    simp only [h, if_true, m1]
    let L1 : List (String × Val) := [("low", .sc false 32 (t.state t.index))]
    have e2 : exec E [] fuel (.assign (.var "low") (.item (.self "state") (.self "index"))) ((obj t.state v).world [])
        = (.ok .next, (obj t.state v).world L1) :=
      assign_var (item_eval (f := "state") (n := 624) (m := t.state) t.index (self_eval rfl) (self_eval rfl) rfl (by rw [hi.position, if_pos h]))
    have e3 : exec E [] fuel (.aug .add (.self "index") (.num 1)) ((obj t.state v).world L1) = (.ok .next, (obj t.state v1).world L1) :=
      aug_field (t := u16) rfl rfl num_eval b1 s1
    by_cases h' : t.index + 1 < 624
    · obtain ⟨u2, v2, b2, s2, i2⟩ := i1.succ (by omega)
      have m2 : (t.index + 1 + 1) % 2 ^ 16 = t.index + 1 + 1 := by omega
      simp only [h', if_true, m2]
      let L2 : List (String × Val) := [("low", .sc false 32 (t.state t.index)), ("high", .sc false 32 (t.state (t.index + 1)))]
      have e4 : exec E [] fuel (.assign (.var "high") (.item (.self "state") (.self "index"))) ((obj t.state v1).world L1)
          = (.ok .next, (obj t.state v1).world L2) :=
        assign_var (item_eval (f := "state") (n := 624) (m := t.state) (t.index + 1) (self_eval rfl) (self_eval rfl) rfl (by rw [i1.position, if_pos h']))
      have e5 : exec E [] fuel (.aug .add (.self "index") (.num 1)) ((obj t.state v1).world L2) = (.ok .next, (obj t.state v2).world L2) :=
        aug_field (t := u16) rfl rfl num_eval b2 s2
      refine ⟨obj t.state v2, ⟨v2, rfl, i2⟩, fun l => invoke_ret (l' := L2) rfl rfl rfl ?_⟩
      refine (seq_next e1).trans <| (seq_next e2).trans <| (seq_next e3).trans <| (seq_next e4).trans <| (seq_next e5).trans ?_
      cases mode <;> simp [py, E, Obj.world, L2]
    · simp only [h', if_false]
      refine ⟨obj t.state v1, ⟨v1, rfl, i1⟩, fun l => invoke_error (l' := L1) rfl rfl ?_⟩
      refine (seq_next e1).trans <| (seq_next e2).trans <| (seq_next e3).trans <| seq_error ?_
      exact assign_error (item_error (f := "state") (n := 624) (m := t.state) (self_eval rfl) (self_eval rfl) rfl (by rw [i1.position, if_neg h']))
  · simp only [h, if_false]
    refine ⟨obj t.state v, ⟨v, rfl, hi⟩, fun l => invoke_error (l' := []) rfl rfl ?_⟩
    refine (seq_next e1).trans <| seq_error ?_
    exact assign_error (item_error (f := "state") (n := 624) (m := t.state) (self_eval rfl) (self_eval rfl) rfl (by rw [hi.position, if_neg h]))

theorem nextRand_source (mode : Mode) (s : State) (maximum : BitVec 64) :
    Calls prog mode (Rep mode) 0 4 "next_rand" [.sc false 64 maximum] s ((nextRand mode s maximum).2.map (.sc false 64)) (nextRand mode s maximum).1 := by
  refine calls_of Source.SIMDFastMersenneTwister.next_rand rfl ?_
  intro fuel depth hn hd o ho
  obtain ⟨o1, h1, e1⟩ := next_source mode s fuel depth hn hd o ho
  rw [nextRand]
  refine ⟨o1, h1, fun l => ?_⟩
  simp only [Obj.world] at e1 ⊢
  rw [prog_globals, prog_fieldTypes]
  generalize run _ mode fuel depth = c at e1 ⊢
  cases hr : (next s).2 with
  | error e =>
    rw [hr] at e1
    cases mode <;> simp [py, Source.SIMDFastMersenneTwister.next_rand, e1, Except.map, Except.bind]
  | ok y =>
    rw [hr] at e1
    cases mode <;> simp [py, Except.map] at e1 <;> by_cases h0 : maximum = 0#64 <;>
      simp [py, Source.SIMDFastMersenneTwister.next_rand, e1, Except.map, Except.bind, pyMod, h0]

/-! ### `advance` -/

theorem advance_loop (mode : Mode) (fuel depth : Nat) (hd : 2 ≤ depth) : ∀ (k n : Nat) (v : Val) (s : State) (o : Obj) (l : List (String × Val)),
    n < 624 * k → Rep mode s o → Mt.Left mode v n → get "adv" l = some v → ∀ j, k ≤ j →
    ∃ o' l' v', Rep mode (advanceLoop s n).1 o' ∧ Mt.Left mode v' (advanceLoop s n).2 ∧ get "adv" l' = some v' ∧
      whileLoop ((eval ⟨mode, prog.globals, prog.fieldTypes, run prog mode fuel depth⟩ (.cmp .ge (.var "adv") (.cast u32 (.num 0x270)))).bind fun v => M.lift (truth v))
        (exec ⟨mode, prog.globals, prog.fieldTypes, run prog mode fuel depth⟩ [] fuel (.seq (.expr (.meth "shuffle" .nil)) (.aug .sub (.var "adv") (.cast u32 (.num 0x270))))) j (o.world l)
        = (.ok .next, o'.world l')
  | 0, n, v, s, o, l, h, hr, hv, hl, j, hj => by omega
  | k + 1, n, v, s, o, l, h, hr, hv, hl, j, hj => by
    obtain ⟨j, rfl⟩ : ∃ i, j = i + 1 := ⟨j - 1, by omega⟩
    let E : Env := ⟨mode, prog.globals, prog.fieldTypes, run prog mode fuel depth⟩
    have c : eval E (.cast u32 (.num 0x270)) (o.world l) = (.ok (.sc false 32 624), o.world l) :=
      cast_eval num_eval (Mt.cast_literal mode 624)
    have hc : ((eval E (.cmp .ge (.var "adv") (.cast u32 (.num 0x270)))).bind fun v => M.lift (truth v)) (o.world l)
        = (.ok (decide (624 ≤ n)), o.world l) := by
      have e1 : eval E (.var "adv") (o.world l) = (.ok v, o.world l) := var_eval hl
      have e2 := hv.compare
      simp only [M.bind]
      rw [eval]
      simp only [M.bind, e1, c, M.lift, e2, truth]
    rw [advanceLoop]
    by_cases hn : 624 ≤ n
    · simp only [hn, dif_pos]
      obtain ⟨o1, r1, e1⟩ := shuffle_source mode s fuel depth (Nat.zero_le _) hd o hr
      obtain ⟨v1, b1, hv1⟩ := hv.sub hn
      obtain ⟨o2, l2, v2, r2, hv2, g2, e2⟩ := advance_loop mode fuel depth hd k (n - 624) v1 (shuffle s) o1 (put "adv" v1 l) (by omega) r1 hv1
        (by simp [get_put]) j (by omega)
      refine ⟨o2, l2, v2, r2, hv2, g2, ?_⟩
      have hb : exec E [] fuel (.seq (.expr (.meth "shuffle" .nil)) (.aug .sub (.var "adv") (.cast u32 (.num 0x270)))) (o.world l)
          = (.ok .next, o1.world (put "adv" v1 l)) := by
        refine (seq_next (w' := o1.world l) ?_).trans (aug_var hl (cast_eval num_eval (Mt.cast_literal mode 624)) b1)
        exact Mt.expr_call (e1 l)
      refine Eq.trans (while_next (hc.trans ?_) hb) e2
      simp [hn]
    · simp only [hn, dif_neg, not_false_eq_true]
      refine ⟨o, l, v, hr, hv, hl, ?_⟩
      refine while_end (hc.trans ?_)
      simp [hn]

theorem advance_source (mode : Mode) (s : State) (adv : BitVec 32) :
    Calls prog mode (Rep mode) (advTotal mode adv s.index / 624 + 1) 3 "advance" [.sc false 32 adv] s (.ok .none) (advance mode s adv) := by
  refine calls_of Source.SIMDFastMersenneTwister.advance rfl ?_
  rintro fuel depth hn hd o ⟨iv, rfl, hi⟩
  let E : Env := ⟨mode, prog.globals, prog.fieldTypes, run prog mode fuel depth⟩
  have hc : Py.cast u32 (.sc false 32 adv) = .ok (.sc false 32 adv) := by simp [py]
  have hx := hi.cast
  have hi' := hi.lt
  have h1 := adv.isLt
  obtain ⟨u, v, ha, hb, hv⟩ : ∃ u v, binop mode .mul (.sc false 32 adv) (.sc false 32 2) = .ok u ∧
      binop mode .add u (.sc false 32 (BitVec.ofNat 32 s.index)) = .ok v ∧ Mt.Left mode v (advTotal mode adv s.index) := by
    cases mode
    · refine ⟨.sc false 64 (adv.setWidth 64 * 2), .sc false 64 (adv.setWidth 64 * 2 + (BitVec.ofNat 32 s.index).setWidth 64), by simp [py], by simp [py], _, rfl, ?_⟩
      simp [advTotal]
      omega
    · refine ⟨.sc false 32 (adv * 2), .sc false 32 (adv * 2 + BitVec.ofNat 32 s.index), by simp [py], by simp [py], _, rfl, ?_⟩
      simp [advTotal]
  obtain ⟨o1, l1, v1, ⟨iv1, rfl, hi1⟩, hv1, g1, e1⟩ := advance_loop mode fuel depth hd (advTotal mode adv s.index / 624 + 1) (advTotal mode adv s.index) v s
    (obj s.state iv) [("adv", v)] (by omega) ⟨iv, rfl, hi⟩ hv rfl fuel hn
  refine ⟨obj (advanceLoop s (advTotal mode adv s.index)).1.state (.sc false 16 (BitVec.ofNat 16 (advanceLoop s (advTotal mode adv s.index)).2)),
    ⟨_, rfl, .inl ⟨_, rfl, ?_⟩⟩, fun l => invoke_next (l' := l1) rfl rfl ?_⟩
  · simp [advance]
  change exec E [] fuel _ ((obj s.state iv).world [("adv", .sc false 32 adv)]) = _
  refine Eq.trans (seq_next (assign_var (var_eval rfl |> fun h => cast_eval h hc))) ?_
  refine Eq.trans (seq_next (w' := (obj s.state iv).world [("adv", v)])
    (assign_var (bin_eval (bin_eval (var_eval rfl) (cast_eval num_eval (Mt.cast_literal mode 2)) ha) (cast_eval (self_eval rfl) hx) hb))) ?_
  refine Eq.trans (seq_next e1) ?_
  exact assign_self (t := u16) rfl (cast_eval (var_eval g1) hv1.cast) (by simp [py])

end Verif.Py.Sfmt
