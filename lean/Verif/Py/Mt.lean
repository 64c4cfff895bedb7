import Verif.Py.Count
import Verif.Model.Mt
/-
C133 for mersenne_twister/mt.py: the source text computes what the model says.
-/
namespace Verif.Py

theorem literal_add (mode : Mode) (a b : Nat) : binop mode .add (literal mode a) (literal mode b) = .ok (literal mode (a + b : Nat)) := by
  cases mode <;> simp [py, BitVec.ofInt_add]

theorem literal_sub (mode : Mode) (a b : Nat) (h : b ≤ a) :
    binop mode .sub (literal mode a) (literal mode b) = .ok (literal mode (a - b : Nat)) := by
  have e : ((a - b : Nat) : Int) = a - b := by omega
  cases mode <;> simp only [e] <;> simp [py, sub_eq_add_neg, BitVec.ofInt_add, BitVec.ofInt_neg, BitVec.sub_eq_add_neg]

/-- an element of the array attribute -/
theorem item_eval {E : Env} {w : World} {a i : Expr} {f : String} {n : Nat} {m : Mem} {v : Val} (k : Nat)
    (h1 : eval E a w = (.ok (.arr f), w)) (h2 : eval E i w = (.ok v, w)) (h3 : get f w.arrays = some (.w32 n m))
    (h4 : position n v = .ok k) : eval E (.item a i) w = (.ok (.sc false 32 (m k)), w) := by
  simp [eval, M.bind, h1, h2, loadItem, h3, Arr.len, h4, Except.map, Arr.load]

/-- two statements in front of another -/
theorem seq_next2 {E : Env} {types : List (String × Ty)} {fuel : Nat} {a b c : Stmt} {w w' : World}
    (h : exec E types fuel (.seq a b) w = (.ok .next, w')) : exec E types fuel (.seq a (.seq b c)) w = exec E types fuel c w' := by
  simp only [exec, M.bind] at h ⊢
  cases ha : exec E types fuel a w with
  | mk r w1 =>
    rw [ha] at h
    rcases r with e | (_ | _ | _ | v)
    · simp at h
    · simp only at h ⊢
      exact seq_next h
    · simp [M.pure] at h
    · simp [M.pure] at h
    · simp [M.pure] at h

theorem var_eval {E : Env} {w : World} {x : String} {v : Val} (h : get x w.locals = some v) : eval E (.var x) w = (.ok v, w) := by
  simp [eval, h]

theorem bin_eval {E : Env} {w w1 w2 : World} {op : BinOp} {a b : Expr} {x y v : Val} (h1 : eval E a w = (.ok x, w1))
    (h2 : eval E b w1 = (.ok y, w2)) (h3 : binop E.mode op x y = .ok v) : eval E (.bin op a b) w = (.ok v, w2) := by
  simp [eval, M.bind, h1, h2, M.lift, h3]

theorem cast_eval {E : Env} {w w1 : World} {t : Ty} {a : Expr} {x v : Val} (h1 : eval E a w = (.ok x, w1))
    (h2 : cast t x = .ok v) : eval E (.cast t a) w = (.ok v, w1) := by
  simp [eval, M.bind, h1, M.lift, h2]

theorem num_eval {E : Env} {w : World} {n : Int} : eval E (.num n) w = (.ok (literal E.mode n), w) := rfl

theorem assign_var {E : Env} {w w1 : World} {fuel : Nat} {x : String} {e : Expr} {v : Val} (h : eval E e w = (.ok v, w1)) :
    exec E [] fuel (.assign (.var x) e) w = (.ok .next, ⟨put x v w1.locals, w1.fields, w1.arrays⟩) := by
  simp [exec, M.bind, h, store, storeLocal_nil, M.pure]

theorem aug_var {E : Env} {w w1 : World} {fuel : Nat} {op : BinOp} {x : String} {e : Expr} {a b v : Val} (h : get x w.locals = some a)
    (h1 : eval E e w = (.ok b, w1)) (h2 : binop E.mode op a b = .ok v) :
    exec E [] fuel (.aug op (.var x) e) w = (.ok .next, ⟨put x v w1.locals, w1.fields, w1.arrays⟩) := by
  simp [exec, M.bind, var_eval h, h1, M.lift, h2, store, storeLocal_nil, M.pure]

theorem self_eval {E : Env} {f : String} {v : Val} {w : World} (h : get f w.fields = some v) : eval E (.self f) w = (.ok v, w) := by
  simp [eval, h]

theorem assign_self {E : Env} {w w1 : World} {fuel : Nat} {x : String} {e : Expr} {v : Val} {t : Ty} (ht : get x E.fieldTypes = some t)
    (h : eval E e w = (.ok v, w1)) (hv : cast t v = .ok v) :
    exec E [] fuel (.assign (.self x) e) w = (.ok .next, ⟨w1.locals, put x v w1.fields, w1.arrays⟩) := by
  cases hm : E.mode <;> simp [exec, M.bind, h, store, storeField, M.pure, ht, hv, hm]

theorem while_next {cond : M Bool} {body : M Ctl} {n : Nat} {w w1 w2 : World} (hc : cond w = (.ok true, w1)) (hb : body w1 = (.ok .next, w2)) :
    whileLoop cond body (n + 1) w = whileLoop cond body n w2 := by
  simp only [whileLoop, M.bind, hc, if_true, hb]

theorem while_end {cond : M Bool} {body : M Ctl} {n : Nat} {w w1 : World} (hc : cond w = (.ok false, w1)) :
    whileLoop cond body (n + 1) w = (.ok .next, w1) := by
  simp [whileLoop, M.bind, hc, M.pure]

theorem assign_item {E : Env} {w w1 : World} {fuel : Nat} {a i e : Expr} {f : String} {n k : Nat} {m : Mem} {v j u : Val}
    (h : eval E e w = (.ok v, w1)) (h1 : eval E a w1 = (.ok (.arr f), w1)) (h2 : eval E i w1 = (.ok j, w1))
    (h3 : get f w1.arrays = some (.w32 n m)) (h4 : position n j = .ok k) (h5 : cast u32 v = .ok u) {x : BitVec 32}
    (h6 : u = .sc false 32 x) :
    exec E [] fuel (.assign (.item a i) e) w = (.ok .next, ⟨w1.locals, w1.fields, put f (.w32 n (m.set k x)) w1.arrays⟩) := by
  subst h6
  simp [exec, M.bind, h, store, h1, h2, storeItem, h3, Arr.len, h4, Arr.store, h5, M.pure]

end Verif.Py

namespace Verif.Py.Mt
open Verif Verif.Mt

/-- the class `MersenneTwister` -/
def prog : Prog where
  funs := [("re_init", Source.MersenneTwister.re_init), ("advance", Source.MersenneTwister.advance),
    ("next", Source.MersenneTwister.next), ("shuffle", Source.MersenneTwister.shuffle),
    ("next_rand", Source.MersenneTwister.next_rand), ("next_rand_mod", Source.MersenneTwister.next_rand_mod)]
  globals := [("MAG02", .tup [.sc false 32 0, .sc false 32 0x9908B0DF])]
  fieldTypes := [("index", u16)]

@[py] theorem prog_globals : prog.globals = [("MAG02", .tup [.sc false 32 0, .sc false 32 0x9908B0DF])] := rfl
@[py] theorem prog_fieldTypes : prog.fieldTypes = [("index", u16)] := rfl

/-- the object with this array and index -/
def obj (m : Mem) (ix : BitVec 16) : Obj := ⟨[("state", .arr "state"), ("index", .sc false 16 ix)], [("state", .w32 624 m)]⟩

/-- the attributes `state` and `index` -/
def Rep (s : State) (o : Obj) : Prop := ∃ ix : BitVec 16, o = obj s.state ix ∧ s.index = ix.toNat

/-- the variables of `shuffle` -/
structure Locals (l : List (String × Val)) : Prop where
  state : get "state" l = some (.arr "state")
  upper : get "upper_mask" l = some (.sc false 32 0x80000000)
  lower : get "lower_mask" l = some (.sc false 32 0x7FFFFFFF)
  one : get "one" l = some (.sc false 32 1)
  mag : get "MAG02" l = none

theorem Locals.put {l : List (String × Val)} (h : Locals l) {x : String} (v : Val) (h1 : x = "i" ∨ x = "y_val") : Locals (put x v l) := by
  rcases h1 with rfl | rfl <;>
    exact ⟨by simpa [get_put] using h.state, by simpa [get_put] using h.upper, by simpa [get_put] using h.lower,
      by simpa [get_put] using h.one, by simpa [get_put] using h.mag⟩

/-- the two assignments -/
def assignY (e1 e2 : Expr) : Stmt :=
  .assign (.var "y_val") (.bin .or (.bin .and (.item (.var "state") e1) (.var "upper_mask")) (.bin .and (.item (.var "state") e2) (.var "lower_mask")))
def assignState (e1 e3 : Expr) : Stmt :=
  .assign (.item (.var "state") e1) (.bin .xor (.bin .xor (.bin .shr (.var "y_val") (.var "one")) (.item (.var "MAG02") (.bin .and (.var "y_val") (.var "one")))) (.item (.var "state") e3))

/-- an index expression has this value -/
def Index (E : Env) (e : Expr) (l : List (String × Val)) (k : Nat) : Prop :=
  k < 624 ∧ ∀ f a, eval E e ⟨l, f, a⟩ = (.ok (literal E.mode k), ⟨l, f, a⟩)

theorem Index.item {E : Env} {e : Expr} {l : List (String × Val)} {k : Nat} (h : Index E e l k) (hl : Locals l) (m : Mem) (ix : BitVec 16) :
    eval E (.item (.var "state") e) ((obj m ix).world l) = (.ok (.sc false 32 (m k)), (obj m ix).world l) := by
  refine item_eval (f := "state") (n := 624) k ?_ (h.2 _ _) rfl ?_
  · simp [eval, Obj.world, hl.state]
  · rw [position_literal _ _ _ (by have := h.1; omega), if_pos h.1]

theorem assignY_exec (E : Env) (fuel : Nat) (m : Mem) (ix : BitVec 16) (l : List (String × Val)) (hl : Locals l) (e1 e2 : Expr) (a b : Nat)
    (h1 : Index E e1 l a) (h2 : Index E e2 l b) :
    exec E [] fuel (assignY e1 e2) ((obj m ix).world l)
      = (.ok .next, (obj m ix).world (put "y_val" (wide E.mode ((m a &&& 0x80000000) ||| (m b &&& 0x7FFFFFFF))) l)) := by
  have e1 : binop E.mode .and (.sc false 32 (m a)) (.sc false 32 0x80000000) = .ok (wide E.mode (m a &&& 0x80000000)) := by
    cases E.mode <;> simp [py, wide]
  have e2 : binop E.mode .and (.sc false 32 (m b)) (.sc false 32 0x7FFFFFFF) = .ok (wide E.mode (m b &&& 0x7FFFFFFF)) := by
    cases E.mode <;> simp [py, wide]
  refine assign_var (bin_eval (bin_eval (h1.item hl m ix) (var_eval hl.upper) e1) (bin_eval (h2.item hl m ix) (var_eval hl.lower) e2) ?_)
  cases E.mode <;> simp [py, wide]

theorem mag_eval (E : Env) (w : World) (y : BitVec 32) (hl : Locals w.locals) (hy : get "y_val" w.locals = some (wide E.mode y))
    (hg : get "MAG02" E.globals = some (.tup [.sc false 32 0, .sc false 32 0x9908B0DF])) :
    eval E (.item (.var "MAG02") (.bin .and (.var "y_val") (.var "one"))) w = (.ok (.sc false 32 (mag02 y)), w) := by
  have h : y &&& 1#32 = 0#32 ∨ y &&& 1#32 = 1#32 := by
    have : (y &&& 1#32).toNat ≤ 1 := by rw [BitVec.toNat_and]; exact Nat.and_le_right
    rcases Nat.le_one_iff_eq_zero_or_eq_one.mp this with h | h
    · exact .inl (BitVec.eq_of_toNat_eq h)
    · exact .inr (BitVec.eq_of_toNat_eq h)
  have e : y.setWidth 64 &&& 1#64 = (y &&& 1#32).setWidth 64 := by simp
  rcases h with h | h <;> cases hm : E.mode <;> simp [py, hl.mag, hl.one, hg, hy, wide, hm, mag02, h, e, loadItem]

theorem assignState_exec (E : Env) (fuel : Nat) (m : Mem) (ix : BitVec 16) (l : List (String × Val)) (hl : Locals l) (e1 e3 : Expr) (a c : Nat)
    (h1 : Index E e1 l a) (h3 : Index E e3 l c) (y : BitVec 32) (hy : get "y_val" l = some (wide E.mode y))
    (hg : get "MAG02" E.globals = some (.tup [.sc false 32 0, .sc false 32 0x9908B0DF])) :
    exec E [] fuel (assignState e1 e3) ((obj m ix).world l)
      = (.ok .next, (obj (m.set a ((y >>> 1) ^^^ mag02 y ^^^ m c)) ix).world l) := by
  have b1 : binop E.mode .shr (wide E.mode y) (.sc false 32 1) = .ok (wide E.mode (y >>> 1)) := by
    cases E.mode <;> simp [py, wide]
  have b2 (z : BitVec 32) : binop E.mode .xor (wide E.mode z) (.sc false 32 (mag02 y)) = .ok (wide E.mode (z ^^^ mag02 y)) := by
    cases E.mode <;> simp [py, wide]
  have b3 (z : BitVec 32) : binop E.mode .xor (wide E.mode z) (.sc false 32 (m c)) = .ok (wide E.mode (z ^^^ m c)) := by
    cases E.mode <;> simp [py, wide]
  refine assign_item (f := "state") (n := 624) (k := a) (m := m)
    (bin_eval (bin_eval (bin_eval (var_eval hy) (var_eval hl.one) b1) (mag_eval E _ y hl hy hg) (b2 _)) (h3.item hl m ix) (b3 _))
    (var_eval hl.state) (h1.2 _ _) rfl ?_ ?_ rfl
  · rw [position_literal _ _ _ (by have := h1.1; omega), if_pos h1.1]
  · cases E.mode <;> simp [py, wide, narrow_shr]

theorem pair_exec (E : Env) (fuel : Nat) (m : Mem) (ix : BitVec 16) (l : List (String × Val)) (hl : Locals l) (e1 e2 e3 : Expr) (a b c : Nat)
    (h1 : ∀ v, Index E e1 (put "y_val" v l) a) (h2 : Index E e2 l b) (h3 : ∀ v, Index E e3 (put "y_val" v l) c) (h1' : Index E e1 l a)
    (hg : get "MAG02" E.globals = some (.tup [.sc false 32 0, .sc false 32 0x9908B0DF])) :
    ∃ l', exec E [] fuel (.seq (assignY e1 e2) (assignState e1 e3)) ((obj m ix).world l)
      = (.ok .next, (obj (shuffleStep m (a, b, c)) ix).world l') ∧ Locals l' := by
  refine ⟨put "y_val" (wide E.mode ((m a &&& 0x80000000) ||| (m b &&& 0x7FFFFFFF))) l,
    Eq.trans (seq_next (assignY_exec E fuel m ix l hl e1 e2 a b h1' h2)) ?_, hl.put _ (.inr rfl)⟩
  exact assignState_exec E fuel m ix _ (hl.put _ (.inr rfl)) e1 e3 a c (h1 _) (h3 _) _ (by rw [get_put]; rfl) hg

theorem index_num (E : Env) (l : List (String × Val)) (k : Nat) (h : k < 624) : Index E (.num k) l k :=
  ⟨h, fun _ _ => by simp [eval, M.pure]⟩

theorem index_var (E : Env) {l : List (String × Val)} {x : String} {k : Nat} (h : k < 624) (hx : get x l = some (literal E.mode k)) :
    Index E (.var x) l k := ⟨h, fun _ _ => var_eval hx⟩

theorem index_add (E : Env) {l : List (String × Val)} {x : String} {k n : Nat} (h : k + n < 624) (hx : get x l = some (literal E.mode k)) :
    Index E (.bin .add (.var x) (.num n)) l (k + n) :=
  ⟨h, fun _ _ => bin_eval (var_eval hx) (by simp [eval, M.pure]) (literal_add E.mode k n)⟩

theorem index_sub (E : Env) {l : List (String × Val)} {x : String} {k n : Nat} (h : k < 624) (hn : n ≤ k) (hx : get x l = some (literal E.mode k)) :
    Index E (.bin .sub (.var x) (.num n)) l (k - n) :=
  ⟨by omega, fun _ _ => bin_eval (var_eval hx) (by simp [eval, M.pure]) (literal_sub E.mode k n hn)⟩

/-- the world and the array during `shuffle` -/
def During (ix : BitVec 16) (w : World) (m : Mem) : Prop := ∃ l, w = (obj m ix).world l ∧ Locals l

theorem loop1 (E : Env) (fuel : Nat) (ix : BitVec 16)
    (hg : get "MAG02" E.globals = some (.tup [.sc false 32 0, .sc false 32 0x9908B0DF])) (w : World) (m : Mem) (h : During ix w m) :
    ∃ w', exec E [] fuel (.for "i" (.call "range" (.cons (.num 0xE3) .nil))
      (.seq (assignY (.var "i") (.bin .add (.var "i") (.num 1))) (assignState (.var "i") (.bin .add (.var "i") (.num 0x18D))))) w = (.ok .next, w')
      ∧ During ix w' (idx1.foldl shuffleStep m) := by
  have e : idx1.foldl shuffleStep m = (List.range' 0 227).foldl (fun m i => shuffleStep m (i, i + 1, i + 397)) m := by
    rw [idx1, List.foldl_map, List.range_eq_range']
  rw [e]
  refine for_fold' (During ix) _ 227 (by decide) ?_ h
  rintro i hi w m ⟨l, rfl, hl⟩
  have hl2 := hl.put (literal E.mode i) (.inl rfl)
  have g : get "i" (put "i" (literal E.mode i) l) = some (literal E.mode i) := by rw [get_put]; simp
  have g' (v) : get "i" (put "y_val" v (put "i" (literal E.mode i) l)) = some (literal E.mode i) := by rw [get_put]; simpa using g
  obtain ⟨l', h1, h2⟩ := pair_exec E fuel m ix _ hl2 (.var "i") (.bin .add (.var "i") (.num 1)) (.bin .add (.var "i") (.num 0x18D))
    i (i + 1) (i + 397) (fun v => index_var E (by omega) (g' v)) (index_add E (n := 1) (by omega) g) (fun v => index_add E (n := 397) (by omega) (g' v))
    (index_var E (by omega) g) hg
  refine ⟨_, ?_, l', rfl, h2⟩
  rw [← h1]
  simp [M.bind, storeLocal_nil, Obj.world]

theorem loop2 (E : Env) (fuel : Nat) (ix : BitVec 16)
    (hg : get "MAG02" E.globals = some (.tup [.sc false 32 0, .sc false 32 0x9908B0DF])) (w : World) (m : Mem) (h : During ix w m) :
    ∃ w', exec E [] fuel (.for "i" (.call "range" (.cons (.num 0xE3) (.cons (.num 0x26F) .nil)))
      (.seq (assignY (.var "i") (.bin .add (.var "i") (.num 1))) (assignState (.var "i") (.bin .sub (.var "i") (.num 0xE3))))) w = (.ok .next, w')
      ∧ During ix w' (idx2.foldl shuffleStep m) := by
  have e : idx2.foldl shuffleStep m = (List.range' 227 (623 - 227)).foldl (fun m i => shuffleStep m (i, i + 1, i - 227)) m := by
    rw [idx2, List.foldl_map]
  rw [e]
  refine for_fold (During ix) _ 227 623 (by decide) (by decide) ?_ h
  rintro i hi hj w m ⟨l, rfl, hl⟩
  have hl2 := hl.put (literal E.mode i) (.inl rfl)
  have g : get "i" (put "i" (literal E.mode i) l) = some (literal E.mode i) := by rw [get_put]; simp
  have g' (v) : get "i" (put "y_val" v (put "i" (literal E.mode i) l)) = some (literal E.mode i) := by rw [get_put]; simpa using g
  obtain ⟨l', h1, h2⟩ := pair_exec E fuel m ix _ hl2 (.var "i") (.bin .add (.var "i") (.num 1)) (.bin .sub (.var "i") (.num 0xE3))
    i (i + 1) (i - 227) (fun v => index_var E (by omega) (g' v)) (index_add E (n := 1) (by omega) g) (fun v => index_sub E (n := 227) (by omega) hi (g' v))
    (index_var E (by omega) g) hg
  refine ⟨_, ?_, l', rfl, h2⟩
  rw [← h1]
  simp [M.bind, storeLocal_nil, Obj.world]

theorem shuffle_source (mode : Mode) (s : State) :
    Calls prog mode Rep 0 1 "shuffle" [] s (.ok .none) (shuffle s) := by
  refine calls_of Source.MersenneTwister.shuffle rfl ?_
  rintro fuel depth - - _ ⟨ix, rfl, hi⟩
  refine ⟨obj (shuffleMem s.state) 0, ⟨0, rfl, rfl⟩, fun l => ?_⟩
  let E : Env := ⟨mode, prog.globals, prog.fieldTypes, run prog mode fuel depth⟩
  let l1 : List (String × Val) := [("state", .arr "state"), ("upper_mask", .sc false 32 0x80000000), ("lower_mask", .sc false 32 0x7FFFFFFF),
    ("one", .sc false 32 1)]
  have hl1 : Locals l1 := ⟨rfl, rfl, rfl, rfl, rfl⟩
  obtain ⟨w2, h2, l2, rfl, hl2⟩ := loop1 E fuel ix rfl ((obj s.state ix).world l1) s.state ⟨l1, rfl, hl1⟩
  obtain ⟨w3, h3, l3, rfl, hl3⟩ := loop2 E fuel ix rfl _ (idx1.foldl shuffleStep s.state) ⟨l2, rfl, hl2⟩
  obtain ⟨l4, h4, hl4⟩ := pair_exec E fuel (idx2.foldl shuffleStep (idx1.foldl shuffleStep s.state)) ix l3 hl3 (.num 623) (.num 0) (.num 396) 623 0 396 (fun v => index_num E _ _ (by decide))
    (index_num E _ _ (by decide)) (fun v => index_num E _ _ (by decide)) (index_num E _ _ (by decide)) rfl
  refine invoke_next (l' := l4) rfl rfl ?_
  change exec E [] fuel _ _ = _
  refine Eq.trans (seq_next (w' := (obj s.state ix).world [("state", .arr "state")]) ?_) ?_
  · cases mode <;> simp [py, Obj.world, obj, Source.MersenneTwister.shuffle, E]
  refine Eq.trans (seq_next (w' := (obj s.state ix).world [("state", .arr "state"), ("upper_mask", .sc false 32 0x80000000)]) ?_) ?_
  · cases mode <;> simp [py, Obj.world, obj, E]
  refine Eq.trans (seq_next (w' := (obj s.state ix).world [("state", .arr "state"), ("upper_mask", .sc false 32 0x80000000),
    ("lower_mask", .sc false 32 0x7FFFFFFF)]) ?_) ?_
  · cases mode <;> simp [py, Obj.world, obj, E]
  refine Eq.trans (seq_next (w' := (obj s.state ix).world l1) ?_) ?_
  · cases mode <;> simp [py, Obj.world, obj, l1, E]
  refine Eq.trans (seq_next h2) ?_
  refine Eq.trans (seq_next h3) ?_
  refine Eq.trans (seq_next2 h4) ?_
  cases mode <;> simp [py, Obj.world, obj, E, shuffleMem, idx3]

theorem cast_literal (mode : Mode) (i : Nat) : cast u32 (literal mode i) = .ok (.sc false 32 (BitVec.ofNat 32 i)) := by
  cases mode <;> simp [py]

/-- a value of 64 bits, of which only the low 32 matter when it is not compiled -/
def wide' (mode : Mode) (x : BitVec 64) : Val := match mode with | .numba => .sc false 64 x | .numpy => .sc false 32 (x.setWidth 32)

/-- the world, the array and the variables `seed` and `inner` (of `sfmt.py`) during `re_init` -/
def Seeding (q : Option Val) (w : World) (t : Mem × BitVec 32) : Prop :=
  ∃ l, w = (obj t.1 624).world l ∧ get "seed" l = some (.sc false 32 t.2) ∧ get "inner" l = q

theorem loop_seed (E : Env) (fuel : Nat) (w : World) (t : Mem × BitVec 32) {q : Option Val} (h : Seeding q w t) :
    ∃ w', exec E [] fuel (.for "i" (.call "range" (.cons (.num 1) (.cons (.num 0x270) .nil)))
     (.seq
      (.assign (.var "seed") (.cast u32 (.bin .add (.bin .mul (.cast u32 (.num 0x6C078965)) (.bin .xor (.var "seed") (.bin .shr (.var "seed") (.cast u32 (.num 0x1E))))) (.cast u32 (.var "i")))))
     (.assign (.item (.self "state") (.var "i")) (.var "seed")))) w = (.ok .next, w') ∧ Seeding q w' ((List.range' 1 623).foldl seedStep t) := by
  refine for_fold (Seeding q) seedStep 1 624 (by decide) (by decide) ?_ h
  rintro i hi hj w ⟨m, x⟩ ⟨l, rfl, hx, hq⟩
  simp only at hx ⊢
  let y : BitVec 32 := 0x6C078965 * (x ^^^ (x >>> 30)) + BitVec.ofNat 32 i
  have n : (1812433253#64 * (x.setWidth 64 ^^^ x.setWidth 64 >>> 30) + (BitVec.ofNat 32 i).setWidth 64).setWidth 32 = y := by
    rw [BitVec.setWidth_add _ _ (by decide), BitVec.setWidth_mul _ _ (by decide)]
    simp [narrow_shr, y]
  let l1 := put "i" (literal E.mode i) l
  have g1 : get "i" l1 = some (literal E.mode i) := by simp [l1, get_put]
  have g2 : get "seed" l1 = some (.sc false 32 x) := by simpa [l1, get_put] using hx
  let l2 := put "seed" (.sc false 32 y) l1
  have g3 : get "i" l2 = some (literal E.mode i) := by simpa [l2, get_put] using g1
  have g4 : get "seed" l2 = some (.sc false 32 y) := by simp [l2, get_put]
  refine ⟨(obj (m.set i y) 624).world l2, ?_, l2, rfl, g4, by simpa [l2, l1, get_put] using hq⟩
  have e0 : (storeLocal E [] "i" (literal E.mode i)) ((obj m 624).world l) = (.ok (), (obj m 624).world l1) := by
    simp [storeLocal_nil, Obj.world, l1]
  simp only [M.bind, e0]
  refine Eq.trans (seq_next (w' := (obj m 624).world l2) ?_) ?_
  · have c (k : Nat) := cast_literal E.mode k
    refine assign_var (v := .sc false 32 y) (cast_eval (bin_eval (bin_eval (cast_eval num_eval (c 0x6C078965)) (bin_eval (var_eval g2)
      (bin_eval (var_eval g2) (cast_eval num_eval (c 30)) (v := wide E.mode (x >>> 30)) ?_) (v := wide E.mode (x ^^^ x >>> 30)) ?_)
      (v := wide' E.mode (0x6C078965 * (x.setWidth 64 ^^^ x.setWidth 64 >>> 30))) ?_) (cast_eval (var_eval g1) (c i))
      (v := wide' E.mode (0x6C078965 * (x.setWidth 64 ^^^ x.setWidth 64 >>> 30) + (BitVec.ofNat 32 i).setWidth 64)) ?_) ?_)
    · cases E.mode <;> simp [py, wide]
    · cases E.mode <;> simp [py, wide]
    · cases E.mode <;> simp [py, wide, wide']
      rw [BitVec.setWidth_mul _ _ (by decide)]
      simp [narrow_shr]
    · cases E.mode <;> simp [py, wide']
      rw [BitVec.setWidth_add _ _ (by decide)]
      simp
    · rw [← n]
      cases E.mode <;> simp [py, wide']
  · refine assign_item (f := "state") (n := 624) (k := i) (m := m) (var_eval g4) ?_ (var_eval g3) rfl ?_ (x := y) ?_ rfl
    · simp [eval, Obj.world, obj, get]
    · rw [position_literal _ _ _ (by omega), if_pos hj]
    · simp [py]

theorem reInit_source (mode : Mode) (s : State) (seed : BitVec 32) :
    Calls prog mode Rep 0 1 "re_init" [.sc false 32 seed] s (.ok .none) (reInit s seed) := by
  refine calls_of Source.MersenneTwister.re_init rfl ?_
  rintro fuel depth - - _ ⟨ix, rfl, hi⟩
  let E : Env := ⟨mode, prog.globals, prog.fieldTypes, run prog mode fuel depth⟩
  let L : List (String × Val) := [("seed", .sc false 32 seed)]
  obtain ⟨w, h, l', e, -⟩ := loop_seed E fuel ((obj (s.state.set 0 seed) 624).world L) (s.state.set 0 seed, seed) ⟨L, rfl, rfl, rfl⟩
  rw [reInit]
  generalize (List.range' 1 623).foldl seedStep (s.state.set 0 seed, seed) = f at e ⊢
  refine ⟨obj f.1 624, ⟨624, rfl, rfl⟩, fun l => invoke_next (l' := l') rfl rfl ?_⟩
  change exec E [] fuel _ _ = _
  refine Eq.trans (seq_next (w' := (obj s.state ix).world L) ?_) ?_
  · cases mode <;> simp [py, Obj.world, obj, L, E, Source.MersenneTwister.re_init]
  refine Eq.trans (seq_next (w' := (obj s.state 624).world L) ?_) ?_
  · cases mode <;> simp [py, Obj.world, obj, L, E]
  refine Eq.trans (seq_next (w' := (obj (s.state.set 0 seed) 624).world L) ?_) ?_
  · cases mode <;> simp [py, Obj.world, obj, L, E]
  rw [e] at h
  exact h

theorem and_mask (z : BitVec 64) (k : BitVec 32) : z &&& k.setWidth 64 = (z.setWidth 32 &&& k).setWidth 64 := by
  ext i hi
  by_cases h : i < 32
  · simp [BitVec.getElem_setWidth, h, hi]
  · have : k.getLsbD i = false := BitVec.getLsbD_of_ge _ _ (by omega)
    simp [BitVec.getElem_setWidth, this]

theorem small64 (n : Nat) (h : n < 32) : n % 18446744073709551616 = n := by omega
theorem small32 (n : Nat) (h : n < 32) : n % 4294967296 = n := by omega

theorem shr_step (E : Env) (fuel : Nat) (w : World) (n : Nat) (h1 : n < 32) (y : BitVec 32) (v : Val)
    (h : get "y_rand" w.locals = some v) (hv : v = .sc false 32 y ∨ v = wide E.mode y) :
    exec E [] fuel (.aug .xor (.var "y_rand") (.bin .shr (.var "y_rand") (.cast u32 (.num n)))) w
      = (.ok .next, ⟨put "y_rand" (wide E.mode (y ^^^ y >>> n)) w.locals, w.fields, w.arrays⟩) := by
  have c := cast_literal E.mode n
  have h2 : n < 64 := by omega
  refine aug_var h (bin_eval (var_eval h) (cast_eval num_eval c) (v := wide E.mode (y >>> n)) ?_) ?_
  · rcases hv with rfl | rfl <;> cases E.mode <;> simp [py, wide, small64 n h1, small32 n h1, h1, h2]
  · rcases hv with rfl | rfl <;> cases E.mode <;> simp [py, wide]

theorem shl_step (E : Env) (fuel : Nat) (w : World) (n k : Nat) (h1 : n < 32) (y : BitVec 32)
    (h : get "y_rand" w.locals = some (wide E.mode y)) :
    exec E [] fuel (.aug .xor (.var "y_rand") (.bin .and (.bin .shl (.var "y_rand") (.cast u32 (.num n))) (.cast u32 (.num k)))) w
      = (.ok .next, ⟨put "y_rand" (wide E.mode (y ^^^ (y <<< n &&& BitVec.ofNat 32 k))) w.locals, w.fields, w.arrays⟩) := by
  have c := cast_literal E.mode n
  have h2 : n < 64 := by omega
  have d := cast_literal E.mode k
  refine aug_var h (bin_eval (bin_eval (var_eval h) (cast_eval num_eval c) (v := wide' E.mode (y.setWidth 64 <<< n)) ?_) (cast_eval num_eval d)
    (v := wide E.mode (y <<< n &&& BitVec.ofNat 32 k)) ?_) ?_
  · cases E.mode <;> simp [py, wide, wide', small64 n h1, small32 n h1, h1, h2]
  · cases E.mode <;> simp [py, wide, wide']
    rw [and_mask, and_mask]
    simp
  · cases E.mode <;> simp [py, wide]

/-- what follows the `if` of `next` -/
def nextRest : Stmt :=
  (.seq
     (.assign (.var "y_rand") (.item (.self "state") (.self "index")))
    (.seq
     (.aug .add (.self "index") (.cast u16 (.num 1)))
    (.seq
     (.aug .xor (.var "y_rand") (.bin .shr (.var "y_rand") (.cast u32 (.num 0xB))))
    (.seq
     (.aug .xor (.var "y_rand") (.bin .and (.bin .shl (.var "y_rand") (.cast u32 (.num 7))) (.cast u32 (.num 0x9D2C5680))))
    (.seq
     (.aug .xor (.var "y_rand") (.bin .and (.bin .shl (.var "y_rand") (.cast u32 (.num 0xF))) (.cast u32 (.num 0xEFC60000))))
    (.seq
     (.aug .xor (.var "y_rand") (.bin .shr (.var "y_rand") (.cast u32 (.num 0x12))))
    (.ret (.var "y_rand"))))))))

theorem next_exec (E : Env) (fuel : Nat) (m : Mem) (ix : BitVec 16) (hi : ix.toNat < 624) (ht : E.fieldTypes = [("index", u16)]) : ∃ l,
    exec E [] fuel nextRest ((obj m ix).world []) = (.ok (.ret (wide E.mode (temper (m ix.toNat)))), (obj m (ix + 1)).world l) := by
  have hn : BitVec.setWidth 16 (BitVec.setWidth 64 ix + 1#64) = ix + 1#16 := by
    rw [BitVec.setWidth_add _ _ (by decide)]
    simp
  refine ⟨[("y_rand", wide E.mode (temper (m ix.toNat)))], Eq.trans (seq_next (w' := (obj m ix).world [("y_rand", .sc false 32 (m ix.toNat))]) ?_) <|
    Eq.trans (seq_next (w' := (obj m (ix + 1)).world [("y_rand", .sc false 32 (m ix.toNat))]) ?_) <|
    Eq.trans (seq_next (shr_step E fuel _ 11 (by decide) _ _ rfl (.inl rfl))) <|
    Eq.trans (seq_next (shl_step E fuel _ 7 0x9D2C5680 (by decide) _ rfl)) <|
    Eq.trans (seq_next (shl_step E fuel _ 15 0xEFC60000 (by decide) _ rfl)) <|
    Eq.trans (seq_next (shr_step E fuel _ 18 (by decide) _ _ rfl (.inr rfl))) ?_⟩
  · cases hm : E.mode <;> simp [py, Obj.world, obj, hm, hi]
  · cases hm : E.mode <;> simp [py, Obj.world, obj, hm, ht, hn]
  · rfl

theorem next_out (E : Env) (fuel : Nat) (m : Mem) (ix : BitVec 16) (hi : ¬ ix.toNat < 624) :
    exec E [] fuel nextRest ((obj m ix).world []) = (.error .indexError, (obj m ix).world []) := by
  have : ¬ (624 : Int) > ix.toNat := by omega
  refine seq_error ?_
  cases hm : E.mode <;> simp [py, Obj.world, obj, hi]

theorem expr_call {E : Env} {fuel : Nat} {f : String} {v : Val} {w w' : World} (h : E.call f [] w = (.ok v, w')) :
    exec E [] fuel (.expr (.meth f .nil)) w = (.ok .next, w') := by
  simp [exec, eval, M.bind, M.pure, h]

theorem next_first (mode : Mode) (s : State) (fuel depth : Nat) (hd : 1 ≤ depth) (o : Obj) (ho : Rep s o) :
    ∃ o', Rep (if s.index = 624 then shuffle s else s) o' ∧
      exec ⟨mode, prog.globals, prog.fieldTypes, run prog mode fuel depth⟩ [] fuel
        (.ite (.cmp .eq (.self "index") (.cast u16 (.num 0x270))) (.expr (.meth "shuffle" .nil)) .pass) (o.world [])
        = (.ok .next, o'.world []) := by
  have ho' := ho
  obtain ⟨ix, rfl, hi⟩ := ho'
  let E : Env := ⟨mode, prog.globals, prog.fieldTypes, run prog mode fuel depth⟩
  have hc : eval E (.cmp .eq (.self "index") (.cast u16 (.num 0x270))) ((obj s.state ix).world [])
      = (.ok (.bool (decide (s.index = 624))), (obj s.state ix).world []) := by
    rw [hi]
    cases mode <;> simp [py, E, Obj.world, obj]
    all_goals norm_cast
  by_cases h : s.index = 624
  · obtain ⟨o1, r1, e1⟩ := shuffle_source mode s fuel depth (Nat.zero_le _) hd _ ho
    rw [if_pos h]
    refine ⟨o1, r1, ?_⟩
    rw [ite_true' hc (by simp [truth, h])]
    exact expr_call (e1 [])
  · rw [if_neg h]
    exact ⟨_, ho, by rw [ite_false' hc (by simp [truth, h])]; rfl⟩

theorem next_source (mode : Mode) (s : State) :
    Calls prog mode Rep 0 2 "next" [] s ((next s).2.map (wide mode)) (next s).1 := by
  refine calls_of Source.MersenneTwister.next rfl ?_
  rintro fuel depth hn hd o ho
  obtain ⟨o1, r1, e1⟩ := next_first mode s fuel depth hd o ho
  rw [next]
  generalize (if s.index = 624 then shuffle s else s) = t at r1 ⊢
  obtain ⟨ix, rfl, hi⟩ := r1
  let E : Env := ⟨mode, prog.globals, prog.fieldTypes, run prog mode fuel depth⟩
  by_cases h : t.index < 624
  · obtain ⟨l', e2⟩ := next_exec E fuel t.state ix (by rwa [← hi]) rfl
    simp only [h, if_true]
    refine ⟨obj t.state (ix + 1), ⟨ix + 1, rfl, ?_⟩, fun l => invoke_ret (l' := l') rfl rfl rfl ?_⟩
    · simp [hi]
    · rw [hi]
      exact (seq_next e1).trans e2
  · simp only [h, if_false]
    refine ⟨obj t.state ix, ⟨ix, rfl, hi⟩, fun l => invoke_error (l' := []) rfl rfl ?_⟩
    exact (seq_next e1).trans (next_out E fuel t.state ix (by rwa [← hi]))

theorem nextRand_source (mode : Mode) (s : State) (maximum : BitVec 32) :
    Calls prog mode Rep 0 3 "next_rand" [.sc false 32 maximum] s ((nextRand s maximum).2.map (.sc false 32)) (nextRand s maximum).1 := by
  refine calls_of Source.MersenneTwister.next_rand rfl ?_
  intro fuel depth hn hd o ho
  obtain ⟨o1, h1, e1⟩ := next_source mode s fuel depth hn hd o ho
  rw [nextRand]
  refine ⟨o1, h1, fun l => ?_⟩
  simp only [Obj.world] at e1 ⊢
  rw [prog_globals, prog_fieldTypes]
  generalize run _ mode fuel depth = c at e1 ⊢
  cases hr : (next s).2 with
  | error e => 
    rw [hr] at e1
    cases mode <;> simp [py, Source.MersenneTwister.next_rand, e1, Except.map]
  | ok y =>
    rw [hr] at e1
    cases mode <;> simp [py, wide, Except.map] at e1 <;>
      simp [py, Source.MersenneTwister.next_rand, e1, Except.map, Lcrng.mulShift]

theorem nextRandMod_source (mode : Mode) (s : State) (maximum : BitVec 32) :
    Calls prog mode Rep 0 3 "next_rand_mod" [.sc false 32 maximum] s ((nextRandMod mode s maximum).2.map (wide mode)) (nextRandMod mode s maximum).1 := by
  refine calls_of Source.MersenneTwister.next_rand_mod rfl ?_
  intro fuel depth hn hd o ho
  obtain ⟨o1, h1, e1⟩ := next_source mode s fuel depth hn hd o ho
  rw [nextRandMod]
  refine ⟨o1, h1, fun l => ?_⟩
  simp only [Obj.world] at e1 ⊢
  rw [prog_globals, prog_fieldTypes]
  generalize run _ mode fuel depth = c at e1 ⊢
  cases hr : (next s).2 with
  | error e => 
    rw [hr] at e1
    cases mode <;> simp [py, Source.MersenneTwister.next_rand_mod, e1, Except.map, Except.bind]
  | ok y =>
    rw [hr] at e1
    cases mode <;> simp [py, wide, Except.map] at e1 <;> by_cases h0 : maximum = 0#32 <;>
      simp [py, Source.MersenneTwister.next_rand_mod, e1, Except.map, Except.bind, pyMod, h0, wide, umod_wide, wide_eq_zero]

/-- the value of the running distance -/
def Left (mode : Mode) (v : Val) (n : Nat) : Prop :=
  match mode with
  | .numba => ∃ x : BitVec 64, v = .sc false 64 x ∧ x.toNat = n
  | .numpy => ∃ x : BitVec 32, v = .sc false 32 x ∧ x.toNat = n

theorem Left.compare (h : Left mode v n) : Py.compare .ge v (.sc false 32 624) = .ok (.bool (decide (624 ≤ n))) := by
  cases mode <;> obtain ⟨x, rfl, rfl⟩ := h <;> simp [Py.compare, toInt] <;> omega

theorem Left.sub (h : Left mode v n) (hn : 624 ≤ n) : ∃ v', binop mode .sub v (.sc false 32 624) = .ok v' ∧ Left mode v' (n - 624) := by
  cases mode <;> obtain ⟨x, rfl, rfl⟩ := h
  · refine ⟨.sc false 64 (x - 624), by simp [py], _, rfl, ?_⟩
    rw [BitVec.toNat_sub_of_le (by rw [BitVec.le_def]; simpa using hn)]
    rfl
  · refine ⟨.sc false 32 (x - 624), by simp [py], _, rfl, ?_⟩
    rw [BitVec.toNat_sub_of_le (by rw [BitVec.le_def]; simpa using hn)]
    rfl

theorem Left.cast (h : Left mode v n) : Py.cast u16 v = .ok (.sc false 16 (BitVec.ofNat 16 n)) := by
  cases mode <;> obtain ⟨x, rfl, rfl⟩ := h <;> simp [py]

theorem advance_loop (mode : Mode) (fuel depth : Nat) (hd : 1 ≤ depth) : ∀ (k n : Nat) (v : Val) (s : State) (o : Obj) (l : List (String × Val)),
    n < 624 * k → Rep s o → Left mode v n → get "adv" l = some v → ∀ j, k ≤ j →
    ∃ o' l' v', Rep (advanceLoop s n).1 o' ∧ Left mode v' (advanceLoop s n).2 ∧ get "adv" l' = some v' ∧
      whileLoop ((eval ⟨mode, prog.globals, prog.fieldTypes, run prog mode fuel depth⟩ (.cmp .ge (.var "adv") (.cast u32 (.num 0x270)))).bind fun v => M.lift (truth v))
        (exec ⟨mode, prog.globals, prog.fieldTypes, run prog mode fuel depth⟩ [] fuel (.seq (.expr (.meth "shuffle" .nil)) (.aug .sub (.var "adv") (.cast u32 (.num 0x270))))) j (o.world l)
        = (.ok .next, o'.world l')
  | 0, n, v, s, o, l, h, hr, hv, hl, j, hj => by omega
  | k + 1, n, v, s, o, l, h, hr, hv, hl, j, hj => by
    obtain ⟨j, rfl⟩ : ∃ i, j = i + 1 := ⟨j - 1, by omega⟩
    let E : Env := ⟨mode, prog.globals, prog.fieldTypes, run prog mode fuel depth⟩
    have c : eval E (.cast u32 (.num 0x270)) (o.world l) = (.ok (.sc false 32 624), o.world l) :=
      cast_eval num_eval (cast_literal mode 624)
    have hc : ((eval E (.cmp .ge (.var "adv") (.cast u32 (.num 0x270)))).bind fun v => M.lift (truth v)) (o.world l)
        = (.ok (decide (624 ≤ n)), o.world l) := by
      have e1 : eval E (.var "adv") (o.world l) = (.ok v, o.world l) := var_eval hl
      have e2 := hv.compare
      simp only [M.bind]
      rw [eval]
      simp only [M.bind, e1, c, M.lift, e2, truth]
    rw [advanceLoop]
    by_cases hn : 624 ≤ n
    · simp only [hn, dif_pos]
      obtain ⟨o1, r1, e1⟩ := shuffle_source mode s fuel depth (Nat.zero_le _) hd o hr
      obtain ⟨v1, b1, hv1⟩ := hv.sub hn
      obtain ⟨o2, l2, v2, r2, hv2, g2, e2⟩ := advance_loop mode fuel depth hd k (n - 624) v1 (shuffle s) o1 (put "adv" v1 l) (by omega) r1 hv1
        (by simp [get_put]) j (by omega)
      refine ⟨o2, l2, v2, r2, hv2, g2, ?_⟩
      have hb : exec E [] fuel (.seq (.expr (.meth "shuffle" .nil)) (.aug .sub (.var "adv") (.cast u32 (.num 0x270)))) (o.world l)
          = (.ok .next, o1.world (put "adv" v1 l)) := by
        refine (seq_next (w' := o1.world l) ?_).trans (aug_var hl (cast_eval num_eval (cast_literal mode 624)) b1)
        exact expr_call (e1 l)
      refine Eq.trans (while_next (hc.trans ?_) hb) e2
      simp [hn]
    · simp only [hn, dif_neg, not_false_eq_true]
      refine ⟨o, l, v, hr, hv, hl, ?_⟩
      refine while_end (hc.trans ?_)
      simp [hn]

theorem advance_source (mode : Mode) (s : State) (adv : BitVec 32) :
    Calls prog mode Rep (advTotal mode adv s.index / 624 + 1) 2 "advance" [.sc false 32 adv] s (.ok .none) (advance mode s adv) := by
  refine calls_of Source.MersenneTwister.advance rfl ?_
  rintro fuel depth hn hd o ⟨ix, rfl, hi⟩
  let E : Env := ⟨mode, prog.globals, prog.fieldTypes, run prog mode fuel depth⟩
  have hc : Py.cast u32 (.sc false 32 adv) = .ok (.sc false 32 adv) := by simp [py]
  have hx : Py.cast u32 (.sc false 16 ix) = .ok (.sc false 32 (ix.setWidth 32)) := by simp [py]
  obtain ⟨v, hb, hv⟩ : ∃ v, binop mode .add (.sc false 32 adv) (.sc false 32 (ix.setWidth 32)) = .ok v ∧ Left mode v (advTotal mode adv s.index) := by
    have h1 := adv.isLt
    have h2 := ix.isLt
    cases mode
    · refine ⟨.sc false 64 (adv.setWidth 64 + ix.setWidth 64), by simp [py], _, rfl, ?_⟩
      simp [advTotal, hi]
      omega
    · refine ⟨.sc false 32 (adv + ix.setWidth 32), by simp [py], _, rfl, ?_⟩
      simp [advTotal, hi]
  obtain ⟨o1, l1, v1, ⟨ix1, rfl, hi1⟩, hv1, g1, e1⟩ := advance_loop mode fuel depth hd (advTotal mode adv s.index / 624 + 1) (advTotal mode adv s.index) v s
    (obj s.state ix) [("adv", v)] (by omega) ⟨ix, rfl, hi⟩ hv rfl fuel hn
  refine ⟨obj (advanceLoop s (advTotal mode adv s.index)).1.state (BitVec.ofNat 16 (advanceLoop s (advTotal mode adv s.index)).2), ⟨_, rfl, ?_⟩,
    fun l => invoke_next (l' := l1) rfl rfl ?_⟩
  · simp [advance]
  change exec E [] fuel _ ((obj s.state ix).world [("adv", .sc false 32 adv)]) = _
  refine Eq.trans (seq_next (assign_var (var_eval rfl |> fun h => cast_eval h hc))) ?_
  refine Eq.trans (seq_next (w' := (obj s.state ix).world [("adv", v)]) (aug_var rfl (cast_eval (self_eval rfl) hx) hb)) ?_
  refine Eq.trans (seq_next e1) ?_
  exact assign_self (t := u16) rfl (cast_eval (var_eval g1) hv1.cast) (by simp [py])

end Verif.Py.Mt
