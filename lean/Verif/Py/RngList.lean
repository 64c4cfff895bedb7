import Verif.Py.Sfmt
import Verif.Model.RngList
import Mathlib.Tactic.Positivity
/-
C133 for rng_list.py: the source text computes what the model says, for every generator.
-/
namespace Verif.Py.RngList
open Verif Verif.RngList

/-- the class `SpecificRNGList` for a size and a function `next_function` -/
def prog (mode : Mode) (size : Nat) (f : List Val → M Val) : Prog where
  funs := [("re_init", Source.RNGList.re_init), ("advance_states", Source.RNGList.advance_states),
    ("advance_state", Source.RNGList.advance_state), ("advance", Source.RNGList.advance), ("get_value", Source.RNGList.get_value)]
  globals := [("size", literal mode size)]
  fieldTypes := [("head", u16), ("pointer", u16)]
  given := [("next_function", f)]

/-- `next_function(rng)`: it returns the next number and changes the generator, which is kept in some way in the array `rng`, and
nothing else -/
def Draws (f : List Val → M Val) (enc : G → Arr) (next : G → G × BitVec v) : Prop :=
  ∀ g w, get "rng" w.arrays = some (enc g) →
    f [.arr "rng"] w = (.ok (.sc false v (next g).2), ⟨w.locals, w.fields, put "rng" (enc (next g).1) w.arrays⟩)

/-- the arrays of `size` elements of `w` bits -/
structure Array' (w size : Nat) where
  arr : Cells w → Arr
  len : ∀ m, (arr m).len = size
  load : ∀ m i, (arr m).load i = .sc false w (m i)
  store : ∀ m i (v : Nat) (x : BitVec v), (arr m).store i (.sc false v x) = .ok (arr (m.set i x))

/-- `np.empty(size, dtype=np.uint32)` -/
def array32 (size : Nat) : Array' 32 size where
  arr m := .w32 size ⟨m.get⟩
  len _ := rfl
  load _ _ := rfl
  store m i v x := by simp [Arr.store, Py.cast, u32, conv, Cells.set, Mem.set]

/-- `np.empty(size, dtype=np.uint64)` -/
def array64 (size : Nat) : Array' 64 size where
  arr m := .w64 size m.get
  len _ := rfl
  load _ _ := rfl
  store m i v x := by simp [Arr.store, Py.cast, u64, conv, Cells.set]

variable {w size v : Nat} {G : Type} {mode : Mode} {enc : G → Arr} {next : G → G × BitVec v} {f : List Val → M Val} (A : Array' w size)

/-- the object with these attributes -/
def obj (enc : G → Arr) (g : G) (m : Cells w) (h p : Val) : Obj :=
  ⟨[("rng", .arr "rng"), ("list", .arr "list"), ("head", h), ("pointer", p)], [("rng", enc g), ("list", A.arr m)]⟩

/-- the attribute holds this position: an `np.uint16` in compiled code, otherwise a Python integer or an `np.int64` -/
def IsPos (mode : Mode) (v : Val) (n : Nat) : Prop :=
  match mode with
  | .numba => ∃ ix : BitVec 16, v = .sc false 16 ix ∧ n = ix.toNat
  | .numpy => n < 2 ^ 40 ∧ (v = .int n ∨ v = .sc true 64 (BitVec.ofNat 64 n))

/-- the attributes stand for this state; the positions are in the list -/
def Rep (mode : Mode) (enc : G → Arr) (s : State w G) (o : Obj) : Prop :=
  ∃ h p, o = obj A enc s.rng s.list h p ∧ IsPos mode h s.head ∧ IsPos mode p s.pointer ∧ s.head < size ∧ s.pointer < size

/-- an intermediate result -/
def Is64 (mode : Mode) (u : Val) (n : Nat) : Prop :=
  match mode with
  | .numba => ∃ s, u = .sc s 64 (BitVec.ofNat 64 n)
  | .numpy => u = .int n ∨ u = .sc true 64 (BitVec.ofNat 64 n)

theorem long_toInt {n : Nat} (h : n < 2 ^ 40) : (BitVec.ofNat 64 n).toInt = n := by
  rw [BitVec.toInt_eq_toNat_of_lt (by simp; omega)]
  simp
  omega

theorem IsPos.position {u : Val} {n : Nat} (h : IsPos mode u n) (hn : n < size) : Py.position size u = .ok n := by
  have : Py.toInt u = some (n : Int) := by
    cases mode
    · obtain ⟨ix, rfl, rfl⟩ := h
      rfl
    · obtain ⟨h, rfl | rfl⟩ := h
      · rfl
      · simp only [Py.toInt, if_true, long_toInt h]
  simp [Py.position, this, hn]

theorem IsPos.succ {u : Val} {n : Nat} (h : IsPos mode u n) : ∃ r, binop mode .add u (literal mode 1) = .ok r ∧ Is64 mode r (n + 1) := by
  cases mode
  · obtain ⟨ix, rfl, rfl⟩ := h
    exact ⟨.sc true 64 (ix.setWidth 64 + 1), by simp [py], true, by simp [BitVec.ofNat_add]⟩
  · obtain ⟨h, rfl | rfl⟩ := h
    · exact ⟨.int (n + 1), rfl, .inl rfl⟩
    · exact ⟨.sc true 64 (BitVec.ofNat 64 n + 1), by simp [py], .inr (by simp [BitVec.ofNat_add])⟩

theorem IsPos.add {u : Val} {n : Nat} (h : IsPos mode u n) (adv : BitVec 32) :
    ∃ r, binop mode .add u (.sc false 32 adv) = .ok r ∧ Is64 mode r (n + adv.toNat) := by
  cases mode
  · obtain ⟨ix, rfl, rfl⟩ := h
    exact ⟨.sc false 64 (ix.setWidth 64 + adv.setWidth 64), by simp [py], false, by simp [BitVec.ofNat_add]⟩
  · obtain ⟨h, rfl | rfl⟩ := h
    · exact ⟨.sc true 64 (BitVec.ofNat 64 n + adv.setWidth 64), by simp [py], .inr (by simp [BitVec.ofNat_add])⟩
    · exact ⟨.sc true 64 (BitVec.ofNat 64 n + adv.setWidth 64), by simp [py], .inr (by simp [BitVec.ofNat_add])⟩

theorem land_cast (n k : Nat) : Int.land n k = ((n &&& k : Nat) : Int) := rfl

theorem Is64.and {u : Val} {n : Nat} (h : Is64 mode u n) (k : Nat) :
    ∃ r, binop mode .and u (literal mode k) = .ok r ∧ Is64 mode r (n &&& k) := by
  cases mode
  · obtain ⟨s, rfl⟩ := h
    exact ⟨.sc true 64 (BitVec.ofNat 64 n &&& BitVec.ofNat 64 k), by cases s <;> simp [py], true, by rw [BitVec.ofNat_and]⟩
  · obtain rfl | rfl := h
    · exact ⟨.int (Int.land n k), rfl, .inl rfl⟩
    · exact ⟨.sc true 64 (BitVec.ofNat 64 n &&& BitVec.ofNat 64 k), by simp [py], .inr (by rw [BitVec.ofNat_and])⟩

theorem IsPos.and {u : Val} {n : Nat} (h : IsPos mode u n) (k : Nat) :
    ∃ r, binop mode .and u (literal mode k) = .ok r ∧ Is64 mode r (n &&& k) := by
  cases mode
  · obtain ⟨ix, rfl, rfl⟩ := h
    exact ⟨.sc true 64 (BitVec.ofNat 64 ix.toNat &&& BitVec.ofNat 64 k), by simp [py], true, by rw [BitVec.ofNat_and]⟩
  · exact Is64.and (mode := .numpy) h.2 k

theorem Is64.stored {u : Val} {n : Nat} (h : Is64 mode u n) (hn : n < 2 ^ 40) :
    ∃ r, Sfmt.Stored mode u16 u r ∧ IsPos mode r (Verif.RngList.store mode n) := by
  cases mode
  · obtain ⟨s, rfl⟩ := h
    refine ⟨.sc false 16 (BitVec.ofNat 16 n), ?_, _, rfl, by simp [Verif.RngList.store]⟩
    cases s <;> simp [Sfmt.Stored, py]
  · exact ⟨u, rfl, hn, h⟩

theorem IsPos.stored {u : Val} {n : Nat} (h : IsPos mode u n) :
    ∃ r, Sfmt.Stored mode u16 u r ∧ IsPos mode r (Verif.RngList.store mode n) := by
  cases mode
  · obtain ⟨ix, rfl, rfl⟩ := h
    refine ⟨.sc false 16 ix, by simp [Sfmt.Stored, py], ix, rfl, ?_⟩
    rw [Verif.RngList.store, Nat.mod_eq_of_lt ix.isLt]
  · exact ⟨u, rfl, h⟩

theorem zero_stored (mode : Mode) : ∃ r, Sfmt.Stored mode u16 (literal mode 0) r ∧ IsPos mode r 0 := by
  cases mode
  · exact ⟨.sc false 16 0, by simp [Sfmt.Stored, py], 0, rfl, rfl⟩
  · exact ⟨.int 0, rfl, by decide, .inl rfl⟩

theorem store_lt {n k : Nat} (h : n < k) : Verif.RngList.store mode n < k := by
  cases mode
  · exact Nat.lt_of_le_of_lt (Nat.mod_le _ _) h
  · exact h

theorem mask_lt (n : Nat) (hs : 0 < size) : n &&& (size - 1) < size := Nat.lt_of_le_of_lt Nat.and_le_right (by omega)

/-! ### the methods -/

theorem size_eval {E : Env} {w : World} (hg : E.globals = [("size", literal E.mode size)]) (hl : get "size" w.locals = none) :
    eval E (.var "size") w = (.ok (literal E.mode size), w) := by
  simp [eval, hl, hg, get]

theorem last_eval {E : Env} {w : World} (hs : 0 < size) (hg : E.globals = [("size", literal E.mode size)]) (hl : get "size" w.locals = none) :
    eval E (.bin .sub (.var "size") (.num 1)) w = (.ok (literal E.mode (size - 1 : Nat)), w) :=
  bin_eval (size_eval hg hl) num_eval (literal_sub E.mode size 1 hs)

theorem call_next {E : Env} {g : G} {m : Cells w} {h p : Val} {l : List (String × Val)} (hf : Draws f enc next)
    (hc : ∀ args, E.call "next_function" args = f args) :
    eval E (.call "next_function" (.cons (.self "rng") .nil)) ((obj A enc g m h p).world l)
      = (.ok (.sc false v (next g).2), (obj A enc (next g).1 m h p).world l) := by
  have := hf g ((obj A enc g m h p).world l) rfl
  simp only [Obj.world, obj] at this ⊢
  simp [eval, M.bind, M.pure, get, builtin, hc, this, put]

theorem assign_list {E : Env} {fuel : Nat} {g : G} {m : Cells w} {h p u : Val} {l : List (String × Val)} {i : Expr} {k : Nat} (hf : Draws f enc next)
    (hc : ∀ args, E.call "next_function" args = f args)
    (hi : eval E i ((obj A enc (next g).1 m h p).world l) = (.ok u, (obj A enc (next g).1 m h p).world l)) (hk : Py.position size u = .ok k) :
    exec E [] fuel (.assign (.item (.self "list") i) (.call "next_function" (.cons (.self "rng") .nil))) ((obj A enc g m h p).world l)
      = (.ok .next, (obj A enc (next g).1 (m.set k (next g).2) h p).world l) := by
  have e := call_next A (g := g) (m := m) (h := h) (p := p) (l := l) hf hc
  have e1 : eval E (.self "list") ((obj A enc (next g).1 m h p).world l) = (.ok (.arr "list"), (obj A enc (next g).1 m h p).world l) := self_eval rfl
  have e2 : get "list" ((obj A enc (next g).1 m h p).world l).arrays = some (A.arr m) := rfl
  simp only [exec, M.bind, e, store, e1, hi, storeItem, e2, A.len, hk, A.store, M.pure]
  rfl

theorem advanceState_source (hs : 0 < size) (hs' : size ≤ 2 ^ 32) (hf : Draws f enc next) (s : State w G) :
    Calls (prog mode size f) mode (Rep A mode enc) 0 2 "advance_state" [] s (.ok .none) (advanceState mode next size s) := by
  refine calls_of Source.RNGList.advance_state rfl ?_
  rintro fuel depth - hd o ⟨h, p, rfl, hh, hp, lh, lp⟩
  obtain ⟨depth, rfl⟩ := Nat.exists_eq_add_of_le' hd
  let E : Env := ⟨mode, (prog mode size f).globals, (prog mode size f).fieldTypes, run (prog mode size f) mode fuel (depth + 1)⟩
  obtain ⟨r1, b1, i1⟩ := hh.succ
  obtain ⟨r2, b2, i2⟩ := i1.and (size - 1)
  have lt := mask_lt (s.head + 1) hs
  obtain ⟨h', st, i3⟩ := i2.stored (by omega)
  obtain ⟨p', st', i4⟩ := i3.stored
  refine ⟨obj A enc (next s.rng).1 (s.list.set s.head (next s.rng).2) h' p', ⟨h', p', rfl, i3, i4, store_lt lt, store_lt (store_lt lt)⟩,
    fun l => invoke_next (l' := []) rfl rfl ?_⟩
  change exec E [] fuel _ _ = _
  refine Eq.trans (seq_next (assign_list A hf (fun _ => rfl) (self_eval rfl) (hh.position lh))) ?_
  refine Eq.trans (seq_next (w' := (obj A enc (next s.rng).1 (s.list.set s.head (next s.rng).2) h' p).world [])
    (Sfmt.assign_field (t := u16) rfl (bin_eval (bin_eval (self_eval rfl) num_eval b1) (last_eval hs rfl rfl) b2) st)) ?_
  exact Sfmt.assign_field (t := u16) rfl (self_eval rfl) st'

theorem advance_source (h0 : 0 < size) (hs' : size ≤ 2 ^ 32) (s : State w G) (adv : BitVec 32) :
    Calls (prog mode size f) mode (Rep A mode enc) 0 1 "advance" [.sc false 32 adv] s (.ok .none) (advance mode size adv s) := by
  refine calls_of Source.RNGList.advance rfl ?_
  rintro fuel depth - - o ⟨h, p, rfl, hh, hp, lh, lp⟩
  let E : Env := ⟨mode, (prog mode size f).globals, (prog mode size f).fieldTypes, run (prog mode size f) mode fuel depth⟩
  obtain ⟨r1, b1, i1⟩ := hp.add adv
  obtain ⟨r2, b2, i2⟩ := i1.and (size - 1)
  have lt := mask_lt (s.pointer + adv.toNat) h0
  obtain ⟨p', st, i3⟩ := i2.stored (by omega)
  refine ⟨obj A enc s.rng s.list h p', ⟨h, p', rfl, hh, i3, lh, store_lt lt⟩, fun l => invoke_next (l' := [("adv", .sc false 32 adv)]) rfl rfl ?_⟩
  change exec E [] fuel _ _ = _
  refine Eq.trans (seq_next (w' := (obj A enc s.rng s.list h p).world [("adv", .sc false 32 adv)]) (assign_var (cast_eval (var_eval rfl) (by simp [py])))) ?_
  exact Sfmt.assign_field (t := u16) rfl (bin_eval (bin_eval (self_eval rfl) (var_eval rfl) b1) (last_eval h0 rfl rfl) b2) st

theorem getValue_source (hs : 0 < size) (hs' : size ≤ 2 ^ 32) (s : State w G) :
    Calls (prog mode size f) mode (Rep A mode enc) 0 1 "get_value" [] s (.ok (.sc false w (getValue mode size s).2)) (getValue mode size s).1 := by
  refine calls_of Source.RNGList.get_value rfl ?_
  rintro fuel depth - - o ⟨h, p, rfl, hh, hp, lh, lp⟩
  let E : Env := ⟨mode, (prog mode size f).globals, (prog mode size f).fieldTypes, run (prog mode size f) mode fuel depth⟩
  obtain ⟨r1, b1, i1⟩ := hp.succ
  obtain ⟨p1, st1, i2⟩ := i1.stored (by omega)
  obtain ⟨r2, b2, i3⟩ := i2.and (size - 1)
  have lt := mask_lt (Verif.RngList.store mode (s.pointer + 1)) hs
  obtain ⟨p2, st2, i4⟩ := i3.stored (by omega)
  let L : List (String × Val) := [("result", .sc false w (s.list s.pointer))]
  refine ⟨obj A enc s.rng s.list h p2, ⟨h, p2, rfl, hh, i4, lh, store_lt lt⟩, fun l => invoke_ret (l' := L) rfl rfl rfl ?_⟩
  change exec E [] fuel _ _ = _
  refine Eq.trans (seq_next (w' := (obj A enc s.rng s.list h p).world L) ?_) ?_
  · refine assign_var (x := "result") (v := .sc false w (s.list s.pointer)) (w1 := (obj A enc s.rng s.list h p).world []) ?_
    have e1 : eval E (.self "list") ((obj A enc s.rng s.list h p).world []) = (.ok (.arr "list"), (obj A enc s.rng s.list h p).world []) := self_eval rfl
    have e2 : eval E (.self "pointer") ((obj A enc s.rng s.list h p).world []) = (.ok p, (obj A enc s.rng s.list h p).world []) := self_eval rfl
    have e3 : get "list" ((obj A enc s.rng s.list h p).world []).arrays = some (A.arr s.list) := rfl
    change eval E (.item (.self "list") (.self "pointer")) ((obj A enc s.rng s.list h p).world []) = _
    rw [eval]
    simp only [M.bind, e1, e2, loadItem, e3, A.len, hp.position lp, Except.map, A.load]
  refine Eq.trans (seq_next (w' := (obj A enc s.rng s.list h p1).world L) (Sfmt.aug_field (t := u16) rfl rfl num_eval b1 st1)) ?_
  refine Eq.trans (seq_next (w' := (obj A enc s.rng s.list h p2).world L) (Sfmt.aug_field (t := u16) rfl rfl (last_eval hs rfl rfl) b2 st2)) ?_
  rfl

theorem advanceStates_eq (n : Nat) (s : State w G) : advanceStates mode next size n s = (advanceState mode next size)^[n] s := by
  induction n generalizing s with
  | zero => rfl
  | succ n ih => rw [advanceStates, ih, Function.iterate_succ_apply]

theorem advanceStates_source (hs : 0 < size) (hs' : size ≤ 2 ^ 32) (hf : Draws f enc next) (s : State w G) (adv : BitVec 32) :
    Calls (prog mode size f) mode (Rep A mode enc) 0 3 "advance_states" [.sc false 32 adv] s (.ok .none)
      (advanceStates mode next size adv.toNat s) := by
  refine calls_of Source.RNGList.advance_states rfl ?_
  intro fuel depth hn hd o ho
  rw [advanceStates_eq]
  obtain ⟨o', h1, h2⟩ := loop_calls (fun s => advanceState_source (mode := mode) A hs hs' hf s) hn hd
    ((List.range adv.toNat).map fun (i : Nat) => literal mode i) o s ho
  refine ⟨o', by simpa using h1, fun l => ?_⟩
  obtain ⟨l', h3⟩ := h2 [("adv", .sc false 32 adv)]
  refine invoke_next (l' := l') rfl rfl ?_
  refine Eq.trans (seq_next (w' := o.world [("adv", .sc false 32 adv)]) (assign_var (cast_eval (var_eval rfl) (by simp [py])))) ?_
  rw [← h3]
  exact for_range rfl

theorem fill_eq (next : G → G × BitVec v) : ∀ (n i : Nat) (g : G) (m : Cells w), fill next n i g m
    = (List.range' i n).foldl (fun t i => ((next t.1).1, t.2.set i (next t.1).2)) (g, m)
  | 0, _, _, _ => rfl
  | n + 1, i, g, m => by rw [fill, fill_eq next n, List.range'_succ, List.foldl_cons]

theorem for_upto {E : Env} {fuel n : Nat} {x y : String} {body : Stmt} {w : World} (h : eval E (.var y) w = (.ok (literal E.mode n), w))
    (hn : n < 2 ^ 63) : exec E [] fuel (.for x (.call "range" (.cons (.var y) .nil)) body) w
      = loop (fun v => (storeLocal E [] x v).bind fun _ => exec E [] fuel body) (counted E.mode 0 n) w := by
  rw [exec]
  have e : eval E (.call "range" (.cons (.var y) .nil)) w = (.ok (.tup (counted E.mode 0 n)), w) := by
    rw [eval, eval]
    simp only [M.bind, h]
    simp [eval, M.pure, builtin, M.lift, range, toInt_literal _ n hn, counted]
  simp only [M.bind, e]

theorem reInit_source (hs : 0 < size) (hs' : size ≤ 2 ^ 32) (hf : Draws f enc next) (s : State w G) :
    Calls (prog mode size f) mode (Rep A mode enc) 0 2 "re_init" [] s (.ok .none) (reInit next size s) := by
  refine calls_of Source.RNGList.re_init rfl ?_
  rintro fuel depth - hd o ⟨h, p, rfl, hh, hp, lh, lp⟩
  obtain ⟨depth, rfl⟩ := Nat.exists_eq_add_of_le' hd
  let E : Env := ⟨mode, (prog mode size f).globals, (prog mode size f).fieldTypes, run (prog mode size f) mode fuel (depth + 1)⟩
  obtain ⟨z, st, iz⟩ := zero_stored mode
  obtain ⟨w1, e1, l1, rfl⟩ := loop_counted (mode := mode) (fun w1 (t : G × Cells w) => ∃ l, w1 = (obj A enc t.1 t.2 z z).world l)
    (fun t i => ((next t.1).1, t.2.set i (next t.1).2)) size 0
    (body := fun v => (storeLocal E [] "i" v).bind fun _ =>
      exec E [] fuel (.assign (.item (.self "list") (.var "i")) (.call "next_function" (.cons (.self "rng") .nil))))
    (by
      rintro i - hi w1 t ⟨l, rfl⟩
      refine ⟨_, ?_, put "i" (literal mode i) l, rfl⟩
      simp only [M.bind, storeLocal_nil]
      exact assign_list A (u := literal mode i) hf (fun _ => rfl) (var_eval (by simp [Obj.world, get_put]))
        (by rw [position_literal _ _ _ (by omega), if_pos (by omega)]))
    ((obj A enc s.rng s.list z z).world []) (s.rng, s.list) ⟨[], rfl⟩
  rw [← fill_eq next size 0 s.rng s.list] at e1
  rw [reInit]
  generalize fill next size 0 s.rng s.list = t at e1 ⊢
  refine ⟨obj A enc t.1 t.2 z z, ⟨z, z, rfl, iz, iz, hs, hs⟩, fun l => invoke_next (l' := l1) rfl rfl ?_⟩
  change exec E [] fuel _ _ = _
  refine Eq.trans (seq_next (w' := (obj A enc s.rng s.list z p).world []) (Sfmt.assign_field (t := u16) rfl num_eval st)) ?_
  refine Eq.trans (seq_next (w' := (obj A enc s.rng s.list z z).world []) (Sfmt.assign_field (t := u16) rfl num_eval st)) ?_
  rw [← e1]
  exact for_upto (size_eval rfl rfl) (by omega)

end Verif.Py.RngList
