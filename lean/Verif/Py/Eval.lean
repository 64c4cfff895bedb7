import Verif.Py.Attr
import Verif.Py.Semantics
import Verif.Py.Source
/-
Running programs symbolically with `simp [py]`.
-/
namespace Verif.Py

attribute [py] invoke get put castArgs castResult castTuple exec eval M.bind M.pure M.lift M.fail store storeLocal storeField storeItem loadItem
  position toInt literal cast conv binop numbaBin numpyBin promote intBin isShift shift arith invert compare truth builtin range loadAttr
  Arr.load Arr.store Arr.len loop Except.map Except.bind

theorem run_succ (P : Prog) (mode : Mode) (fuel depth : Nat) (f : String) (args : List Val) (F : Fun) (h : get f P.funs = some F) :
    run P mode fuel (depth + 1) f args = invoke ⟨mode, P.globals, P.fieldTypes, run P mode fuel depth⟩ fuel F args := by
  rw [run, h]

theorem storeLocal_nil (E : Env) (x : String) (v : Val) (w : World) :
    storeLocal E [] x v w = (.ok (), { w with locals := put x v w.locals }) := by
  cases h : E.mode <;> simp [storeLocal, get, h]

/-- a method, given its body -/
theorem calls_of {P : Prog} {mode : Mode} {rep : σ → Obj → Prop} {n d : Nat} {f : String} {args : List Val} {s s' : σ}
    {r : Except PyErr Val} (F : Fun) (h : get f P.funs = some F)
    (hi : ∀ fuel depth, n ≤ fuel → d ≤ depth → ∀ o, rep s o → ∃ o', rep s' o' ∧ ∀ l,
      invoke ⟨mode, P.globals, P.fieldTypes, run P mode fuel depth⟩ fuel F args (o.world l) = (r, o'.world l)) :
    Calls P mode rep n (d + 1) f args s r s' := by
  intro fuel depth hn hd o ho
  obtain ⟨e, rfl⟩ := Nat.exists_eq_add_of_le' (show 1 ≤ depth by omega)
  obtain ⟨o', h1, h2⟩ := hi fuel e hn (by omega) o ho
  exact ⟨o', h1, fun l => by rw [run_succ P mode fuel e f args F h]; exact h2 l⟩

/-! ### step by step -/

theorem invoke_ret {E : Env} {fuel : Nat} {F : Fun} {args : List Val} {o o' : Obj} {l l' : List (String × Val)} {v : Val}
    (ha : F.args = .none) (hr : F.result = .none) (hl : args.length = F.params.length)
    (h : exec E F.locals fuel F.body (o.world (F.params.zip args)) = (.ok (.ret v), o'.world l')) (hs : F.results = .none := by rfl) :
    invoke E fuel F args (o.world l) = (.ok v, o'.world l) := by
  have e : castArgs E.mode F.args args = .ok args := by rw [ha]; cases args <;> rfl
  simp only [Obj.world] at h
  simp only [invoke, e, hl, if_true, Obj.world, h, castResult, hr, hs]
  cases E.mode <;> rfl

theorem invoke_ret' {E : Env} {fuel : Nat} {F : Fun} {args args' : List Val} {w w' : World} {v v' : Val}
    (ha : castArgs E.mode F.args args = .ok args') (hr : castResult E.mode F.result v = .ok v')
    (hl : args'.length = F.params.length)
    (h : exec E F.locals fuel F.body ⟨F.params.zip args', w.fields, w.arrays⟩ = (.ok (.ret v), w'))
    (hs : F.results = .none := by rfl) : invoke E fuel F args w = (.ok v', ⟨w.locals, w'.fields, w'.arrays⟩) := by
  simp only [invoke, ha, hl, if_true, h, hr, hs]
  rfl

theorem invoke_next {E : Env} {fuel : Nat} {F : Fun} {args : List Val} {o o' : Obj} {l l' : List (String × Val)}
    (ha : F.args = .none) (hl : args.length = F.params.length)
    (h : exec E F.locals fuel F.body (o.world (F.params.zip args)) = (.ok .next, o'.world l')) :
    invoke E fuel F args (o.world l) = (.ok .none, o'.world l) := by
  have e : castArgs E.mode F.args args = .ok args := by rw [ha]; cases args <;> rfl
  simp only [Obj.world] at h
  simp only [invoke, e, hl, if_true, Obj.world, h]

theorem invoke_error {E : Env} {fuel : Nat} {F : Fun} {args : List Val} {o o' : Obj} {l l' : List (String × Val)} {e : PyErr}
    (ha : F.args = .none) (hl : args.length = F.params.length)
    (h : exec E F.locals fuel F.body (o.world (F.params.zip args)) = (.error e, o'.world l')) :
    invoke E fuel F args (o.world l) = (.error e, o'.world l) := by
  have e : castArgs E.mode F.args args = .ok args := by rw [ha]; cases args <;> rfl
  simp only [Obj.world] at h
  simp only [invoke, e, hl, if_true, Obj.world, h]

theorem seq_next {E : Env} {types : List (String × Ty)} {fuel : Nat} {a b : Stmt} {w w' : World}
    (h : exec E types fuel a w = (.ok .next, w')) : exec E types fuel (.seq a b) w = exec E types fuel b w' := by
  simp only [exec, M.bind, h]

theorem seq_error {E : Env} {types : List (String × Ty)} {fuel : Nat} {a b : Stmt} {w w' : World} {e : PyErr}
    (h : exec E types fuel a w = (.error e, w')) : exec E types fuel (.seq a b) w = (.error e, w') := by
  simp only [exec, M.bind, h]

theorem ite_true' {E : Env} {types : List (String × Ty)} {fuel : Nat} {c : Expr} {a b : Stmt} {w w' : World} {v : Val}
    (h : eval E c w = (.ok v, w')) (ht : truth v = .ok true) : exec E types fuel (.ite c a b) w = exec E types fuel a w' := by
  simp only [exec, M.bind, h, M.lift, ht, if_true]

theorem ite_false' {E : Env} {types : List (String × Ty)} {fuel : Nat} {c : Expr} {a b : Stmt} {w w' : World} {v : Val}
    (h : eval E c w = (.ok v, w')) (ht : truth v = .ok false) : exec E types fuel (.ite c a b) w = exec E types fuel b w' := by
  simp only [exec, M.bind, h, M.lift, ht]
  rfl

/-- `for x in range(y)` -/
theorem for_range {E : Env} {types : List (String × Ty)} {fuel : Nat} {x y : String} {body : Stmt} {w : World} {k : Nat}
    {n : BitVec k} (h : get y w.locals = some (.sc false k n)) :
    exec E types fuel (.for x (.call "range" (.cons (.var y) .nil)) body) w
      = loop (fun v => (storeLocal E types x v).bind fun _ => exec E types fuel body)
        ((List.range n.toNat).map fun (i : Nat) => literal E.mode i) w := by
  simp only [exec, eval, M.bind, h, M.pure, builtin, if_true, M.lift, range, toInt]
  simp

/-- `for _ in range(...): self.f()` -/
theorem loop_calls {P : Prog} {mode : Mode} {rep : σ → Obj → Prop} {n d : Nat} {f : String} {g : σ → σ} {v : σ → Val}
    (hc : ∀ s, Calls P mode rep n d f [] s (.ok (v s)) (g s)) {fuel depth : Nat} (hn : n ≤ fuel) (hd : d ≤ depth) :
    ∀ (vs : List Val) (o : Obj) (s : σ), rep s o → ∃ o', rep (g^[vs.length] s) o' ∧ ∀ l, ∃ l',
      loop (fun v => (storeLocal ⟨mode, P.globals, P.fieldTypes, run P mode fuel depth⟩ [] "_" v).bind fun _ =>
          exec ⟨mode, P.globals, P.fieldTypes, run P mode fuel depth⟩ [] fuel (.expr (.meth f .nil))) vs (o.world l)
        = (.ok .next, o'.world l')
  | [], o, s, ho => ⟨o, ho, fun l => ⟨l, rfl⟩⟩
  | u :: vs, o, s, ho => by
    obtain ⟨o1, h1, h2⟩ := hc s fuel depth hn hd o ho
    obtain ⟨o2, h3, h4⟩ := loop_calls hc hn hd vs o1 (g s) h1
    refine ⟨o2, h3, fun l => ?_⟩
    obtain ⟨l2, h5⟩ := h4 (put "_" u l)
    refine ⟨l2, ?_⟩
    simp only [Obj.world] at h2
    cases mode <;> simp [py, Obj.world, h2] <;> simpa [py, Obj.world] using h5

/-- `def advance(self, adv): for _ in range(adv): self.f()` -/
theorem advance_calls {P : Prog} {mode : Mode} {rep : σ → Obj → Prop} {n d : Nat} {f name : String} {g : σ → σ} {v : σ → Val}
    (hc : ∀ s, Calls P mode rep n d f [] s (.ok (v s)) (g s)) (x : String)
    (h : get name P.funs = some ⟨[x], .none, .none, [], .for "_" (.call "range" (.cons (.var x) .nil)) (.expr (.meth f .nil)), .none⟩)
    (w : Nat) (adv : BitVec w) (s : σ) :
    Calls P mode rep n (d + 1) name [.sc false w adv] s (.ok .none) (g^[adv.toNat] s) := by
  refine calls_of _ h ?_
  intro fuel depth hn hd o ho
  obtain ⟨o', h1, h2⟩ := loop_calls hc hn hd ((List.range adv.toNat).map fun (i : Nat) => literal mode i) o s ho
  refine ⟨o', by simpa using h1, fun l => ?_⟩
  obtain ⟨l', h3⟩ := h2 [(x, .sc false w adv)]
  simp only [invoke, castArgs, List.length_cons, List.length_nil, if_true, List.zip_cons_cons, List.zip_nil_left, exec, eval,
    builtin, Obj.world, get, M.bind, M.pure, M.lift, range, toInt] at h3 ⊢
  simp [h3]

/-- a loop whose rounds all go on: an invariant of the world and of a state that each round changes -/
theorem loop_inv {body : Val → M Ctl} (R : World → τ → Prop) (g : Val → τ → τ)
    (h : ∀ v w t, R w t → ∃ w', body v w = (.ok .next, w') ∧ R w' (g v t)) :
    ∀ (vs : List Val) (w : World) (t : τ), R w t →
      ∃ w', loop body vs w = (.ok .next, w') ∧ R w' (vs.foldl (fun t v => g v t) t)
  | [], w, t, hR => ⟨w, rfl, hR⟩
  | v :: vs, w, t, hR => by
    obtain ⟨w1, h1, h2⟩ := h v w t hR
    obtain ⟨w2, h3, h4⟩ := loop_inv R g h vs w1 (g v t) h2
    exact ⟨w2, by simp [loop, M.bind, h1, h3], h4⟩

/-- an unsigned 32-bit result of an operation: a 64-bit variable in compiled code -/
def wide (mode : Mode) (x : BitVec 32) : Val :=
  match mode with | .numba => .sc false 64 (x.setWidth 64) | .numpy => .sc false 32 x

theorem umod_wide (x y : BitVec 32) : x.setWidth 64 % y.setWidth 64 = (x % y).setWidth 64 := by
  apply BitVec.eq_of_toNat_eq
  have := x.isLt; have := y.isLt
  simp only [BitVec.toNat_umod, BitVec.toNat_setWidth]
  have : x.toNat % y.toNat ≤ x.toNat := Nat.mod_le _ _
  have e1 : x.toNat % 2 ^ 64 = x.toNat := Nat.mod_eq_of_lt (by omega)
  have e2 : y.toNat % 2 ^ 64 = y.toNat := Nat.mod_eq_of_lt (by omega)
  have e3 : x.toNat % y.toNat % 2 ^ 64 = x.toNat % y.toNat := Nat.mod_eq_of_lt (by omega)
  rw [e1, e2, e3]

theorem wide_eq_zero (x : BitVec 32) : x.setWidth 64 = 0#64 ↔ x = 0#32 := by
  constructor
  · intro h
    have := congrArg BitVec.toNat h
    have hx := x.isLt
    simp only [BitVec.toNat_setWidth, BitVec.toNat_ofNat] at this
    apply BitVec.eq_of_toNat_eq
    rw [Nat.mod_eq_of_lt (show x.toNat < 2 ^ 64 by omega)] at this
    simpa using this
  · rintro rfl; rfl

theorem setWidth_signExtend (a : BitVec 32) : (a.signExtend 64).setWidth 32 = a := by
  refine BitVec.eq_of_getElem_eq fun i hi => ?_
  rw [BitVec.getElem_setWidth, BitVec.getLsbD_signExtend]
  simp [show i < 64 by omega, hi]

theorem sub_narrow (a b : BitVec 32) : (a.signExtend 64 - b.signExtend 64).setWidth 32 = a - b := by
  have h : (a.signExtend 64 - b.signExtend 64).setWidth 32 + b = a := by
    rw [← setWidth_signExtend b, ← BitVec.setWidth_add _ _ (by omega), setWidth_signExtend b, BitVec.sub_add_cancel, setWidth_signExtend]
  rw [← h, BitVec.add_sub_cancel]
  rw [h]

theorem add_narrow (a b : BitVec 32) : (a.setWidth 64 + b.signExtend 64).setWidth 32 = a + b := by
  rw [BitVec.setWidth_add _ _ (by omega), setWidth_signExtend, BitVec.setWidth_setWidth_of_le _ (by omega), BitVec.setWidth_eq]

theorem add_narrow' (a b : BitVec 32) : (a.signExtend 64 + b.signExtend 64).setWidth 32 = a + b := by
  rw [BitVec.setWidth_add _ _ (by omega), setWidth_signExtend, setWidth_signExtend]

/-- multiplication and addition in 64 bits -/
theorem muladd_narrow (a b c : BitVec 32) : (a.setWidth 64 * b.setWidth 64 + c.setWidth 64).setWidth 32 = a * b + c := by
  rw [BitVec.setWidth_add _ _ (by omega), BitVec.setWidth_mul _ _ (by omega)]
  simp

/-- an unsigned 16-bit result of an operation: a 64-bit variable in compiled code -/
def short (mode : Mode) (x : BitVec 16) : Val :=
  match mode with | .numba => .sc false 64 (x.setWidth 64) | .numpy => .sc false 16 x

theorem umod_short (x y : BitVec 16) : x.setWidth 64 % y.setWidth 64 = (x % y).setWidth 64 := by
  apply BitVec.eq_of_toNat_eq
  have := x.isLt; have := y.isLt
  simp only [BitVec.toNat_umod, BitVec.toNat_setWidth]
  have : x.toNat % y.toNat ≤ x.toNat := Nat.mod_le _ _
  have e1 : x.toNat % 2 ^ 64 = x.toNat := Nat.mod_eq_of_lt (by omega)
  have e2 : y.toNat % 2 ^ 64 = y.toNat := Nat.mod_eq_of_lt (by omega)
  have e3 : x.toNat % y.toNat % 2 ^ 64 = x.toNat % y.toNat := Nat.mod_eq_of_lt (by omega)
  rw [e1, e2, e3]

theorem udiv_short (x y : BitVec 16) : x.setWidth 64 / y.setWidth 64 = (x / y).setWidth 64 := by
  apply BitVec.eq_of_toNat_eq
  have := x.isLt; have := y.isLt
  simp only [BitVec.toNat_udiv, BitVec.toNat_setWidth]
  have : x.toNat / y.toNat ≤ x.toNat := Nat.div_le_self _ _
  have e1 : x.toNat % 2 ^ 64 = x.toNat := Nat.mod_eq_of_lt (by omega)
  have e2 : y.toNat % 2 ^ 64 = y.toNat := Nat.mod_eq_of_lt (by omega)
  have e3 : x.toNat / y.toNat % 2 ^ 64 = x.toNat / y.toNat := Nat.mod_eq_of_lt (by omega)
  rw [e1, e2, e3]

theorem short_eq_zero (x : BitVec 16) : x.setWidth 64 = 0#64 ↔ x = 0#16 := by
  constructor
  · intro h
    have := congrArg BitVec.toNat h
    have hx := x.isLt
    simp only [BitVec.toNat_setWidth, BitVec.toNat_ofNat] at this
    apply BitVec.eq_of_toNat_eq
    rw [Nat.mod_eq_of_lt (show x.toNat < 2 ^ 64 by omega)] at this
    simpa using this
  · rintro rfl; rfl

/-- equality of bit vectors, bit by bit -/
macro "bits" : tactic => `(tactic| (
  refine BitVec.eq_of_getElem_eq fun i hi => ?_
  simp (disch := omega) [BitVec.getElem_setWidth, BitVec.getLsbD_setWidth]))

theorem narrow_shr (x : BitVec 32) (n : Nat) : (x.setWidth 64 >>> n).setWidth 32 = x >>> n := by
  apply BitVec.eq_of_toNat_eq
  have h := x.isLt
  have h2 : x.toNat / 2 ^ n ≤ x.toNat := Nat.div_le_self _ _
  simp only [BitVec.toNat_setWidth, BitVec.toNat_ushiftRight, Nat.shiftRight_eq_div_pow]
  rw [Nat.mod_eq_of_lt (show x.toNat < 2 ^ 64 by omega), Nat.mod_eq_of_lt (by omega)]

theorem widen_shr (x : BitVec 32) (n : Nat) : (x >>> n).setWidth 64 = x.setWidth 64 >>> n := by
  apply BitVec.eq_of_toNat_eq
  have h := x.isLt
  have h2 : x.toNat / 2 ^ n ≤ x.toNat := Nat.div_le_self _ _
  simp only [BitVec.toNat_setWidth, BitVec.toNat_ushiftRight, Nat.shiftRight_eq_div_pow]
  rw [Nat.mod_eq_of_lt (show x.toNat < 2 ^ 64 by omega), Nat.mod_eq_of_lt (by omega)]

end Verif.Py
