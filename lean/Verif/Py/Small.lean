import Verif.Py.Area3Slots
/-
Numbers below 2^63 in compiled code, whatever their type.
-/
namespace Verif.Py.Small
open Verif Area3

/-! ### numbers below 2^63 -/

theorem toInt_lt {x : BitVec 64} (h : x.toNat < 2 ^ 63) : x.toInt = x.toNat := BitVec.toInt_eq_toNat_of_lt (by omega)

/-- a value that is the number `n` -/
def Is (v : Val) (n : Nat) : Prop := ∃ s k x, v = .sc s k x ∧ k ≤ 64 ∧ n < 2 ^ 63 ∧ toInt v = some (n : Int)

theorem conv_of {s : Bool} {k : Nat} {x : BitVec k} {n : Nat} (t : Nat) (h : toInt (.sc s k x) = some (n : Int)) :
    conv s t x = BitVec.ofNat t n := by
  simp only [toInt, Option.some.injEq] at h
  cases s
  · simp only [Bool.false_eq_true, if_false, Nat.cast_inj] at h
    subst h
    apply BitVec.eq_of_toNat_eq
    simp [conv]
  · simp only [if_true] at h
    by_cases hk : k < t
    · simp only [conv, Bool.true_and, hk, decide_true, if_true, BitVec.signExtend, h]
      exact BitVec.ofInt_natCast t n
    · simp only [conv, Bool.true_and, hk, decide_false, Bool.false_eq_true, if_false]
      apply BitVec.eq_of_toNat_eq
      have e : x.toNat = n := by
        rw [BitVec.toInt_eq_toNat_cond] at h
        split at h <;> have := x.isLt <;> omega
      simp [e]

/-- a conversion of a number, of any type -/
theorem cast_of {v : Val} {n : Nat} (h : toInt v = some (n : Int)) (t : Ty) : Py.cast t v = .ok (.sc t.signed t.width (BitVec.ofNat t.width n)) := by
  cases v with
  | sc s k x => simp only [Py.cast, conv_of _ h]
  | int i =>
    simp only [toInt, Option.some.injEq] at h
    subst h
    rw [Py.cast, BitVec.ofInt_natCast]
  | bool b =>
    simp only [toInt, Option.some.injEq] at h
    cases b
    · obtain rfl : n = 0 := by simpa using h.symm
      rfl
    · obtain rfl : n = 1 := by simp at h; omega
      rfl
  | _ => simp [toInt] at h

theorem Is.cast {v : Val} {n : Nat} (h : Is v n) (t : Ty) : Py.cast t v = .ok (.sc t.signed t.width (BitVec.ofNat t.width n)) := by
  obtain ⟨s, k, x, rfl, -, -, h⟩ := h
  simp only [Py.cast, conv_of _ h]

theorem Is.mk {n : Nat} (s : Bool) (h : n < 2 ^ 63) : Is (.sc s 64 (BitVec.ofNat 64 n)) n := by
  refine ⟨s, 64, _, rfl, le_refl _, h, ?_⟩
  have e : (BitVec.ofNat 64 n).toNat = n := by rw [BitVec.toNat_ofNat]; omega
  cases s
  · simp [toInt, e]
  · simp only [toInt, if_true]; rw [toInt_lt (by omega), e]

theorem Is.uint {k : Nat} (x : BitVec k) (h : k ≤ 63) : Is (.sc false k x) x.toNat := by
  refine ⟨false, k, x, rfl, by omega, Nat.lt_of_lt_of_le x.isLt (Nat.pow_le_pow_right (by omega) h), rfl⟩

theorem Is.byte {n : Nat} (h : n < 256) : Is (.sc false 8 (BitVec.ofNat 8 n)) n := by
  have e : (BitVec.ofNat 8 n).toNat = n := by rw [BitVec.toNat_ofNat]; omega
  have := Is.uint (BitVec.ofNat 8 n) (by decide)
  rwa [e] at this

theorem Is.toInt {v : Val} {n : Nat} (h : Is v n) : Py.toInt v = some (n : Int) := by
  obtain ⟨s, k, x, rfl, -, -, h⟩ := h
  exact h

theorem Is.lt {v : Val} {n : Nat} (h : Is v n) : n < 2 ^ 63 := by
  obtain ⟨s, k, x, -, -, h, -⟩ := h
  exact h

theorem Is.lit (n : Nat) (h : n < 2 ^ 63) : Is (literal .numba (n : Int)) n := by
  rw [literal, BitVec.ofInt_natCast]
  exact .mk true h

/-- operations that are not shifts -/
theorem Is.arith {a b : Val} {m n r : Nat} {op : BinOp} (ha : Is a m) (hb : Is b n) (hr : r < 2 ^ 63) (ho : isShift op = false)
    (h : ∀ s, Py.arith .numba op s (BitVec.ofNat 64 m) (BitVec.ofNat 64 n) = .ok (BitVec.ofNat 64 r)) :
    ∃ v, binop .numba op a b = .ok v ∧ Is v r := by
  obtain ⟨s, k, x, rfl, -, -, ha⟩ := ha
  obtain ⟨s', k', x', rfl, -, -, hb⟩ := hb
  refine ⟨_, ?_, .mk (s || s') hr⟩
  simp only [binop, numbaBin, ho, Bool.false_eq_true, if_false, conv_of _ ha, conv_of _ hb, h, Except.map]

theorem ofNat_ne {n : Nat} (h : n < 2 ^ 63) (h0 : n ≠ 0) : ¬ BitVec.ofNat 64 n = 0 := by
  intro e
  have := congrArg BitVec.toNat e
  rw [BitVec.toNat_ofNat] at this
  simp at this
  omega

theorem ofNat_toInt {n : Nat} (h : n < 2 ^ 63) : (BitVec.ofNat 64 n).toInt = n := by
  rw [toInt_lt (by rw [BitVec.toNat_ofNat]; omega), BitVec.toNat_ofNat]
  omega

theorem Is.add {a b : Val} {m n : Nat} (ha : Is a m) (hb : Is b n) (hr : m + n < 2 ^ 63) : ∃ v, binop .numba .add a b = .ok v ∧ Is v (m + n) :=
  ha.arith hb hr rfl fun _ => by rw [Py.arith, BitVec.ofNat_add]

theorem Is.mul {a b : Val} {m n : Nat} (ha : Is a m) (hb : Is b n) (hr : m * n < 2 ^ 63) : ∃ v, binop .numba .mul a b = .ok v ∧ Is v (m * n) :=
  ha.arith hb hr rfl fun _ => by rw [Py.arith, BitVec.ofNat_mul]

theorem Is.and {a b : Val} {m n : Nat} (ha : Is a m) (hb : Is b n) : ∃ v, binop .numba .and a b = .ok v ∧ Is v (m &&& n) :=
  ha.arith hb (lt_of_le_of_lt Nat.and_le_left ha.lt) rfl fun _ => by rw [Py.arith, BitVec.ofNat_and]

theorem Is.or {a b : Val} {m n : Nat} (ha : Is a m) (hb : Is b n) : ∃ v, binop .numba .or a b = .ok v ∧ Is v (m ||| n) :=
  ha.arith hb (Nat.or_lt_two_pow ha.lt hb.lt) rfl fun _ => by rw [Py.arith, BitVec.ofNat_or]

theorem Is.floordiv {a b : Val} {m n : Nat} (ha : Is a m) (hb : Is b n) (h0 : n ≠ 0) :
    ∃ v, binop .numba .floordiv a b = .ok v ∧ Is v (m / n) :=
  ha.arith hb (lt_of_le_of_lt (Nat.div_le_self _ _) ha.lt) rfl fun s => by
    have h1 := ha.lt
    have h2 := hb.lt
    have h3 : m / n ≤ m := Nat.div_le_self _ _
    rw [Py.arith, if_neg (ofNat_ne hb.lt h0)]
    cases s
    · simp only [Bool.false_eq_true, if_false, Except.ok.injEq]
      apply BitVec.eq_of_toNat_eq
      rw [BitVec.toNat_udiv, BitVec.toNat_ofNat, BitVec.toNat_ofNat, BitVec.toNat_ofNat, Nat.mod_eq_of_lt (by omega), Nat.mod_eq_of_lt (by omega),
        Nat.mod_eq_of_lt (by omega)]
    · simp only [if_true, ofNat_toInt ha.lt, ofNat_toInt hb.lt, Except.ok.injEq]
      rw [Int.fdiv_eq_ediv_of_nonneg _ (by omega), ← Int.natCast_div, BitVec.ofInt_natCast]

theorem Is.mod {a b : Val} {m n : Nat} (ha : Is a m) (hb : Is b n) (h0 : n ≠ 0) : ∃ v, binop .numba .mod a b = .ok v ∧ Is v (m % n) :=
  ha.arith hb (lt_of_le_of_lt (Nat.mod_le _ _) ha.lt) rfl fun s => by
    have h1 := ha.lt
    have h2 := hb.lt
    have h3 : m % n ≤ m := Nat.mod_le _ _
    rw [Py.arith, if_neg (ofNat_ne hb.lt h0)]
    cases s
    · simp only [Bool.false_eq_true, if_false, Except.ok.injEq]
      apply BitVec.eq_of_toNat_eq
      rw [BitVec.toNat_umod, BitVec.toNat_ofNat, BitVec.toNat_ofNat, BitVec.toNat_ofNat, Nat.mod_eq_of_lt (show m < 2 ^ 64 by omega),
        Nat.mod_eq_of_lt (show n < 2 ^ 64 by omega), Nat.mod_eq_of_lt (show m % n < 2 ^ 64 by omega)]
    · simp only [if_true, ofNat_toInt ha.lt, ofNat_toInt hb.lt, Except.ok.injEq]
      rw [Int.fmod_eq_emod_of_nonneg _ (by omega), ← Int.natCast_emod, BitVec.ofInt_natCast]

theorem Is.shl {a b : Val} {m n : Nat} (ha : Is a m) (hb : Is b n) (hn : n < 64) (hr : m * 2 ^ n < 2 ^ 63) :
    ∃ v, binop .numba .shl a b = .ok v ∧ Is v (m * 2 ^ n) := by
  obtain ⟨s, k, x, rfl, -, -, ha⟩ := ha
  obtain ⟨s', k', x', rfl, -, -, hb⟩ := hb
  refine ⟨_, ?_, .mk s hr⟩
  have e : (BitVec.ofNat 64 n).toNat = n := by rw [BitVec.toNat_ofNat]; omega
  have e2 : BitVec.ofNat 64 m <<< n = BitVec.ofNat 64 (m * 2 ^ n) := by
    apply BitVec.eq_of_toNat_eq
    rw [BitVec.toNat_shiftLeft, BitVec.toNat_ofNat, BitVec.toNat_ofNat, Nat.shiftLeft_eq]
    simp
  simp only [binop, numbaBin, isShift, if_true, conv_of _ ha, conv_of _ hb, e, shift, hn, e2, Except.map]

theorem Is.shr {a b : Val} {m n : Nat} (ha : Is a m) (hb : Is b n) (hn : n < 64) : ∃ v, binop .numba .shr a b = .ok v ∧ Is v (m / 2 ^ n) := by
  have hm := ha.lt
  have hr : m / 2 ^ n ≤ m := Nat.div_le_self _ _
  obtain ⟨s, k, x, rfl, -, -, ha⟩ := ha
  obtain ⟨s', k', x', rfl, -, -, hb⟩ := hb
  refine ⟨_, ?_, .mk s (show m / 2 ^ n < 2 ^ 63 by omega)⟩
  have e : (BitVec.ofNat 64 n).toNat = n := by rw [BitVec.toNat_ofNat]; omega
  have e1 : (BitVec.ofNat 64 m).toNat = m := by rw [BitVec.toNat_ofNat]; omega
  have e2 : BitVec.ofNat 64 m >>> n = BitVec.ofNat 64 (m / 2 ^ n) := by
    apply BitVec.eq_of_toNat_eq
    rw [BitVec.toNat_ushiftRight, e1, BitVec.toNat_ofNat, Nat.shiftRight_eq_div_pow, Nat.mod_eq_of_lt (by omega)]
  simp only [binop, numbaBin, isShift, if_true, conv_of _ ha, conv_of _ hb, e, shift, hn, Util.sshiftRight_small _ n (by rw [e1]; exact hm), e2, ite_self, Except.map]

/-! ### expressions -/

/-- the expression is a number and has no effects -/
def Ev (E : Env) (e : Expr) (w : World) (n : Nat) : Prop := ∃ v, eval E e w = (.ok v, w) ∧ Is v n

variable {E : Env} {w : World} {fuel : Nat}

theorem Ev.num (hm : E.mode = .numba) (k : Int) (n : Nat) (h : k = n) (hn : n < 2 ^ 63) : Ev E (.num k) w n :=
  ⟨_, rfl, by rw [hm, h]; exact .lit n hn⟩

theorem Ev.var {x : String} {n : Nat} (h : ∃ v, get x w.locals = some v ∧ Is v n) : Ev E (.var x) w n := by
  obtain ⟨v, h1, h2⟩ := h
  exact ⟨v, by simp only [eval, h1], h2⟩

theorem Ev.self {x : String} {v : Val} {n : Nat} (h : get x w.fields = some v) (hv : Is v n) : Ev E (.self x) w n :=
  ⟨v, by simp only [eval, h], hv⟩

theorem Ev.bin {op : BinOp} {a b : Expr} {m n r : Nat} (hm : E.mode = .numba) (ha : Ev E a w m) (hb : Ev E b w n)
    (h : ∀ x y, Is x m → Is y n → ∃ v, binop .numba op x y = .ok v ∧ Is v r) : Ev E (.bin op a b) w r := by
  obtain ⟨x, h1, h2⟩ := ha
  obtain ⟨y, h3, h4⟩ := hb
  obtain ⟨v, h5, h6⟩ := h x y h2 h4
  exact ⟨v, by simp only [eval, M.bind, h1, h3, M.lift, hm, h5], h6⟩

theorem Ev.tup {a i : Expr} {k n : Nat} {vs : List Val} {u : Val} (ha : eval E a w = (.ok (.tup vs), w)) (hi : Ev E i w k) (hu : vs[k]? = some u)
    (hn : Is u n) : Ev E (.item a i) w n := by
  obtain ⟨v, h1, h2⟩ := hi
  have hk : k < vs.length := (List.getElem?_eq_some_iff.1 hu).1
  exact ⟨u, by simp only [eval, M.bind, ha, h1, loadItem, position_nat h2.toInt, if_pos hk, Except.bind, hu], hn⟩

theorem Ev.arr {a i : Expr} {k : Nat} {x : String} {m : Nat → BitVec 8} (ha : eval E a w = (.ok (.arr x), w)) (hx : get x w.arrays = some (.w8 6 m))
    (hi : Ev E i w k) (hk : k < 6) : Ev E (.item a i) w (m k).toNat := by
  obtain ⟨v, h1, h2⟩ := hi
  exact ⟨.sc false 8 (m k), by
    simp only [eval, M.bind, ha, h1, loadItem, hx, Arr.len, position_nat h2.toInt, if_pos hk, Except.map, Arr.load], .uint _ (by decide)⟩

theorem assign_var {x : String} {e : Expr} {v : Val} (h : eval E e w = (.ok v, w)) :
    exec E [] fuel (.assign (.var x) e) w = (.ok .next, ⟨put x v w.locals, w.fields, w.arrays⟩) := by
  simp only [exec, M.bind, h, store, storeLocal_nil, M.pure]

theorem aug_var {x : String} {e : Expr} {op : BinOp} {a b v : Val} (hm : E.mode = .numba) (hx : get x w.locals = some a)
    (h : eval E e w = (.ok b, w)) (hv : binop .numba op a b = .ok v) :
    exec E [] fuel (.aug op (.var x) e) w = (.ok .next, ⟨put x v w.locals, w.fields, w.arrays⟩) := by
  simp only [exec, M.bind, eval, hx, h, M.lift, hm, hv, store, storeLocal_nil, M.pure]

theorem assign_field {x : String} {e : Expr} {v : Val} {t : Ty} {n : Nat} (hm : E.mode = .numba) (ht : get x E.fieldTypes = some t)
    (h : eval E e w = (.ok v, w)) (hv : cast t v = .ok (.sc t.signed t.width (BitVec.ofNat t.width n))) :
    exec E [] fuel (.assign (.self x) e) w
      = (.ok .next, ⟨w.locals, put x (.sc t.signed t.width (BitVec.ofNat t.width n)) w.fields, w.arrays⟩) := by
  simp only [exec, M.bind, h, store, storeField, hm, ht, hv, M.pure]

/-- a loaded number in a changed set of variables -/
theorem Ev.put {x : String} {v : Val} {n : Nat} {l : List (String × Val)} {f : List (String × Val)} {a : List (String × Arr)} (h : Is v n) :
    Ev E (.var x) ⟨Py.put x v l, f, a⟩ n := .var ⟨v, by rw [get_put, if_pos rfl], h⟩


end Verif.Py.Small
