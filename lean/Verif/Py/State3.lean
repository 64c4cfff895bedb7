import Verif.Py.Wild3Call
import Verif.Py.Small
import Verif.Py.ComputeStat
import Verif.Props.State3
/-
C133 for gen3/state.py: `update_stats` and `GeneratorState.__init__`. Compiled code only.

The variables `hidden_power_val` and `hidden_power_strength_value` are `uint8` before
the loop and `int64` after it, so they are `int64` in compiled code; they are 0 when they are `uint8`, and every operation on them has
an `int64` as its other operand.
-/
namespace Verif.Py.State3
open Verif Gen3 Area3 Sha1 Wild3 Small

/-! ### the program -/

/-- `np.empty(n, np.uint16)`: a new array; its contents can be anything -/
def empty16 (junk : Nat → BitVec 16) (args : List Val) : M Val := fun w =>
  match args with
  | [n] =>
    match toInt n with
    | some n => (.ok (.arr (fresh w.arrays)), { w with arrays := put (fresh w.arrays) (.w16 n.toNat junk) w.arrays })
    | .none => (.error .typeError, w)
  | _ => (.error .typeError, w)

/-- `a[:] = b` for arrays of the same length -/
def copyAll (args : List Val) : M Val := fun w =>
  match args with
  | [.arr a, .arr b] =>
    match get a w.arrays, get b w.arrays with
    | some (.w8 la _), some (.w8 lb mb) =>
      if la = lb then (.ok .none, { w with arrays := put a (.w8 la mb) w.arrays }) else (.error .valueError, w)
    | _, _ => (.error .typeError, w)
  | _ => (.error .typeError, w)

/-- `a / b` of integers: both are converted to doubles -/
def trueDiv : List Val → M Val
  | [a, b] =>
    match toInt a, toInt b with
    | some a, some b => if b = 0 then M.fail .zeroDivision else M.pure (.flt (Fp.rnd 53 (Fp.rnd 53 a / Fp.rnd 53 b)))
    | _, _ => M.fail .typeError
  | _ => M.fail .typeError

/-- `gen3/state.py:12-14` and `NATURE_MODIFIERS` of util.py -/
def globals : List (String × Val) :=
  [("ORDER", .tup ([0, 1, 2, 5, 3, 4].map fun k => .sc false 8 (BitVec.ofNat 8 k))),
   ("CHAR_ORDER", .tup ([0, 1, 2, 3, 4, 5, 0, 1, 2, 3, 4].map fun k => .sc false 8 (BitVec.ofNat 8 k))),
   ("NATURE_MODIFIERS", ComputeStat.natureTable)]

/-- `gen3/state.py:20-33, 77` -/
def fieldTypes : List (String × Ty) :=
  [("advance", u32), ("pid", u32), ("species", u16), ("form", u8), ("ability_index", u16), ("ability", u8), ("characteristic", u8),
   ("gender", u8), ("hidden_power", u8), ("hidden_power_strength", u8), ("level", u8), ("nature", u8), ("shiny", u8)]

/-- gen3/state.py, `compute_stat` of util.py and `get_gender` of gen3/util.py; `junk` is what new arrays contain -/
def prog (junk8 : Nat → BitVec 8) (junk16 : Nat → BitVec 16) : Prog where
  funs := [("__init__", Source.GeneratorState.__init__), ("update_stats", Source.State.update_stats), ("get_gender", Source.get_gender),
    ("compute_stat", Source.compute_stat)]
  globals := globals
  fieldTypes := fieldTypes
  given := [("np.float32", toF32), ("np.empty.uint8", empty8 junk8), ("np.empty.uint16", empty16 junk16), ("[:]=", copyAll),
    ("/", trueDiv)]

/-- the attributes of a state whose arrays `ivs` and `stats` have these names -/
def fieldsOf (s : State) (ivs stats : String) : List (String × Val) :=
  [("advance", .sc false 32 s.advance), ("pid", .sc false 32 s.pid), ("species", .sc false 16 s.species), ("form", .sc false 8 s.form),
   ("ivs", .arr ivs), ("ability", .sc false 8 s.ability), ("ability_index", .sc false 16 s.abilityIndex), ("level", .sc false 8 s.level),
   ("shiny", .sc false 8 s.shiny), ("stats", .arr stats), ("gender", .sc false 8 s.gender), ("nature", .sc false 8 s.nature),
   ("hidden_power", .sc false 8 s.hiddenPower), ("hidden_power_strength", .sc false 8 (BitVec.ofInt 8 ⌊s.hiddenPowerStrength⌋)),
   ("characteristic", .sc false 8 s.characteristic)]

variable {E : Env} {w : World} {fuel : Nat}

/-! ### the loop of `update_stats` -/

/-- what the calls do -/
structure EnvS (E : Env) : Prop where
  mode : E.mode = .numba
  globals : E.globals = globals
  fieldTypes : E.fieldTypes = fieldTypes
  compute_stat : ∀ a b c x y z w, cast u16 a = .ok (.sc false 16 x) → cast u8 b = .ok (.sc false 8 y) → cast u8 c = .ok (.sc false 8 z) →
    E.call "compute_stat" [a, b, c] w = ((Stat.computeStat x y.toNat z.toNat).map (.sc false 16), w)
  div : E.call "/" = trueDiv
  get_gender : ∀ pid r w, E.call "get_gender" [.sc false 32 pid, .sc false 8 r] w = (.ok (.sc false 8 (getGender pid r)), w)

/-- lines 54-66 -/
def round : Stmt :=
  (.seq
   (.aug .add (.var "hidden_power_val") (.bin .shl (.bin .and (.item (.self "ivs") (.item (.var "ORDER") (.var "i"))) (.num 1)) (.var "i")))
  (.seq
   (.aug .add (.var "hidden_power_strength_value") (.bin .shl (.bin .and (.bin .shr (.item (.self "ivs") (.item (.var "ORDER") (.var "i"))) (.num 1)) (.num 1)) (.var "i")))
  (.seq
   (.assign (.var "stat") (.cast u16 (.bin .floordiv (.bin .mul (.bin .add (.bin .mul (.num 2) (.item (.var "base_stats") (.var "i"))) (.item (.self "ivs") (.var "i"))) (.self "level")) (.num 0x64))))
  (.seq
   (.ite (.cmp .eq (.var "i") (.num 0))
    (.assign (.item (.self "stats") (.var "i")) (.bin .add (.bin .add (.var "stat") (.self "level")) (.num 0xA)))
    (.assign (.item (.self "stats") (.var "i")) (.call "compute_stat" (.cons (.bin .add (.var "stat") (.num 5)) (.cons (.self "nature") (.cons (.var "i") .nil))))))
  (.seq
   (.assign (.var "index") (.item (.var "CHAR_ORDER") (.bin .add (.var "ec_index") (.var "i"))))
  (.ite (.cmp .gt (.item (.self "ivs") (.item (.var "ORDER") (.var "index"))) (.var "max_iv"))
   (.seq
    (.assign (.var "char_index") (.var "index"))
   (.assign (.var "max_iv") (.item (.self "ivs") (.item (.var "ORDER") (.var "index")))))
   .pass))))))

/-- the first `k` bits -/
def bits (f : Nat → Nat) : Nat → Nat
  | 0 => 0
  | k + 1 => bits f k + f k * 2 ^ k

theorem bits_six (f : Nat → Nat) : bits f 6 = bitSum f := by
  simp [bits, bitSum]

theorem bits_lt (f : Nat → Nat) (hf : ∀ p, f p < 2) : ∀ k, bits f k < 2 ^ k
  | 0 => by simp [bits]
  | k + 1 => by
    have h1 := bits_lt f hf k
    have h2 := hf k
    have h3 : f k * 2 ^ k ≤ 1 * 2 ^ k := Nat.mul_le_mul_right _ (by omega)
    rw [bits, pow_succ]
    omega

/-- the variables, the attributes and the arrays after `k` rounds; `A` are the arrays before -/
structure Inv (info : Personal) (m : Nat → BitVec 8) (level : BitVec 8) (nature ec : Nat) (xi xs : String) (fields : List (String × Val))
    (A : List (String × Arr)) (k : Nat) (w : World) : Prop where
  hpv : ∃ v, get "hidden_power_val" w.locals = some v ∧ Is v (bits (fun p => posIv (Vector.ofFn fun i : Fin 6 => m i) p % 2) k)
  hsv : ∃ v, get "hidden_power_strength_value" w.locals = some v ∧ Is v (bits (fun p => posIv (Vector.ofFn fun i : Fin 6 => m i) p / 2 % 2) k)
  ecv : ∃ v, get "ec_index" w.locals = some v ∧ Is v ec
  chr : ∃ v, get "char_index" w.locals = some v ∧ Is v (charLoop (fun d => posIv (Vector.ofFn fun i : Fin 6 => m i) ((ec + d) % 6)) ec k).1
  mx : ∃ v, get "max_iv" w.locals = some v ∧ Is v (charLoop (fun d => posIv (Vector.ofFn fun i : Fin 6 => m i) ((ec + d) % 6)) ec k).2
  base : get "base_stats" w.locals = some (.tup ((baseStats info).toList.map (.sc false 8)))
  order : get "ORDER" w.locals = none
  charOrder : get "CHAR_ORDER" w.locals = none
  fields : w.fields = fields
  arrays : ∃ f, w.arrays = put xs (.w16 6 f) A ∧ ∀ j : Fin 6, j.val < k → f j = BitVec.ofNat 16 (storedStat info (Vector.ofFn fun i : Fin 6 => m i) level nature j)

theorem order_item {m : Nat → BitVec 8} {xi : String} {i : Expr} {p : Nat} (hE : EnvS E) (hx : get xi w.arrays = some (.w8 6 m))
    (ho : get "ORDER" w.locals = none) (hf : get "ivs" w.fields = some (.arr xi)) (hi : Ev E i w p) (hp : p < 6) :
    Ev E (.item (.self "ivs") (.item (.var "ORDER") i)) w (posIv (Vector.ofFn fun i : Fin 6 => m i) p) := by
  have h1 : eval E (.self "ivs") w = (.ok (.arr xi), w) := by simp only [eval, hf]
  have h2 : eval E (.var "ORDER") w = (.ok (.tup ([0, 1, 2, 5, 3, 4].map fun k => .sc false 8 (BitVec.ofNat 8 k))), w) := by
    simp only [eval, ho, hE.globals, globals, get]
    rfl
  have h3 (q : Nat) (hq : q < 6) (hl : ([0, 1, 2, 5, 3, 4] : List Nat)[p]? = some q) (he : posIv (Vector.ofFn fun i : Fin 6 => m i) p = (m q).toNat) :
      Ev E (.item (.self "ivs") (.item (.var "ORDER") i)) w (posIv (Vector.ofFn fun i : Fin 6 => m i) p) := by
    rw [he]
    refine .arr h1 hx (.tup h2 hi (by rw [List.getElem?_map, hl]; rfl) ?_) hq
    have := Is.uint (BitVec.ofNat 8 q) (by decide)
    rwa [BitVec.toNat_ofNat, Nat.mod_eq_of_lt (by omega)] at this
  interval_cases p
  · exact h3 0 (by decide) rfl (by simp [posIv, ORDER])
  · exact h3 1 (by decide) rfl (by simp [posIv, ORDER])
  · exact h3 2 (by decide) rfl (by simp [posIv, ORDER])
  · exact h3 5 (by decide) rfl (by simp [posIv, ORDER])
  · exact h3 3 (by decide) rfl (by simp [posIv, ORDER])
  · exact h3 4 (by decide) rfl (by simp [posIv, ORDER])

theorem base_get (info : Personal) (i : Fin 6) :
    ((baseStats info).toList.map (Val.sc false 8))[i.val]? = some (.sc false 8 (baseStats info)[i]) := by
  obtain ⟨i, hi⟩ := i
  interval_cases i <;> rfl

theorem builtin_call {f : String} (h1 : f ≠ "range") (h2 : f ≠ "ord") (args : List Val) : builtin E f args = E.call f args := by
  simp only [builtin, if_neg h1, if_neg h2]

/-- a store into the array `stats` -/
theorem store_stat {e : Expr} {v u : Val} {i n : Nat} {xs : String} {f : Nat → BitVec 16} (hi : get "i" w.locals = some u) (hu : Is u i) (h6 : i < 6)
    (hs : get "stats" w.fields = some (.arr xs)) (hx : get xs w.arrays = some (.w16 6 f)) (h : eval E e w = (.ok v, w))
    (hv : cast u16 v = .ok (.sc false 16 (BitVec.ofNat 16 n))) :
    exec E [] fuel (.assign (.item (.self "stats") (.var "i")) e) w
      = (.ok .next, ⟨w.locals, w.fields, Py.put xs (.w16 6 fun j => if j = i then BitVec.ofNat 16 n else f j) w.arrays⟩) := by
  simp only [exec, M.bind, h, store, eval, hs, hi, storeItem, hx, Arr.len, position_nat hu.toInt, if_pos h6, Arr.store, hv, M.pure, BitVec.setWidth_eq]

theorem charLoop_fst_lt (f : Nat → Nat) (start : Nat) (hs : start < 6) : ∀ k, (charLoop f start k).1 < 6
  | 0 => hs
  | k + 1 => by
    rw [charLoop, charStep]
    split
    · exact Nat.mod_lt _ (by decide)
    · exact charLoop_fst_lt f start hs k

/-- one round -/
theorem round_exec (hE : EnvS E) {info : Personal} {m : Nat → BitVec 8} {level : BitVec 8} {nature ec : Nat} {xi xs : String}
    {fields : List (String × Val)} {A : List (String × Arr)} (hn : nature < 25) (hec : ec < 6) (hfi : get "ivs" fields = some (.arr xi))
    (hfs : get "stats" fields = some (.arr xs)) (hfl : get "level" fields = some (.sc false 8 level))
    (hfn : get "nature" fields = some (.sc false 8 (BitVec.ofNat 8 nature))) (hne : xs ≠ xi) (hA : get xi A = some (.w8 6 m)) (i : Fin 6)
    (hw : Inv info m level nature ec xi xs fields A i w) :
    ∃ w', exec E [] fuel round ⟨Py.put "i" (literal .numba (i.val : Int)) w.locals, w.fields, w.arrays⟩ = (.ok .next, w')
      ∧ Inv info m level nature ec xi xs fields A (i + 1) w' := by
  obtain ⟨⟨v1, hpv, hpv'⟩, ⟨v2, hsv, hsv'⟩, ⟨v3, hecv, hecv'⟩, ⟨v4, hchr, hchr'⟩, ⟨v5, hmx, hmx'⟩, hbase, ho, hc, hf, f, ha, hst⟩ := hw
  have hi6 := i.isLt
  have hlit : Is (literal .numba (i.val : Int)) i.val := .lit _ (by omega)
  have hm := hE.mode
  have hivs (l : List (String × Val)) : get xi (⟨l, fields, Py.put xs (.w16 6 f) A⟩ : World).arrays = some (.w8 6 m) := by
    rw [get_put, if_neg hne, hA]
  obtain ⟨wl, wf, wa⟩ := w
  simp only at hpv hsv hecv hchr hmx hbase ho hc hf ha ⊢
  subst hf ha
  generalize hI : Vector.ofFn (fun i : Fin 6 => m i) = ivs at hpv' hsv' hchr' hmx' hst
  have hp1 (p : Nat) := posIv_lt ivs p
  -- line 54
  obtain ⟨b1, e1, i1⟩ : Ev E (.bin .shl (.bin .and (.item (.self "ivs") (.item (.var "ORDER") (.var "i"))) (.num 1)) (.var "i"))
      ⟨Py.put "i" (literal .numba (i.val : Int)) wl, wf, Py.put xs (.w16 6 f) A⟩ (posIv ivs i % 2 * 2 ^ i.val) := by
    refine .bin hm (.bin hm (order_item hE (hivs _) (by rw [get_put, if_neg (by decide), ho]) hfi (.put hlit) hi6) (.num hm 1 1 rfl (by decide))
      (r := posIv ivs i % 2) fun x y hx hy => ?_) (.put hlit) fun x y hx hy => hx.shl hy (by omega) ?_
    · rw [hI] at hx; have := hx.and hy; rwa [Nat.and_one_is_mod] at this
    · have h1 : posIv ivs i % 2 * 2 ^ i.val ≤ 1 * 2 ^ 6 := Nat.mul_le_mul (by omega) (Nat.pow_le_pow_right (by decide) (by omega))
      omega
  obtain ⟨u1, a1, j1⟩ := hpv'.add i1 (by
    have h1 := bits_lt (fun p => posIv ivs p % 2) (fun p => by omega) (i + 1)
    have h2 : 2 ^ (i.val + 1) ≤ 2 ^ 6 := Nat.pow_le_pow_right (by decide) (by omega)
    rw [bits] at h1
    omega)
  -- line 55
  obtain ⟨b2, e2, i2⟩ : Ev E (.bin .shl (.bin .and (.bin .shr (.item (.self "ivs") (.item (.var "ORDER") (.var "i"))) (.num 1)) (.num 1)) (.var "i"))
      ⟨Py.put "hidden_power_val" u1 (Py.put "i" (literal .numba (i.val : Int)) wl), wf, Py.put xs (.w16 6 f) A⟩ (posIv ivs i / 2 % 2 * 2 ^ i.val) := by
    have hv : Ev E (.var "i") ⟨Py.put "hidden_power_val" u1 (Py.put "i" (literal .numba (i.val : Int)) wl), wf, Py.put xs (.w16 6 f) A⟩ i :=
      .var ⟨_, by rw [get_put, if_neg (by decide), get_put, if_pos rfl], hlit⟩
    refine .bin hm (.bin hm (.bin hm (order_item hE (hivs _) (by rw [get_put, if_neg (by decide), get_put, if_neg (by decide), ho]) hfi hv hi6)
      (.num hm 1 1 rfl (by decide)) (r := posIv ivs i / 2) fun x y hx hy => ?_) (.num hm 1 1 rfl (by decide))
      (r := posIv ivs i / 2 % 2) fun x y hx hy => ?_) hv fun x y hx hy => hx.shl hy (by omega) ?_
    · rw [hI] at hx; exact hx.shr hy (by decide)
    · have := hx.and hy; rwa [Nat.and_one_is_mod] at this
    · have h1 : posIv ivs i / 2 % 2 * 2 ^ i.val ≤ 1 * 2 ^ 6 := Nat.mul_le_mul (by omega) (Nat.pow_le_pow_right (by decide) (by omega))
      omega
  obtain ⟨u2, a2, j2⟩ := hsv'.add i2 (by
    have h1 := bits_lt (fun p => posIv ivs p / 2 % 2) (fun p => by omega) (i + 1)
    have h2 : 2 ^ (i.val + 1) ≤ 2 ^ 6 := Nat.pow_le_pow_right (by decide) (by omega)
    rw [bits] at h1
    omega)
  -- line 57
  have hraw := raw_le (baseStats info)[i] ivs[i] level
  obtain ⟨raw, hr⟩ : ∃ raw, (2 * (baseStats info)[i].toNat + ivs[i].toNat) * level.toNat / 100 = raw := ⟨_, rfl⟩
  rw [hr] at hraw
  generalize hl2 : Py.put "hidden_power_strength_value" u2 (Py.put "hidden_power_val" u1 (Py.put "i" (literal .numba (i.val : Int)) wl)) = l2
  have g2 (x : String) (h1 : "hidden_power_strength_value" ≠ x) (h2 : "hidden_power_val" ≠ x) (h3 : "i" ≠ x) : get x l2 = get x wl := by
    rw [← hl2, get_put, if_neg h1, get_put, if_neg h2, get_put, if_neg h3]
  have gi : get "i" l2 = some (literal .numba (i.val : Int)) := by
    rw [← hl2, get_put, if_neg (by decide), get_put, if_neg (by decide), get_put, if_pos rfl]
  have g1 : get "hidden_power_val" l2 = some u1 := by rw [← hl2, get_put, if_neg (by decide), get_put, if_pos rfl]
  have gs : get "hidden_power_strength_value" l2 = some u2 := by rw [← hl2, get_put, if_pos rfl]
  obtain ⟨b3, e3, i3⟩ : Ev E (.bin .floordiv (.bin .mul (.bin .add (.bin .mul (.num 2) (.item (.var "base_stats") (.var "i"))) (.item (.self "ivs") (.var "i"))) (.self "level")) (.num 0x64))
      ⟨l2, wf, Py.put xs (.w16 6 f) A⟩ raw := by
    have hv : Ev E (.var "i") ⟨l2, wf, Py.put xs (.w16 6 f) A⟩ i := .var ⟨_, gi, hlit⟩
    have hb := (baseStats info)[i].isLt
    have hq := ivs[i].isLt
    have hlv := level.isLt
    have hmi : (m i.val).toNat = ivs[i].toNat := by rw [← hI]; simp
    refine .bin hm (.bin hm (.bin hm (.bin hm (.num hm 2 2 rfl (by decide)) (.tup (vs := (baseStats info).toList.map (.sc false 8)) ?_ hv (base_get info i) (.uint _ (by decide)))
      fun x y hx hy => hx.mul hy (by omega)) (.arr (by simp only [eval, hfi]) (hivs _) hv hi6) fun x y hx hy => hx.add hy (by omega))
      (.self hfl (.uint _ (by decide))) fun x y hx hy => hx.mul hy ?_) (.num hm 0x64 100 rfl (by decide)) fun x y hx hy => ?_
    · simp only [eval, g2 "base_stats" (by decide) (by decide) (by decide), hbase]
    · have : (2 * (baseStats info)[i].toNat + (m i.val).toNat) * level.toNat ≤ 765 * 255 := Nat.mul_le_mul (by omega) (by omega)
      omega
    · rw [← hr, ← hmi]; exact hx.floordiv hy (by decide)
  have e3' : eval E (.cast u16 (.bin .floordiv (.bin .mul (.bin .add (.bin .mul (.num 2) (.item (.var "base_stats") (.var "i"))) (.item (.self "ivs") (.var "i"))) (.self "level")) (.num 0x64)))
      ⟨l2, wf, Py.put xs (.w16 6 f) A⟩ = (.ok (.sc false 16 (BitVec.ofNat 16 raw)), ⟨l2, wf, Py.put xs (.w16 6 f) A⟩) := by
    rw [eval, M.bind, e3]
    simp only [M.lift, i3.cast]
  -- lines 58-61
  generalize hl3 : Py.put "stat" (Val.sc false 16 (BitVec.ofNat 16 raw)) l2 = l3
  have g3 (x : String) (h : "stat" ≠ x) : get x l3 = get x l2 := by rw [← hl3, get_put, if_neg h]
  have hraw' : Is (.sc false 16 (BitVec.ofNat 16 raw)) raw := by
    have := Is.uint (BitVec.ofNat 16 raw) (by decide)
    rwa [BitVec.toNat_ofNat, Nat.mod_eq_of_lt (by omega)] at this
  have hstat : Ev E (.var "stat") ⟨l3, wf, Py.put xs (.w16 6 f) A⟩ raw := .var ⟨_, by rw [← hl3, get_put, if_pos rfl], hraw'⟩
  have hlv := level.isLt
  have e4 : exec E [] fuel (.ite (.cmp .eq (.var "i") (.num 0))
        (.assign (.item (.self "stats") (.var "i")) (.bin .add (.bin .add (.var "stat") (.self "level")) (.num 0xA)))
        (.assign (.item (.self "stats") (.var "i")) (.call "compute_stat" (.cons (.bin .add (.var "stat") (.num 5)) (.cons (.self "nature") (.cons (.var "i") .nil))))))
      ⟨l3, wf, Py.put xs (.w16 6 f) A⟩ = (.ok .next, ⟨l3, wf, Py.put xs (.w16 6 fun j => if j = i.val then BitVec.ofNat 16 (storedStat info ivs level nature i) else f j) A⟩) := by
    have hc0 : eval E (.cmp .eq (.var "i") (.num 0)) ⟨l3, wf, Py.put xs (.w16 6 f) A⟩
        = (.ok (.bool (decide (i.val = 0))), ⟨l3, wf, Py.put xs (.w16 6 f) A⟩) := by
      have h0 : toInt (literal .numba 0) = some 0 := rfl
      simp only [eval, M.bind, g3 "i" (by decide), gi, M.pure, hm, M.lift, compare, hlit.toInt, h0]
      simp only [Nat.cast_eq_zero]
    have hxs : get xs (Py.put xs (.w16 6 f) A) = some (.w16 6 f) := by rw [get_put, if_pos rfl]
    by_cases h0 : i.val = 0
    · refine (ite_true' hc0 (by rw [truth, h0]; rfl)).trans ?_
      obtain ⟨v, h1, h2⟩ : Ev E (.bin .add (.bin .add (.var "stat") (.self "level")) (.num 0xA)) ⟨l3, wf, Py.put xs (.w16 6 f) A⟩ (storedStat info ivs level nature i) := by
        have : storedStat info ivs level nature i = raw + level.toNat + 10 := by rw [storedStat, if_pos (Fin.ext h0), hr]
        rw [this]
        exact .bin hm (.bin hm hstat (.self hfl (.uint _ (by decide))) fun x y hx hy => hx.add hy (by omega)) (.num hm 0xA 10 rfl (by decide))
          fun x y hx hy => hx.add hy (by omega)
      refine (store_stat (w := ⟨l3, wf, Py.put xs (.w16 6 f) A⟩) ((g3 "i" (by decide)).trans gi) hlit hi6 hfs hxs h1 (h2.cast u16)).trans ?_
      rw [put_put]
    · refine (ite_false' hc0 (by rw [truth, decide_eq_false h0])).trans ?_
      obtain ⟨v, h1, h2⟩ : Ev E (.bin .add (.var "stat") (.num 5)) ⟨l3, wf, Py.put xs (.w16 6 f) A⟩ (raw + 5) :=
        .bin hm hstat (.num hm 5 5 rfl (by decide)) fun x y hx hy => hx.add hy (by omega)
      have hnat : (BitVec.ofNat 8 nature).toNat = nature := by rw [BitVec.toNat_ofNat]; omega
      have hi8 : (BitVec.ofNat 8 i.val).toNat = i.val := by rw [BitVec.toNat_ofNat]; omega
      have hr16 : (BitVec.ofNat 16 (raw + 5)).toNat = raw + 5 := by rw [BitVec.toNat_ofNat]; omega
      have hlt := storedStat_lt info ivs level nature i
      have h3 : eval E (.call "compute_stat" (.cons (.bin .add (.var "stat") (.num 5)) (.cons (.self "nature") (.cons (.var "i") .nil)))) ⟨l3, wf, Py.put xs (.w16 6 f) A⟩
          = (.ok (.sc false 16 (BitVec.ofNat 16 (storedStat info ivs level nature i))), ⟨l3, wf, Py.put xs (.w16 6 f) A⟩) := by
        have hi0 : i ≠ 0 := fun h => h0 (congrArg Fin.val h)
        rw [eval, M.bind, eval, M.bind, h1]
        simp only [eval, M.bind, hfn, g3 "i" (by decide), gi, M.pure]
        rw [builtin_call (by decide) (by decide), hE.compute_stat _ _ _ (BitVec.ofNat 16 (raw + 5)) (BitVec.ofNat 8 nature) (BitVec.ofNat 8 i.val) _ (h2.cast u16)
          (by simp [cast, conv]) (hlit.cast u8)]
        rw [storedStat, if_neg hi0, hr] at hlt ⊢
        rw [hnat, hi8, Stat.C45_exact _ _ _ hn (by omega) (by omega), hr16, if_pos hlt]
        rfl
      refine (store_stat (w := ⟨l3, wf, Py.put xs (.w16 6 f) A⟩) (n := storedStat info ivs level nature i) ((g3 "i" (by decide)).trans gi) hlit hi6 hfs hxs h3 ?_).trans ?_
      · simp [cast, conv]
      rw [put_put]
  -- line 63
  generalize hf' : (fun j => if j = i.val then BitVec.ofNat 16 (storedStat info ivs level nature i) else f j) = f'
  rw [hf'] at e4
  have hivs' (l : List (String × Val)) : get xi (⟨l, wf, Py.put xs (.w16 6 f') A⟩ : World).arrays = some (.w8 6 m) := by
    rw [get_put, if_neg hne, hA]
  have hmod : (ec + i.val) % 6 < 6 := Nat.mod_lt _ (by decide)
  have g3' (x : String) (h0 : "stat" ≠ x) (h1 : "hidden_power_strength_value" ≠ x) (h2 : "hidden_power_val" ≠ x) (h3 : "i" ≠ x) : get x l3 = get x wl :=
    (g3 x h0).trans (g2 x h1 h2 h3)
  obtain ⟨u5, e5, i5⟩ : Ev E (.item (.var "CHAR_ORDER") (.bin .add (.var "ec_index") (.var "i"))) ⟨l3, wf, Py.put xs (.w16 6 f') A⟩ ((ec + i.val) % 6) := by
    refine .tup (vs := [0, 1, 2, 3, 4, 5, 0, 1, 2, 3, 4].map fun k => .sc false 8 (BitVec.ofNat 8 k)) (u := .sc false 8 (BitVec.ofNat 8 ((ec + i.val) % 6))) ?_
      (.bin hm (.var ⟨_, (g3' _ (by decide) (by decide) (by decide) (by decide)).trans hecv, hecv'⟩) (.var ⟨_, (g3 _ (by decide)).trans gi, hlit⟩)
        (r := ec + i.val) fun x y hx hy => hx.add hy (by omega)) ?_ ?_
    · simp only [eval, g3' "CHAR_ORDER" (by decide) (by decide) (by decide) (by decide), hc, hE.globals, globals, get]
      rfl
    · have := char_order ec hec i.val hi6
      rw [List.getElem?_map]
      have h2 : ([0, 1, 2, 3, 4, 5, 0, 1, 2, 3, 4] : List Nat)[ec + i.val]? = some ((ec + i.val) % 6) := by
        clear * - hec hi6
        obtain ⟨i, hi⟩ := i
        simp only at hi6 ⊢
        interval_cases ec <;> interval_cases i <;> rfl
      rw [h2]; rfl
    · exact .byte (by omega)
  -- lines 64-66
  generalize hl5 : Py.put "index" u5 l3 = l5
  have g5 (x : String) (h : "index" ≠ x) : get x l5 = get x l3 := by rw [← hl5, get_put, if_neg h]
  have g5' (x : String) (h4 : "index" ≠ x) (h0 : "stat" ≠ x) (h1 : "hidden_power_strength_value" ≠ x) (h2 : "hidden_power_val" ≠ x) (h3 : "i" ≠ x) : get x l5 = get x wl :=
    (g5 x h4).trans (g3' x h0 h1 h2 h3)
  have gx : get "index" l5 = some u5 := by rw [← hl5, get_put, if_pos rfl]
  have hitem (l : List (String × Val)) (h1 : get "ORDER" l = none) (h2 : get "index" l = some u5) :
      Ev E (.item (.self "ivs") (.item (.var "ORDER") (.var "index"))) ⟨l, wf, Py.put xs (.w16 6 f') A⟩ (posIv ivs ((ec + i.val) % 6)) := by
    rw [← hI]
    exact order_item hE (hivs' _) h1 hfi (.var ⟨_, h2, i5⟩) hmod
  have ho5 : get "ORDER" l5 = none := (g5' _ (by decide) (by decide) (by decide) (by decide) (by decide)).trans ho
  have hmx5 : get "max_iv" l5 = some v5 := (g5' _ (by decide) (by decide) (by decide) (by decide) (by decide)).trans hmx
  have e6 : ∃ l6 v6 v7, exec E [] fuel (.ite (.cmp .gt (.item (.self "ivs") (.item (.var "ORDER") (.var "index"))) (.var "max_iv"))
       (.seq
        (.assign (.var "char_index") (.var "index"))
       (.assign (.var "max_iv") (.item (.self "ivs") (.item (.var "ORDER") (.var "index")))))
       .pass) ⟨l5, wf, Py.put xs (.w16 6 f') A⟩ = (.ok .next, ⟨l6, wf, Py.put xs (.w16 6 f') A⟩)
      ∧ get "char_index" l6 = some v6 ∧ Is v6 (charLoop (fun d => posIv ivs ((ec + d) % 6)) ec (i + 1)).1
      ∧ get "max_iv" l6 = some v7 ∧ Is v7 (charLoop (fun d => posIv ivs ((ec + d) % 6)) ec (i + 1)).2
      ∧ ∀ x, "char_index" ≠ x → "max_iv" ≠ x → get x l6 = get x l5 := by
    obtain ⟨v, h1, h2⟩ := hitem l5 ho5 gx
    have hc6 : eval E (.cmp .gt (.item (.self "ivs") (.item (.var "ORDER") (.var "index"))) (.var "max_iv")) ⟨l5, wf, Py.put xs (.w16 6 f') A⟩
        = (.ok (.bool (decide ((charLoop (fun d => posIv ivs ((ec + d) % 6)) ec i).2 < posIv ivs ((ec + i.val) % 6)))), ⟨l5, wf, Py.put xs (.w16 6 f') A⟩) := by
      rw [eval, M.bind, h1]
      simp only [eval, M.bind, hmx5, M.lift, compare, h2.toInt, hmx'.toInt, Nat.cast_lt]
    rw [charLoop, charStep]
    by_cases hlt : (charLoop (fun d => posIv ivs ((ec + d) % 6)) ec i).2 < posIv ivs ((ec + i.val) % 6)
    · rw [if_pos hlt]
      obtain ⟨v', h3, h4⟩ := hitem (Py.put "char_index" u5 l5) (by rw [get_put, if_neg (by decide), ho5]) (by rw [get_put, if_neg (by decide), gx])
      refine ⟨Py.put "max_iv" v' (Py.put "char_index" u5 l5), u5, v', (ite_true' hc6 (by rw [truth, decide_eq_true hlt])).trans ?_, ?_, i5, ?_, h4, fun x hx1 hx2 => ?_⟩
      · refine (seq_next (Small.assign_var (v := u5) (by simp only [eval, gx]))).trans ?_
        exact Small.assign_var h3
      · rw [get_put, if_neg (by decide), get_put, if_pos rfl]
      · rw [get_put, if_pos rfl]
      · rw [get_put, if_neg hx2, get_put, if_neg hx1]
    · rw [if_neg hlt]
      exact ⟨l5, v4, v5, (ite_false' hc6 (by rw [truth, decide_eq_false hlt])).trans rfl,
        (g5' _ (by decide) (by decide) (by decide) (by decide) (by decide)).trans hchr, hchr', hmx5, hmx', fun _ _ _ => rfl⟩
  obtain ⟨l6, v6, v7, e6, gc, ic, gm, im, g6⟩ := e6
  refine ⟨⟨l6, wf, Py.put xs (.w16 6 f') A⟩, ?_, ?_⟩
  · refine (seq_next (Small.aug_var hm (by rw [get_put, if_neg (by decide), hpv]) e1 a1)).trans ?_
    refine (seq_next (Small.aug_var hm (by rw [get_put, if_neg (by decide), get_put, if_neg (by decide), hsv]) e2 a2)).trans ?_
    simp only [hl2]
    refine (seq_next (Small.assign_var e3')).trans ?_
    simp only [hl3]
    refine (seq_next e4).trans ?_
    refine (seq_next (Small.assign_var e5)).trans ?_
    simp only [hl5]
    exact e6
  · have k1 (x : String) (h : "char_index" ≠ x) (h' : "max_iv" ≠ x) (h4 : "index" ≠ x) (h0 : "stat" ≠ x) : get x l6 = get x l2 :=
      (g6 x h h').trans ((g5 x h4).trans (g3 x h0))
    have k2 (x : String) (h : "char_index" ≠ x) (h' : "max_iv" ≠ x) (h4 : "index" ≠ x) (h0 : "stat" ≠ x) (h1 : "hidden_power_strength_value" ≠ x)
        (h2 : "hidden_power_val" ≠ x) (h3 : "i" ≠ x) : get x l6 = get x wl := (k1 x h h' h4 h0).trans (g2 x h1 h2 h3)
    refine ⟨⟨u1, (k1 _ (by decide) (by decide) (by decide) (by decide)).trans g1, ?_⟩, ⟨u2, (k1 _ (by decide) (by decide) (by decide) (by decide)).trans gs, ?_⟩,
      ⟨v3, (k2 _ (by decide) (by decide) (by decide) (by decide) (by decide) (by decide) (by decide)).trans hecv, hecv'⟩, ⟨v6, gc, ?_⟩, ⟨v7, gm, ?_⟩,
      (k2 _ (by decide) (by decide) (by decide) (by decide) (by decide) (by decide) (by decide)).trans hbase,
      (k2 _ (by decide) (by decide) (by decide) (by decide) (by decide) (by decide) (by decide)).trans ho,
      (k2 _ (by decide) (by decide) (by decide) (by decide) (by decide) (by decide) (by decide)).trans hc, rfl, f', rfl, fun j hj => ?_⟩
    · rw [hI]; exact j1
    · rw [hI]; exact j2
    · rw [hI]; exact ic
    · rw [hI]; exact im
    · rw [hI, ← hf']
      by_cases hji : j = i
      · subst hji; simp
      · have hji' : j.val ≠ i.val := fun h => hji (Fin.ext h)
        simp only [if_neg hji']
        exact hst j (by omega)

/-- the loop -/
theorem rounds_exec (hE : EnvS E) {info : Personal} {m : Nat → BitVec 8} {level : BitVec 8} {nature ec : Nat} {xi xs : String}
    {fields : List (String × Val)} {A : List (String × Arr)} (hn : nature < 25) (hec : ec < 6) (hfi : get "ivs" fields = some (.arr xi))
    (hfs : get "stats" fields = some (.arr xs)) (hfl : get "level" fields = some (.sc false 8 level))
    (hfn : get "nature" fields = some (.sc false 8 (BitVec.ofNat 8 nature))) (hne : xs ≠ xi) (hA : get xi A = some (.w8 6 m)) :
    ∀ (n k : Nat) (w : World), k + n ≤ 6 → Inv info m level nature ec xi xs fields A k w →
      ∃ w', loop (fun v => (storeLocal E [] "i" v).bind fun _ => exec E [] fuel round) (counted .numba k n) w = (.ok .next, w')
        ∧ Inv info m level nature ec xi xs fields A (k + n) w'
  | 0, k, w, _, hw => ⟨w, rfl, hw⟩
  | n + 1, k, w, hk, hw => by
    obtain ⟨w1, h1, h2⟩ := round_exec (fuel := fuel) hE hn hec hfi hfs hfl hfn hne hA ⟨k, by omega⟩ hw
    obtain ⟨w2, h3, h4⟩ := rounds_exec hE hn hec hfi hfs hfl hfn hne hA n (k + 1) w1 (by omega) h2
    refine ⟨w2, ?_, by rwa [show k + (n + 1) = k + 1 + n by omega]⟩
    rw [counted_succ, loop, M.bind, M.bind, storeLocal_nil]
    simp only at h1 ⊢
    rw [h1]
    exact h3

/-! ### `update_stats` -/

theorem rnd_small (n : Nat) (h : n ≤ 2 ^ 53) : Fp.rnd 53 ((n : Int) : ℚ) = n := by
  have := Fp.rnd_fix (p := 53) (by norm_num) (Fp.isFp_int (p := 53) (n : Int) (by
    rw [abs_of_nonneg (by positivity)]; exact_mod_cast h))
  rw [this]
  simp

/-- `30 + (v * 40 / 63)`, converted to `uint8` -/
theorem strength_cast (v : Nat) (hv : v ≤ 63) :
    cast u8 (.flt (Fp.rnd 53 (30 + Fp.rnd 53 (((v * 40 : Nat) : ℚ) / 63)))) = .ok (.sc false 8 (BitVec.ofInt 8 ⌊strength .numba v⌋)) := by
  obtain ⟨h1, h2⟩ := strength_floor v hv
  have hk : ((30 + v * 40 / 63 : Nat) : ℚ) ≤ 70 := by exact_mod_cast (by omega : 30 + v * 40 / 63 ≤ 70)
  have h0 : (0 : ℚ) ≤ ((30 + v * 40 / 63 : Nat) : ℚ) := by positivity
  have hb : 0 ≤ Fp.rnd 53 (30 + Fp.rnd 53 (((v * 40 : Nat) : ℚ) / 63)) ∧ Fp.rnd 53 (30 + Fp.rnd 53 (((v * 40 : Nat) : ℚ) / 63)) < 256 := by
    by_cases h : v * 40 % 63 = 0
    · rw [h1 h]; constructor <;> linarith
    · obtain ⟨g1, g2⟩ := h2 h
      constructor <;> linarith
  simp only [strength]
  generalize Fp.rnd 53 (30 + Fp.rnd 53 (((v * 40 : Nat) : ℚ) / 63)) = q at hb ⊢
  rw [cast]
  simp only [Bool.toNat_false, Nat.sub_zero]
  rw [if_pos ⟨hb.1, by norm_num; exact hb.2⟩, Int.floor_intCast]

/-- the attributes before `update_stats` -/
def partFields (advance pid : BitVec 32) (species : BitVec 16) (form : BitVec 8) (ivs : String) (ability : BitVec 8) (abilityIndex : BitVec 16)
    (level shiny : BitVec 8) (stats : String) : List (String × Val) :=
  [("advance", .sc false 32 advance), ("pid", .sc false 32 pid), ("species", .sc false 16 species), ("form", .sc false 8 form),
   ("ivs", .arr ivs), ("ability", .sc false 8 ability), ("ability_index", .sc false 16 abilityIndex), ("level", .sc false 8 level),
   ("shiny", .sc false 8 shiny), ("stats", .arr stats)]

theorem cast8 (x : BitVec 8) : cast u8 (.sc false 8 x) = .ok (.sc false 8 x) := by simp [cast, conv]

theorem base_eval (info : Personal) {f : List (String × Val)} {a : List (String × Arr)} {l : List (String × Val)}
    (h : get "info" l = some (infoVal info)) : eval E (.cons (.attr (.var "info") "hp") (.cons (.attr (.var "info") "attack") (.cons (.attr (.var "info") "defense")
      (.cons (.attr (.var "info") "special_attack") (.cons (.attr (.var "info") "special_defense") (.cons (.attr (.var "info") "speed") .nil))))))
      ⟨l, f, a⟩ = (.ok (.tup ((baseStats info).toList.map (.sc false 8))), ⟨l, f, a⟩) :=
  cons_eval (area_attr (w := ⟨l, f, a⟩) h rfl) (cons_eval (area_attr (w := ⟨l, f, a⟩) h rfl) (cons_eval (area_attr (w := ⟨l, f, a⟩) h rfl)
    (cons_eval (area_attr (w := ⟨l, f, a⟩) h rfl) (cons_eval (area_attr (w := ⟨l, f, a⟩) h rfl) (cons_eval (area_attr (w := ⟨l, f, a⟩) h rfl) nil_eval)))))

/-- the body of `update_stats`, before the loop -/
theorem update_stats_exec (hE : EnvS E) (info : Personal) (m : Nat → BitVec 8) (advance pid : BitVec 32) (species abilityIndex : BitVec 16)
    (form ability level shiny : BitVec 8) {xi xs : String} {A : List (String × Arr)} (junk : Nat → BitVec 16) (hne : xs ≠ xi) (hA : get xi A = some (.w8 6 m)) :
    ∃ l f, exec E [] fuel Source.State.update_stats.body
        ⟨[("info", infoVal info)], partFields advance pid species form xi ability abilityIndex level shiny xs, put xs (.w16 6 junk) A⟩
      = (.ok .next, ⟨l, put "characteristic" (.sc false 8 (BitVec.ofNat 8
          ((charLoop (fun d => posIv (Vector.ofFn fun i : Fin 6 => m i) ((pid.toNat % 6 + d) % 6)) (pid.toNat % 6) 6).1 * 5
            + (charLoop (fun d => posIv (Vector.ofFn fun i : Fin 6 => m i) ((pid.toNat % 6 + d) % 6)) (pid.toNat % 6) 6).2 % 5)))
        (put "hidden_power_strength" (.sc false 8 (BitVec.ofInt 8 ⌊strength .numba (bitSum (fun p => posIv (Vector.ofFn fun i : Fin 6 => m i) p / 2 % 2))⌋))
        (put "hidden_power" (.sc false 8 (BitVec.ofNat 8 (bitSum (fun p => posIv (Vector.ofFn fun i : Fin 6 => m i) p % 2) * 15 / 63)))
        (put "nature" (.sc false 8 (BitVec.ofNat 8 (pid.toNat % 25))) (put "gender" (.sc false 8 (getGender pid info.genderRatio))
          (partFields advance pid species form xi ability abilityIndex level shiny xs))))), put xs (.w16 6 f) A⟩)
      ∧ ∀ j : Fin 6, f j = BitVec.ofNat 16 (storedStat info (Vector.ofFn fun i : Fin 6 => m i) level (pid.toNat % 25) j) := by
  have hm := hE.mode
  have hft := hE.fieldTypes
  generalize hP : partFields advance pid species form xi ability abilityIndex level shiny xs = P
  have p1 : get "pid" P = some (.sc false 32 pid) := by rw [← hP]; rfl
  have p2 : get "ivs" P = some (.arr xi) := by rw [← hP]; rfl
  have p3 : get "stats" P = some (.arr xs) := by rw [← hP]; rfl
  have p4 : get "level" P = some (.sc false 8 level) := by rw [← hP]; rfl
  generalize hL : [("info", infoVal info)] = L
  have l1 : get "info" L = some (infoVal info) := by rw [← hL]; rfl
  have l2 : get "ORDER" L = none := by rw [← hL]; rfl
  have l3 : get "CHAR_ORDER" L = none := by rw [← hL]; rfl
  rw [Source.State.update_stats]
  simp only
  -- line 37
  rw [self_assign hm (v := .sc false 8 (getGender pid info.genderRatio)) (t := u8) (call_eval (by decide) (by decide) (cons_eval (self_eval p1)
    (cons_eval (area_attr (w := ⟨L, P, put xs (.w16 6 junk) A⟩) l1 rfl) nil_eval)) (hE.get_gender _ _ _)) (by rw [hft]; rfl) (cast8 _)]
  simp only
  -- line 38
  generalize hP1 : put "gender" (Val.sc false 8 (getGender pid info.genderRatio)) P = P1
  have q1 (x : String) (h : "gender" ≠ x) : get x P1 = get x P := by rw [← hP1, get_put, if_neg h]
  obtain ⟨v, e1, i1⟩ : Ev E (.bin .mod (.self "pid") (.num 0x19)) ⟨L, P1, put xs (.w16 6 junk) A⟩ (pid.toNat % 25) :=
    .bin hm (.self ((q1 _ (by decide)).trans p1) (.uint _ (by decide))) (.num hm 0x19 25 rfl (by decide)) fun x y hx hy => hx.mod hy (by decide)
  rw [self_assign hm (t := u8) e1 (by rw [hft]; rfl) (i1.cast u8)]
  simp only
  generalize hP2 : put "nature" (Val.sc false 8 (BitVec.ofNat 8 (pid.toNat % 25))) P1 = P2
  have q2 (x : String) (h : "gender" ≠ x) (h2 : "nature" ≠ x) : get x P2 = get x P := by rw [← hP2, get_put, if_neg h2, q1 x h]
  have n2 : get "nature" P2 = some (.sc false 8 (BitVec.ofNat 8 (pid.toNat % 25))) := by rw [← hP2, get_put, if_pos rfl]
  -- lines 39-52
  have ez (w : World) : eval E (.cast u8 (.num 0)) w = (.ok (.sc false 8 0), w) := by
    rw [eval, M.bind, eval, M.pure]
    simp only [M.lift, hm]
    rfl
  have e6 (w : World) : Ev E (.cast u8 (.num 6)) w 6 := by
    refine ⟨.sc false 8 6, ?_, .byte (by decide)⟩
    rw [eval, M.bind, eval, M.pure]
    simp only [M.lift, hm]
    rfl
  rw [seq_next (Small.assign_var (ez _)), seq_next (Small.assign_var (ez _))]
  simp only
  generalize hL2 : put "hidden_power_strength_value" (Val.sc false 8 0) (put "hidden_power_val" (Val.sc false 8 0) L) = L2
  have r2 (x : String) (h1 : "hidden_power_strength_value" ≠ x) (h2 : "hidden_power_val" ≠ x) : get x L2 = get x L := by
    rw [← hL2, get_put, if_neg h1, get_put, if_neg h2]
  have rh : get "hidden_power_val" L2 = some (.sc false 8 0) := by rw [← hL2, get_put, if_neg (by decide), get_put, if_pos rfl]
  have rs : get "hidden_power_strength_value" L2 = some (.sc false 8 0) := by rw [← hL2, get_put, if_pos rfl]
  obtain ⟨u, e2, i2⟩ : Ev E (.bin .mod (.self "pid") (.cast u8 (.num 6))) ⟨L2, P2, put xs (.w16 6 junk) A⟩ (pid.toNat % 6) :=
    .bin hm (.self ((q2 _ (by decide) (by decide)).trans p1) (.uint _ (by decide))) (e6 _) fun x y hx hy => hx.mod hy (by decide)
  rw [seq_next (Small.assign_var e2), seq_next (Small.assign_var (v := u) (by simp only [eval, get_put, if_true])), seq_next (Small.assign_var (ez _))]
  simp only
  generalize hL3 : put "max_iv" (Val.sc false 8 0) (put "char_index" u (put "ec_index" u L2)) = L3
  have r3 (x : String) (h1 : "max_iv" ≠ x) (h2 : "char_index" ≠ x) (h3 : "ec_index" ≠ x) : get x L3 = get x L2 := by
    rw [← hL3, get_put, if_neg h1, get_put, if_neg h2, get_put, if_neg h3]
  have re : get "ec_index" L3 = some u := by rw [← hL3, get_put, if_neg (by decide), get_put, if_neg (by decide), get_put, if_pos rfl]
  have rc : get "char_index" L3 = some u := by rw [← hL3, get_put, if_neg (by decide), get_put, if_pos rfl]
  have rm : get "max_iv" L3 = some (.sc false 8 0) := by rw [← hL3, get_put, if_pos rfl]
  rw [seq_next (Small.assign_var (base_eval info ((r3 _ (by decide) (by decide) (by decide)).trans ((r2 _ (by decide) (by decide)).trans l1))))]
  -- the loop
  have z0 : Is (.sc false 8 0) 0 := .byte (by decide)
  have hinv : Inv info m level (pid.toNat % 25) (pid.toNat % 6) xi xs P2 A 0
      ⟨put "base_stats" (.tup ((baseStats info).toList.map (.sc false 8))) L3, P2, put xs (.w16 6 junk) A⟩ := by
    have b (x : String) (h : "base_stats" ≠ x) : get x (put "base_stats" (.tup ((baseStats info).toList.map (Val.sc false 8))) L3) = get x L3 := by
      rw [get_put, if_neg h]
    exact ⟨⟨_, (b _ (by decide)).trans ((r3 _ (by decide) (by decide) (by decide)).trans rh), z0⟩,
      ⟨_, (b _ (by decide)).trans ((r3 _ (by decide) (by decide) (by decide)).trans rs), z0⟩, ⟨_, (b _ (by decide)).trans re, i2⟩,
      ⟨_, (b _ (by decide)).trans rc, i2⟩, ⟨_, (b _ (by decide)).trans rm, z0⟩, by rw [get_put, if_pos rfl],
      (b _ (by decide)).trans ((r3 _ (by decide) (by decide) (by decide)).trans ((r2 _ (by decide) (by decide)).trans l2)),
      (b _ (by decide)).trans ((r3 _ (by decide) (by decide) (by decide)).trans ((r2 _ (by decide) (by decide)).trans l3)), rfl, junk, rfl, fun j hj => by omega⟩
  have hec : pid.toNat % 6 < 6 := Nat.mod_lt _ (by decide)
  obtain ⟨⟨wl, wf, wa⟩, h1, ⟨⟨v1, hv1, iv1⟩, ⟨v2, hv2, iv2⟩, -, ⟨v4, hv4, iv4⟩, ⟨v5, hv5, iv5⟩, -, -, -, hf, f, ha, hst⟩⟩ :=
    rounds_exec (fuel := fuel) hE (Nat.mod_lt _ (by decide)) hec ((q2 _ (by decide) (by decide)).trans p2)
    ((q2 _ (by decide) (by decide)).trans p3) ((q2 _ (by decide) (by decide)).trans p4) n2 hne hA 6 0 _ (by decide) hinv
  simp only [Nat.zero_add] at hv1 hv2 hv4 hv5 hf ha iv1 iv2 iv4 iv5 hst
  subst hf ha
  have hloop : exec E [] fuel (.for "i" (.call "range" (.cons (.num 6) .nil)) round)
      ⟨put "base_stats" (.tup ((baseStats info).toList.map (.sc false 8))) L3, wf, put xs (.w16 6 junk) A⟩ = (.ok .next, ⟨wl, wf, put xs (.w16 6 f) A⟩) := by
    have hr : eval E (.call "range" (.cons (.num 6) .nil)) ⟨put "base_stats" (.tup ((baseStats info).toList.map (.sc false 8))) L3, wf, put xs (.w16 6 junk) A⟩
        = (.ok (.tup (counted .numba 0 6)), ⟨put "base_stats" (.tup ((baseStats info).toList.map (.sc false 8))) L3, wf, put xs (.w16 6 junk) A⟩) := by
      simp only [eval, M.bind, M.pure, hm, builtin, if_true, M.lift]
      rfl
    rw [exec, M.bind, hr]
    exact h1
  refine ⟨wl, f, (seq_next hloop).trans ?_, fun j => hst j j.isLt⟩
  have hI (p : Nat) := posIv_lt (Vector.ofFn fun i : Fin 6 => m i) p
  rw [bits_six] at iv1 iv2
  have b1 := bitSum_le (fun p => posIv (Vector.ofFn fun i : Fin 6 => m i) p % 2) (fun p => by omega)
  have b2 := bitSum_le (fun p => posIv (Vector.ofFn fun i : Fin 6 => m i) p / 2 % 2) (fun p => by omega)
  generalize bitSum (fun p => posIv (Vector.ofFn fun i : Fin 6 => m i) p % 2) = B1 at *
  generalize bitSum (fun p => posIv (Vector.ofFn fun i : Fin 6 => m i) p / 2 % 2) = B2 at *
  have c1 := charLoop_fst_lt (fun d => posIv (Vector.ofFn fun i : Fin 6 => m i) ((pid.toNat % 6 + d) % 6)) _ hec 6
  generalize charLoop (fun d => posIv (Vector.ofFn fun i : Fin 6 => m i) ((pid.toNat % 6 + d) % 6)) (pid.toNat % 6) 6 = C at *
  -- line 68
  obtain ⟨x1, y1, k1⟩ : Ev E (.bin .floordiv (.bin .mul (.var "hidden_power_val") (.num 0xF)) (.num 0x3F)) ⟨wl, wf, put xs (.w16 6 f) A⟩ (B1 * 15 / 63) :=
    .bin hm (.bin hm (.var ⟨_, hv1, iv1⟩) (.num hm 0xF 15 rfl (by decide)) fun x y hx hy => hx.mul hy (by omega)) (.num hm 0x3F 63 rfl (by decide))
      fun x y hx hy => hx.floordiv hy (by decide)
  rw [self_assign hm (t := u8) y1 (by rw [hft]; rfl) (k1.cast u8)]
  simp only
  -- line 69
  generalize hP3 : put "hidden_power" (Val.sc false 8 (BitVec.ofNat 8 (B1 * 15 / 63))) wf = P3
  obtain ⟨x2, y2, k2⟩ : Ev E (.bin .mul (.var "hidden_power_strength_value") (.num 0x28)) ⟨wl, P3, put xs (.w16 6 f) A⟩ (B2 * 40) :=
    .bin hm (.var ⟨_, hv2, iv2⟩) (.num hm 0x28 40 rfl (by decide)) fun x y hx hy => hx.mul hy (by omega)
  have hdiv : eval E (.call "/" (.cons (.bin .mul (.var "hidden_power_strength_value") (.num 0x28)) (.cons (.num 0x3F) .nil))) ⟨wl, P3, put xs (.w16 6 f) A⟩
      = (.ok (.flt (Fp.rnd 53 (((B2 * 40 : Nat) : ℚ) / 63))), ⟨wl, P3, put xs (.w16 6 f) A⟩) := by
    have h63 : toInt (literal .numba 0x3F) = some ((63 : Nat) : Int) := rfl
    have hn : eval E (.num 0x3F) ⟨wl, P3, put xs (.w16 6 f) A⟩ = (.ok (literal .numba 0x3F), ⟨wl, P3, put xs (.w16 6 f) A⟩) := by rw [eval, hm]; rfl
    refine call_eval (by decide) (by decide) (cons_eval y2 (cons_eval hn nil_eval)) ?_
    rw [hE.div, trueDiv]
    simp only [k2.toInt, h63]
    rw [if_neg (by decide), rnd_small _ (by omega), rnd_small _ (by norm_num)]
    simp [M.pure]
  have hsum : eval E (.bin .add (.num 0x1E) (.call "/" (.cons (.bin .mul (.var "hidden_power_strength_value") (.num 0x28)) (.cons (.num 0x3F) .nil)))) ⟨wl, P3, put xs (.w16 6 f) A⟩
      = (.ok (.flt (Fp.rnd 53 (30 + Fp.rnd 53 (((B2 * 40 : Nat) : ℚ) / 63)))), ⟨wl, P3, put xs (.w16 6 f) A⟩) := by
    have hn : eval E (.num 0x1E) ⟨wl, P3, put xs (.w16 6 f) A⟩ = (.ok (literal .numba 0x1E), ⟨wl, P3, put xs (.w16 6 f) A⟩) := by rw [eval, hm]; rfl
    refine Area3.bin_eval hn hdiv ?_
    have h30 : Fp.rnd 53 (((BitVec.ofInt 64 0x1E).toInt : Int) : ℚ) = 30 := by
      rw [show (BitVec.ofInt 64 0x1E).toInt = ((30 : Nat) : Int) by decide, rnd_small _ (by norm_num)]
      norm_num
    try rw [hm]
    simp only [literal, binop, floatBin, if_true, h30]
  rw [self_assign hm (t := u8) hsum (by rw [hft]; rfl) (strength_cast B2 b2)]
  simp only
  -- line 70
  generalize hP4 : put "hidden_power_strength" (Val.sc false 8 (BitVec.ofInt 8 ⌊strength .numba B2⌋)) P3 = P4
  obtain ⟨x3, y3, k3⟩ : Ev E (.bin .add (.bin .mul (.var "char_index") (.num 5)) (.bin .mod (.var "max_iv") (.num 5))) ⟨wl, P4, put xs (.w16 6 f) A⟩ (C.1 * 5 + C.2 % 5) :=
    .bin hm (.bin hm (.var ⟨_, hv4, iv4⟩) (.num hm 5 5 rfl (by decide)) fun x y hx hy => hx.mul hy (by omega))
      (.bin hm (.var ⟨_, hv5, iv5⟩) (.num hm 5 5 rfl (by decide)) fun x y hx hy => hx.mod hy (by decide)) fun x y hx hy => hx.add hy (by omega)
  exact Small.assign_field hm (t := u8) (by rw [hft]; rfl) y3 (k3.cast u8)

/-! ### `__init__` -/

/-- the environment of the program -/
abbrev env (junk8 : Nat → BitVec 8) (junk16 : Nat → BitVec 16) (fuel depth : Nat) : Env :=
  ⟨.numba, globals, fieldTypes, run (prog junk8 junk16) .numba fuel depth⟩

theorem given_call {junk8 : Nat → BitVec 8} {junk16 : Nat → BitVec 16} {fuel depth : Nat} {f : String} {g : List Val → M Val}
    (h : get f (prog junk8 junk16).funs = none) (hg : get f (prog junk8 junk16).given = some g) (args : List Val) (w : World) :
    (env junk8 junk16 fuel (depth + 1)).call f args w = g args w :=
  congrFun (run_given (P := prog junk8 junk16) (mode := .numba) (fuel := fuel) (depth := depth) h hg) w

theorem env_s (junk8 : Nat → BitVec 8) (junk16 : Nat → BitVec 16) (fuel depth : Nat) : EnvS (env junk8 junk16 fuel (depth + 2)) where
  mode := rfl
  globals := rfl
  fieldTypes := rfl
  compute_stat a b c x y z w ha hb hc := by
    have h := ComputeStat.invoke_compute (E := env junk8 junk16 fuel (depth + 1)) rfl rfl (by funext args w; exact given_call rfl rfl args w) fuel ha hb hc w
    exact (congrFun (run_succ (prog junk8 junk16) .numba fuel (depth + 1) "compute_stat" _ Source.compute_stat rfl) w).trans h
  div := by funext args w; exact given_call rfl rfl args w
  get_gender pid r w := by
    obtain ⟨v, h1, -, h3⟩ := Util.getGender_invoke (env junk8 junk16 fuel (depth + 1)) fuel pid r w
    rw [h3 rfl] at h1
    exact (congrFun (run_succ (prog junk8 junk16) .numba fuel (depth + 1) "get_gender" _ Source.get_gender rfl) w).trans h1

/-- what `update_stats` leaves -/
def doneFields (info : Personal) (m : Nat → BitVec 8) (pid : BitVec 32) (P : List (String × Val)) : List (String × Val) :=
  put "characteristic" (.sc false 8 (BitVec.ofNat 8
      ((charLoop (fun d => posIv (Vector.ofFn fun i : Fin 6 => m i) ((pid.toNat % 6 + d) % 6)) (pid.toNat % 6) 6).1 * 5
        + (charLoop (fun d => posIv (Vector.ofFn fun i : Fin 6 => m i) ((pid.toNat % 6 + d) % 6)) (pid.toNat % 6) 6).2 % 5)))
    (put "hidden_power_strength" (.sc false 8 (BitVec.ofInt 8 ⌊strength .numba (bitSum (fun p => posIv (Vector.ofFn fun i : Fin 6 => m i) p / 2 % 2))⌋))
    (put "hidden_power" (.sc false 8 (BitVec.ofNat 8 (bitSum (fun p => posIv (Vector.ofFn fun i : Fin 6 => m i) p % 2) * 15 / 63)))
    (put "nature" (.sc false 8 (BitVec.ofNat 8 (pid.toNat % 25))) (put "gender" (.sc false 8 (getGender pid info.genderRatio)) P))))

/-- the call of `update_stats` -/
theorem update_stats_call (junk8 : Nat → BitVec 8) (junk16 junk : Nat → BitVec 16) (fuel depth : Nat) (info : Personal) (m : Nat → BitVec 8)
    (advance pid : BitVec 32) (species abilityIndex : BitVec 16) (form ability level shiny : BitVec 8) {xi xs : String} {A : List (String × Arr)}
    (hne : xs ≠ xi) (hA : get xi A = some (.w8 6 m)) (l : List (String × Val)) :
    ∃ f, run (prog junk8 junk16) .numba fuel (depth + 3) "update_stats" [infoVal info]
        ⟨l, partFields advance pid species form xi ability abilityIndex level shiny xs, put xs (.w16 6 junk) A⟩
      = (.ok .none, ⟨l, doneFields info m pid (partFields advance pid species form xi ability abilityIndex level shiny xs), put xs (.w16 6 f) A⟩)
      ∧ ∀ j : Fin 6, f j = BitVec.ofNat 16 (storedStat info (Vector.ofFn fun i : Fin 6 => m i) level (pid.toNat % 25) j) := by
  obtain ⟨l', f, h, hf⟩ := update_stats_exec (fuel := fuel) (env_s junk8 junk16 fuel depth) info m advance pid species abilityIndex form ability level shiny junk hne hA
  refine ⟨f, ?_, hf⟩
  rw [run_succ _ _ _ _ _ _ Source.State.update_stats rfl]
  exact invoke_next (F := Source.State.update_stats) (args := [infoVal info]) (l := l) (o := ⟨_, _⟩) (o' := ⟨_, _⟩) rfl rfl h

/-- `self.f = e` for an array: the attribute is the array -/
theorem array_assign {fuel : Nat} {E : Env} {f : String} {e : Expr} {rest : Stmt} {w : World} {v : Val} {a : List (String × Arr)}
    (he : eval E e w = (.ok v, ⟨w.locals, w.fields, a⟩)) (ht : get f E.fieldTypes = none) :
    exec E [] fuel (.seq (.assign (.self f) e) rest) w = exec E [] fuel rest ⟨w.locals, put f v w.fields, a⟩ := by
  rw [exec, exec]
  simp only [M.bind, he, store, storeField, ht, M.pure]
  cases E.mode <;> rfl

theorem call_init (junk8 : Nat → BitVec 8) (junk16 : Nat → BitVec 16) (fuel depth : Nat) (hd : 4 ≤ depth) (advance pid species form ability level shiny : Nat)
    (av pv sv fv bv lv hv : Val) (ha : toInt av = some (advance : Int)) (hp : toInt pv = some (pid : Int)) (hs : toInt sv = some (species : Int))
    (hf : toInt fv = some (form : Int)) (hb : toInt bv = some (ability : Int)) (hl : toInt lv = some (level : Int)) (hh : toInt hv = some (shiny : Int)) (x : String) (m : Nat → BitVec 8) (info : Personal) (w : World) (hw : w.fields = []) (hx : get x w.arrays = some (.w8 6 m)) :
    ∃ s xi xs f, State.new .numba advance pid species form (Vector.ofFn fun i : Fin 6 => m i) ability (BitVec.ofNat 8 level) (BitVec.ofNat 8 shiny) info = .ok s
      ∧ run (prog junk8 junk16) .numba fuel depth "__init__" [av, pv, sv, fv, .arr x, bv, lv, hv, infoVal info] w
        = (.ok .none, ⟨w.locals, fieldsOf s xi xs, put xs (.w16 6 f) (put xi (.w8 6 m) w.arrays)⟩)
      ∧ get xi w.arrays = none ∧ get xs (put xi (.w8 6 m) w.arrays) = none ∧ ∀ j : Fin 6, f j = s.stats[j] := by
  obtain ⟨depth, rfl⟩ : ∃ d, depth = d + 4 := ⟨depth - 4, by omega⟩
  obtain ⟨wl, wf, W⟩ := w
  simp only at hw hx
  subst hw
  have hfr : get (fresh W) W = none := get_fresh W
  have hxn : fresh W ≠ x := fresh_ne hx
  generalize hxi : fresh W = xi at *
  have hfr2 : get (fresh (put xi (.w8 6 m) W)) (put xi (.w8 6 m) W) = none := get_fresh _
  have hne : fresh (put xi (.w8 6 m) W) ≠ xi := fresh_ne (v := .w8 6 m) (by rw [get_put, if_pos rfl])
  generalize hxs : fresh (put xi (.w8 6 m) W) = xs at *
  obtain ⟨f, h1, h2⟩ := update_stats_call junk8 junk16 junk16 fuel depth info m (BitVec.ofNat 32 advance) (BitVec.ofNat 32 pid) (BitVec.ofNat 16 species)
    ((if ability = 0 then info.ability1 else info.ability2).setWidth 16) (BitVec.ofNat 8 form) (BitVec.ofNat 8 ability) (BitVec.ofNat 8 level) (BitVec.ofNat 8 shiny)
    (xi := xi) (xs := xs) (A := put xi (.w8 6 m) W) hne (by rw [get_put, if_pos rfl])
    [("advance", av), ("pid", pv), ("species", sv), ("form", fv), ("ivs", .arr x), ("ability", bv), ("level", lv), ("shiny", hv), ("info", infoVal info)]
  rw [BitVec.toNat_ofNat] at h2
  refine ⟨_, xi, xs, f, new_eq _ _ _ _ _ _ _ _ _ _, ?_, hfr, hfr2, fun j => ?_⟩
  swap
  · simp [h2]
  rw [run_succ _ _ _ _ _ _ Source.GeneratorState.__init__ rfl]
  have key : exec (env junk8 junk16 fuel (depth + 3)) [] fuel Source.GeneratorState.__init__.body
      ⟨[("advance", av), ("pid", pv), ("species", sv), ("form", fv), ("ivs", .arr x), ("ability", bv), ("level", lv), ("shiny", hv), ("info", infoVal info)], [], W⟩
      = (.ok .next, ⟨[("advance", av), ("pid", pv), ("species", sv), ("form", fv), ("ivs", .arr x), ("ability", bv), ("level", lv), ("shiny", hv), ("info", infoVal info)],
          doneFields info m (BitVec.ofNat 32 pid) (partFields (BitVec.ofNat 32 advance) (BitVec.ofNat 32 pid) (BitVec.ofNat 16 species) (BitVec.ofNat 8 form) xi (BitVec.ofNat 8 ability)
            ((if ability = 0 then info.ability1 else info.ability2).setWidth 16) (BitVec.ofNat 8 level) (BitVec.ofNat 8 shiny) xs), put xs (.w16 6 f) (put xi (.w8 6 m) W)⟩) := by
    generalize hL : [("advance", av), ("pid", pv), ("species", sv), ("form", fv), ("ivs", Val.arr x), ("ability", bv), ("level", lv), ("shiny", hv), ("info", infoVal info)] = L at h1 ⊢
    have La : get "advance" L = some av := by rw [← hL]; rfl
    have Lp : get "pid" L = some pv := by rw [← hL]; rfl
    have Ls : get "species" L = some sv := by rw [← hL]; rfl
    have Lf : get "form" L = some fv := by rw [← hL]; rfl
    have Li : get "ivs" L = some (.arr x) := by rw [← hL]; rfl
    have Lb : get "ability" L = some bv := by rw [← hL]; rfl
    have Ll : get "level" L = some lv := by rw [← hL]; rfl
    have Lh : get "shiny" L = some hv := by rw [← hL]; rfl
    have Ln : get "info" L = some (infoVal info) := by rw [← hL]; rfl
    have c8 (x : BitVec 8) : cast u8 (.sc false 8 x) = .ok (.sc false 8 x) := by simp [py]
    have c16 (x : BitVec 16) : cast u16 (.sc false 16 x) = .ok (.sc false 16 x) := by simp [py]
    have c32 (x : BitVec 32) : cast u32 (.sc false 32 x) = .ok (.sc false 32 x) := by simp [py]
    rw [Source.GeneratorState.__init__]
    simp only
    rw [self_assign rfl (cast_eval (Area3.var_eval La) (cast_of ha u32)) rfl (c32 _), self_assign rfl (cast_eval (Area3.var_eval Lp) (cast_of hp u32)) rfl (c32 _),
      self_assign rfl (cast_eval (Area3.var_eval Ls) (cast_of hs u16)) rfl (c16 _), self_assign rfl (cast_eval (Area3.var_eval Lf) (cast_of hf u8)) rfl (c8 _)]
    simp only
    -- lines 95-96
    have e6 (f : List (String × Val)) (a : List (String × Arr)) : eval (env junk8 junk16 fuel (depth + 3)) (.cons (.num 6) .nil) ⟨L, f, a⟩
        = (.ok (.tup [literal .numba 6]), ⟨L, f, a⟩) := rfl
    have e8 (f : List (String × Val)) : eval (env junk8 junk16 fuel (depth + 3)) (.call "np.empty.uint8" (.cons (.num 6) .nil)) ⟨L, f, W⟩
        = (.ok (.arr xi), ⟨L, f, put xi (.w8 6 junk8) W⟩) := by
      refine call_eval (by decide) (by decide) (e6 f W) ?_
      refine (given_call (g := empty8 junk8) rfl rfl _ _).trans ?_
      rw [empty8, show toInt (literal .numba 6) = some 6 from rfl]
      simp only [hxi]
      rfl
    rw [array_assign (e8 _) rfl]
    simp only
    have e9 (f : List (String × Val)) (hf : get "ivs" f = some (.arr xi)) : exec (env junk8 junk16 fuel (depth + 3)) [] fuel (.expr (.call "[:]=" (.cons (.self "ivs") (.cons (.var "ivs") .nil))))
        ⟨L, f, put xi (.w8 6 junk8) W⟩ = (.ok .next, ⟨L, f, put xi (.w8 6 m) W⟩) := by
      have : eval (env junk8 junk16 fuel (depth + 3)) (.call "[:]=" (.cons (.self "ivs") (.cons (.var "ivs") .nil))) ⟨L, f, put xi (.w8 6 junk8) W⟩
          = (.ok .none, ⟨L, f, put xi (.w8 6 m) W⟩) := by
        refine call_eval (by decide) (by decide) (cons_eval (self_eval hf) (cons_eval (Area3.var_eval Li) nil_eval)) ?_
        refine (given_call (g := copyAll) rfl rfl _ _).trans ?_
        simp only [copyAll, get_put, if_true, if_neg hxn, hx, put_put]
      simp only [exec, M.bind, this, M.pure]
    rw [seq_next (e9 _ rfl), self_assign rfl (cast_eval (Area3.var_eval Lb) (cast_of hb u8)) rfl (c8 _)]
    simp only
    -- line 99
    have e10 (f : List (String × Val)) (a : List (String × Arr)) : eval (env junk8 junk16 fuel (depth + 3))
        (.ite (.cmp .eq (.var "ability") (.num 0)) (.attr (.var "info") "ability_1") (.attr (.var "info") "ability_2")) ⟨L, f, a⟩
        = (.ok (.sc false 8 (if ability = 0 then info.ability1 else info.ability2)), ⟨L, f, a⟩) := by
      have hc : eval (env junk8 junk16 fuel (depth + 3)) (.cmp .eq (.var "ability") (.num 0)) ⟨L, f, a⟩ = (.ok (.bool (decide (ability = 0))), ⟨L, f, a⟩) := by
        have h0 : toInt (literal .numba 0) = some 0 := rfl
        simp only [eval, M.bind, Lb, M.pure, M.lift, compare, hb, h0, Nat.cast_eq_zero]
      have a1 : eval (env junk8 junk16 fuel (depth + 3)) (.attr (.var "info") "ability_1") ⟨L, f, a⟩ = (.ok (.sc false 8 info.ability1), ⟨L, f, a⟩) :=
        area_attr (w := ⟨L, f, a⟩) Ln rfl
      have a2 : eval (env junk8 junk16 fuel (depth + 3)) (.attr (.var "info") "ability_2") ⟨L, f, a⟩ = (.ok (.sc false 8 info.ability2), ⟨L, f, a⟩) :=
        area_attr (w := ⟨L, f, a⟩) Ln rfl
      rw [eval, M.bind, hc]
      simp only [M.bind, M.lift, truth]
      by_cases h : ability = 0
      · simp only [h, decide_true, if_true]; exact a1
      · simp only [h, decide_false, Bool.false_eq_true, if_false]; exact a2
    rw [self_assign rfl (e10 _ _) (t := u16) rfl (v' := .sc false 16 ((if ability = 0 then info.ability1 else info.ability2).setWidth 16)) rfl,
      self_assign rfl (cast_eval (Area3.var_eval Ll) (cast_of hl u8)) rfl (c8 _), self_assign rfl (cast_eval (Area3.var_eval Lh) (cast_of hh u8)) rfl (c8 _)]
    simp only
    -- lines 102-103
    have e16 (f : List (String × Val)) : eval (env junk8 junk16 fuel (depth + 3)) (.call "np.empty.uint16" (.cons (.num 6) .nil)) ⟨L, f, put xi (.w8 6 m) W⟩
        = (.ok (.arr xs), ⟨L, f, put xs (.w16 6 junk16) (put xi (.w8 6 m) W)⟩) := by
      refine call_eval (by decide) (by decide) (e6 f _) ?_
      refine (given_call (g := empty16 junk16) rfl rfl _ _).trans ?_
      rw [empty16, show toInt (literal .numba 6) = some 6 from rfl]
      simp only [hxs]
      rfl
    rw [array_assign (e16 _) rfl]
    simp only
    rw [exec, eval, M.bind, M.bind, cons_eval (Area3.var_eval Ln) nil_eval]
    have hpart : put "stats" (Val.arr xs) (put "shiny" (Val.sc false 8 (BitVec.ofNat 8 shiny)) (put "level" (Val.sc false 8 (BitVec.ofNat 8 level))
        (put "ability_index" (Val.sc false 16 ((if ability = 0 then info.ability1 else info.ability2).setWidth 16)) (put "ability" (Val.sc false 8 (BitVec.ofNat 8 ability))
        (put "ivs" (Val.arr xi) (put "form" (Val.sc false 8 (BitVec.ofNat 8 form)) (put "species" (Val.sc false 16 (BitVec.ofNat 16 species))
        (put "pid" (Val.sc false 32 (BitVec.ofNat 32 pid)) (put "advance" (Val.sc false 32 (BitVec.ofNat 32 advance)) [])))))))))
        = partFields (BitVec.ofNat 32 advance) (BitVec.ofNat 32 pid) (BitVec.ofNat 16 species) (BitVec.ofNat 8 form) xi (BitVec.ofNat 8 ability)
            ((if ability = 0 then info.ability1 else info.ability2).setWidth 16) (BitVec.ofNat 8 level) (BitVec.ofNat 8 shiny) xs := by
      simp [put, partFields]
    rw [hpart]
    simp only
    rw [h1]
    rfl
  have hi := invoke_next (F := Source.GeneratorState.__init__) (args := [av, pv, sv, fv, .arr x, bv, lv, hv, infoVal info]) (l := wl) (o := ⟨[], W⟩) (o' := ⟨_, _⟩) rfl rfl key
  refine hi.trans ?_
  simp only [Obj.world]
  congr 2

/-! ### `GeneratorState(...)` -/

/-- the elements of an array -/
def readOut (arrays : List (String × Arr)) : Val → Val
  | .arr x =>
    match get x arrays with
    | some (.w8 n m) => .tup ((List.range n).map fun i => .sc false 8 (m i))
    | some (.w16 n m) => .tup ((List.range n).map fun i => .sc false 16 (m i))
    | _ => .none
  | v => v

/-- the attributes (`gen3/state.py:20-33, 77`) -/
def attrs : List String :=
  ["advance", "pid", "species", "form", "stats", "ability_index", "ivs", "ability", "characteristic", "gender", "hidden_power", "hidden_power_strength",
   "level", "nature", "shiny"]

/-- the new object as a value -/
def objOf (w : World) : Val := .obj (attrs.map fun a => (a, readOut w.arrays ((get a w.fields).getD .none)))

/-- `GeneratorState(...)`: `__init__` runs on a new object. A level above 255 has no specified conversion to `uint8` if it is a double
(`.overflowError` here and in the model). -/
def newState (junk8 : Nat → BitVec 8) (junk16 : Nat → BitVec 16) (fuel depth : Nat) (args : List Val) : M Val := fun w =>
  match args[6]?.bind toInt with
  | some level =>
    if level < 256 then
      match run (prog junk8 junk16) .numba fuel depth "__init__" args ⟨[], [], w.arrays⟩ with
      | (.ok _, w') => (.ok (objOf w'), w)
      | (.error e, _) => (.error e, w)
    else (.error .overflowError, w)
  | .none => (.error .typeError, w)

theorem readOut_sc (arrays : List (String × Arr)) (s : Bool) (n : Nat) (x : BitVec n) : readOut arrays (.sc s n x) = .sc s n x := rfl

theorem objOf_state (s : State) (xi xs : String) (l : List (String × Val)) (A : List (String × Arr)) (r1 : readOut A (.arr xs) = .tup (s.stats.toList.map (.sc false 16)))
    (r2 : readOut A (.arr xi) = .tup (s.ivs.toList.map (.sc false 8))) : objOf ⟨l, fieldsOf s xi xs, A⟩ = stateVal s := by
  have g0 : get "advance" (fieldsOf s xi xs) = some (.sc false 32 s.advance) := rfl
  have g1 : get "pid" (fieldsOf s xi xs) = some (.sc false 32 s.pid) := rfl
  have g2 : get "species" (fieldsOf s xi xs) = some (.sc false 16 s.species) := rfl
  have g3 : get "form" (fieldsOf s xi xs) = some (.sc false 8 s.form) := rfl
  have g4 : get "stats" (fieldsOf s xi xs) = some (.arr xs) := rfl
  have g5 : get "ability_index" (fieldsOf s xi xs) = some (.sc false 16 s.abilityIndex) := rfl
  have g6 : get "ivs" (fieldsOf s xi xs) = some (.arr xi) := rfl
  have g7 : get "ability" (fieldsOf s xi xs) = some (.sc false 8 s.ability) := rfl
  have g8 : get "characteristic" (fieldsOf s xi xs) = some (.sc false 8 s.characteristic) := rfl
  have g9 : get "gender" (fieldsOf s xi xs) = some (.sc false 8 s.gender) := rfl
  have g10 : get "hidden_power" (fieldsOf s xi xs) = some (.sc false 8 s.hiddenPower) := rfl
  have g11 : get "hidden_power_strength" (fieldsOf s xi xs) = some (.sc false 8 (BitVec.ofInt 8 ⌊s.hiddenPowerStrength⌋)) := rfl
  have g12 : get "level" (fieldsOf s xi xs) = some (.sc false 8 s.level) := rfl
  have g13 : get "nature" (fieldsOf s xi xs) = some (.sc false 8 s.nature) := rfl
  have g14 : get "shiny" (fieldsOf s xi xs) = some (.sc false 8 s.shiny) := rfl
  simp only [objOf, attrs, List.map, g0, g1, g2, g3, g4, g5, g6, g7, g8, g9, g10, g11, g12, g13, g14, Option.getD, readOut_sc, r1, r2, stateVal]

theorem range_map {α β : Type} (v : Vector α 6) (f : Nat → α) (g : α → β) (h : ∀ j : Fin 6, f j = v[j]) : (List.range 6).map (fun i => g (f i)) = v.toList.map g := by
  refine List.ext_getElem (by simp) fun i h1 h2 => ?_
  have hi : i < 6 := by simpa using h1
  simpa using congrArg g (h ⟨i, hi⟩)

theorem newState_text (junk8 : Nat → BitVec 8) (junk16 : Nat → BitVec 16) (fuel depth : Nat) (hd : 4 ≤ depth) : StateFun (newState junk8 junk16 fuel depth) := by
  intro advance pid species form ability level shiny av pv sv fv bv lv hv x m info w ha hp hs hf hb hl hh hx
  have e6 : ([av, pv, sv, fv, .arr x, bv, lv, hv, infoVal info][6]?).bind toInt = some (level : Int) := hl
  rw [newState]
  simp only [e6]
  by_cases h256 : level < 256
  · rw [if_pos (by omega), if_pos h256]
    obtain ⟨s, xi, xs, f, h1, h2, h3, h4, h5⟩ := call_init junk8 junk16 fuel depth hd advance pid species form ability level shiny av pv sv fv bv lv hv ha hp hs hf hb hl hh
      x m info ⟨[], [], w.arrays⟩ rfl hx
    rw [h2, h1]
    have hiv : ∀ j : Fin 6, m j = s.ivs[j] := by
      intro j
      rw [new_eq] at h1
      cases h1
      simp
    have hne : ¬ xs = xi := by
      rintro rfl
      rw [get_put, if_pos rfl] at h4
      cases h4
    have r1 : readOut (put xs (.w16 6 f) (put xi (.w8 6 m) w.arrays)) (.arr xs) = .tup (s.stats.toList.map (.sc false 16)) := by
      rw [readOut, get_put, if_pos rfl]
      simp only [range_map s.stats f (Val.sc false 16) h5]
    have r2 : readOut (put xs (.w16 6 f) (put xi (.w8 6 m) w.arrays)) (.arr xi) = .tup (s.ivs.toList.map (.sc false 8)) := by
      rw [readOut, get_put, if_neg hne, get_put, if_pos rfl]
      simp only [range_map s.ivs m (Val.sc false 8) hiv]
    simp only [objOf_state s xi xs _ _ r1 r2]
    rfl
  · rw [if_neg (by omega), if_neg h256]
    rfl

end Verif.Py.State3
