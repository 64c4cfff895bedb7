import Verif.Py.Mt
import Verif.Model.Sfmt
/-
C133 for the function `sfmt_shuffle` of mersenne_twister/sfmt.py (lines 13-120).

The values of its variables have more than 32 bits (`state[0] << 8` is a 64-bit integer); what matters are the low 32. `sExpr` and
`sStmt` run a straight piece of code on the low 32 bits, and `sim` says that the program does the same. (They are a means of
proof: nothing rests on their definition.)
-/
namespace Verif.Py.SfmtShuffle
open Verif Verif.Py

/-- the value has 64 bits, of which the low 32 are `x` -/
def Low (mode : Mode) (v : Val) (x : BitVec 32) : Prop :=
  ∃ b y, v = .sc b 64 y ∧ (mode = .numpy → b = true) ∧ y.setWidth 32 = x

/-- an index: a constant, or the loop variable with something added or subtracted -/
def sIndex (i : Option Nat) : Expr → Option Nat
  | .num (.ofNat n) => if n < 624 then some n else none
  | .var x => if x = "i" then i.bind fun k => if k < 624 then some k else none else none
  | .bin .add (.var x) (.num (.ofNat n)) => if x = "i" then i.bind fun k => if k + n < 624 then some (k + n) else none else none
  | .bin .sub (.var x) (.num (.ofNat n)) =>
    if x = "i" then i.bind fun k => if n ≤ k ∧ k < 624 then some (k - n) else none else none
  | _ => none

/-- the low 32 bits of an expression -/
def sExpr (i : Option Nat) (m : Mem) (ρ : List (String × BitVec 32)) : Expr → Option (BitVec 32)
  | .var x => get x ρ
  | .bin .shl (.item (.var s) e) (.num (.ofNat n)) =>
    if s = "state" ∧ n < 32 then (sIndex i e).map fun k => m k <<< n else none
  | .bin .shr (.item (.var s) e) (.num (.ofNat n)) =>
    if s = "state" ∧ n < 32 then (sIndex i e).map fun k => m k >>> n else none
  | .bin .and a (.num (.ofNat n)) => (sExpr i m ρ a).map fun x => x &&& BitVec.ofNat 32 n
  | .bin .or a b => (sExpr i m ρ a).bind fun x => (sExpr i m ρ b).map fun y => x ||| y
  | .bin .xor a b => (sExpr i m ρ a).bind fun x => (sExpr i m ρ b).map fun y => x ^^^ y
  | _ => none

/-- the array and the low 32 bits of the variables after a piece of code -/
def sStmt (i : Option Nat) : Stmt → Mem × List (String × BitVec 32) → Option (Mem × List (String × BitVec 32))
  | .seq a b, s => (sStmt i a s).bind fun s => sStmt i b s
  | .assign (.var x) e, s => if x = "i" ∨ x = "state" then none else (sExpr i s.1 s.2 e).map fun v => (s.1, put x v s.2)
  | .aug .xor (.item (.var a) e) f, s =>
    if a = "state" then (sIndex i e).bind fun k => (sExpr i s.1 s.2 f).map fun v => (s.1.set k (s.1 k ^^^ v), s.2) else none
  | _, _ => none

/-- the world holds this array and these variables -/
structure Holds (mode : Mode) (fields : List (String × Val)) (i : Option Nat) (s : Mem × List (String × BitVec 32)) (w : World) : Prop where
  fields : w.fields = fields
  arrays : w.arrays = [("state", .w32 624 s.1)]
  state : get "state" w.locals = some (.arr "state")
  index : ∀ k, i = some k → get "i" w.locals = some (literal mode k)
  vars : ∀ x v, get x s.2 = some v → ∃ u, get x w.locals = some u ∧ Low mode u v
  fresh : get "i" s.2 = none

variable {E : Env} {F : List (String × Val)} {i : Option Nat} {s : Mem × List (String × BitVec 32)} {w : World}

theorem index_sound (h : Holds E.mode F i s w) : ∀ (e : Expr) {k : Nat}, sIndex i e = some k →
    ∃ v, eval E e w = (.ok v, w) ∧ position 624 v = .ok k
  | .num (.ofNat n), k, hk => by
    simp only [sIndex] at hk
    split at hk <;> simp at hk
    subst hk
    refine ⟨_, num_eval, ?_⟩
    rw [Int.ofNat_eq_natCast, position_literal _ _ _ (by omega)]
    simp [*]
  | .var x, k, hk => by
    simp only [sIndex] at hk
    split at hk <;> simp [Option.bind_eq_some_iff] at hk
    rename_i hx
    subst hx
    obtain ⟨h1, h2⟩ := hk
    refine ⟨_, var_eval (h.index _ h1), ?_⟩
    rw [position_literal _ _ _ (by omega)]
    simp [h2]
  | .bin .add (.var x) (.num (.ofNat n)), k, hk => by
    simp only [sIndex] at hk
    split at hk <;> simp [Option.bind_eq_some_iff] at hk
    rename_i hx
    subst hx
    obtain ⟨j, h1, h2, rfl⟩ := hk
    refine ⟨_, bin_eval (var_eval (h.index _ h1)) num_eval (literal_add _ _ _), ?_⟩
    rw [position_literal _ _ _ (by omega)]
    simp [h2]
  | .bin .sub (.var x) (.num (.ofNat n)), k, hk => by
    simp only [sIndex] at hk
    split at hk <;> simp [Option.bind_eq_some_iff] at hk
    rename_i hx
    subst hx
    obtain ⟨j, h1, h2, rfl⟩ := hk
    refine ⟨_, bin_eval (var_eval (h.index _ h1)) num_eval (literal_sub _ _ _ (by omega)), ?_⟩
    rw [position_literal _ _ _ (by omega)]
    simp
    omega

theorem item_sound (h : Holds E.mode F i s w) {e : Expr} {k : Nat} (hk : sIndex i e = some k) :
    eval E (.item (.var "state") e) w = (.ok (.sc false 32 (s.1 k)), w) := by
  obtain ⟨v, h1, h2⟩ := index_sound h e hk
  exact item_eval k (var_eval h.state) h1 (by rw [h.arrays]; rfl) h2

theorem Low.or {mode : Mode} {u v : Val} {x y : BitVec 32} (h1 : Low mode u x) (h2 : Low mode v y) :
    ∃ r, binop mode .or u v = .ok r ∧ Low mode r (x ||| y) := by
  obtain ⟨b, a, rfl, hb, rfl⟩ := h1
  obtain ⟨c, d, rfl, hc, rfl⟩ := h2
  refine ⟨.sc (b || c) 64 (a ||| d), ?_, _, _, rfl, fun h => by simp [hb h], by simp⟩
  cases mode
  · cases b <;> cases c <;> simp [py]
  · simp [hb rfl, hc rfl, py]

theorem Low.xor {mode : Mode} {u v : Val} {x y : BitVec 32} (h1 : Low mode u x) (h2 : Low mode v y) :
    ∃ r, binop mode .xor u v = .ok r ∧ Low mode r (x ^^^ y) := by
  obtain ⟨b, a, rfl, hb, rfl⟩ := h1
  obtain ⟨c, d, rfl, hc, rfl⟩ := h2
  refine ⟨.sc (b || c) 64 (a ^^^ d), ?_, _, _, rfl, fun h => by simp [hb h], by simp⟩
  cases mode
  · cases b <;> cases c <;> simp [py]
  · simp [hb rfl, hc rfl, py]

theorem Low.and {mode : Mode} {u : Val} {x : BitVec 32} (h1 : Low mode u x) (n : Nat) :
    ∃ r, binop mode .and u (literal mode (.ofNat n)) = .ok r ∧ Low mode r (x &&& BitVec.ofNat 32 n) := by
  obtain ⟨b, a, rfl, hb, rfl⟩ := h1
  refine ⟨.sc true 64 (a &&& BitVec.ofNat 64 n), ?_, _, _, rfl, fun h => rfl, by simp⟩
  cases mode
  · cases b <;> simp [py]
  · simp [hb rfl, py]

theorem low_shl (mode : Mode) (x : BitVec 32) (n : Nat) (hn : n < 32) :
    ∃ r, binop mode .shl (.sc false 32 x) (literal mode (.ofNat n)) = .ok r ∧ Low mode r (x <<< n) := by
  have h2 : n < 64 := by omega
  cases mode
  · exact ⟨.sc false 64 (x.setWidth 64 <<< n), by simp [py, Mt.small64 n hn, h2], _, _, rfl, by simp, by simp⟩
  · exact ⟨.sc true 64 (x.setWidth 64 <<< n), by simp [py, Mt.small64 n hn, h2], _, _, rfl, by simp, by simp⟩

theorem low_shr (mode : Mode) (x : BitVec 32) (n : Nat) (hn : n < 32) :
    ∃ r, binop mode .shr (.sc false 32 x) (literal mode (.ofNat n)) = .ok r ∧ Low mode r (x >>> n) := by
  have h2 : n < 64 := by omega
  cases mode
  · exact ⟨.sc false 64 (x.setWidth 64 >>> n), by simp [py, Mt.small64 n hn, h2], _, _, rfl, by simp, narrow_shr x n⟩
  · refine ⟨.sc true 64 (x.setWidth 64 >>> n), ?_, _, _, rfl, by simp, narrow_shr x n⟩
    simp [py, Mt.small64 n hn, h2]
    rw [BitVec.sshiftRight_eq_of_msb_false (by simp [BitVec.msb_setWidth])]

theorem expr_sound (h : Holds E.mode F i s w) : ∀ (e : Expr) {x : BitVec 32}, sExpr i s.1 s.2 e = some x →
    ∃ v, eval E e w = (.ok v, w) ∧ Low E.mode v x := by
  intro e
  fun_induction sExpr i s.1 s.2 e with
  | case1 x =>
    intro v hv
    obtain ⟨u, h1, h2⟩ := h.vars _ _ hv
    exact ⟨u, var_eval h1, h2⟩
  | case2 st e n hc =>
    intro x hx
    obtain ⟨rfl, hn⟩ := hc
    obtain ⟨k, hk, rfl⟩ := Option.map_eq_some_iff.1 hx
    obtain ⟨r, h1, h2⟩ := low_shl E.mode (s.1 k) n hn
    exact ⟨r, bin_eval (item_sound h hk) num_eval h1, h2⟩
  | case3 => intro x hx; simp at hx
  | case4 st e n hc =>
    intro x hx
    obtain ⟨rfl, hn⟩ := hc
    obtain ⟨k, hk, rfl⟩ := Option.map_eq_some_iff.1 hx
    obtain ⟨r, h1, h2⟩ := low_shr E.mode (s.1 k) n hn
    exact ⟨r, bin_eval (item_sound h hk) num_eval h1, h2⟩
  | case5 => intro x hx; simp at hx
  | case6 a n ih =>
    intro x hx
    obtain ⟨y, hy, rfl⟩ := Option.map_eq_some_iff.1 hx
    obtain ⟨v, h1, h2⟩ := ih hy
    obtain ⟨r, h3, h4⟩ := h2.and n
    exact ⟨r, bin_eval h1 num_eval h3, h4⟩
  | case7 a b ih1 ih2 =>
    intro x hx
    obtain ⟨y, hy, hx⟩ := Option.bind_eq_some_iff.1 hx
    obtain ⟨z, hz, rfl⟩ := Option.map_eq_some_iff.1 hx
    obtain ⟨u, h1, h2⟩ := ih1 hy
    obtain ⟨v, h3, h4⟩ := ih2 hz
    obtain ⟨r, h5, h6⟩ := h2.or h4
    exact ⟨r, bin_eval h1 h3 h5, h6⟩
  | case8 a b ih1 ih2 =>
    intro x hx
    obtain ⟨y, hy, hx⟩ := Option.bind_eq_some_iff.1 hx
    obtain ⟨z, hz, rfl⟩ := Option.map_eq_some_iff.1 hx
    obtain ⟨u, h1, h2⟩ := ih1 hy
    obtain ⟨v, h3, h4⟩ := ih2 hz
    obtain ⟨r, h5, h6⟩ := h2.xor h4
    exact ⟨r, bin_eval h1 h3 h5, h6⟩
  | case9 => intro x hx; simp at hx

theorem aug_item {fuel : Nat} {a j e : Expr} {f : String} {n k : Nat} {m : Mem} {v u r : Val} {x : BitVec 32}
    (h1 : eval E a w = (.ok (.arr f), w)) (h2 : eval E j w = (.ok u, w)) (h3 : get f w.arrays = some (.w32 n m))
    (h4 : position n u = .ok k) (h : eval E e w = (.ok v, w)) (h5 : binop E.mode .xor (.sc false 32 (m k)) v = .ok r)
    (h6 : cast u32 r = .ok (.sc false 32 x)) :
    exec E [] fuel (.aug .xor (.item a j) e) w = (.ok .next, ⟨w.locals, w.fields, put f (.w32 n (m.set k x)) w.arrays⟩) := by
  simp [exec, M.bind, item_eval k h1 h2 h3 h4, h, M.lift, h5, store, h1, h2, storeItem, h3, Arr.len, h4, Arr.store, h6, M.pure]

theorem low_store {mode : Mode} {v : Val} {x : BitVec 32} (y : BitVec 32) (h : Low mode v x) :
    ∃ r, binop mode .xor (.sc false 32 y) v = .ok r ∧ cast u32 r = .ok (.sc false 32 (y ^^^ x)) := by
  obtain ⟨b, a, rfl, hb, rfl⟩ := h
  refine ⟨.sc b 64 (y.setWidth 64 ^^^ a), ?_, by cases b <;> simp [py]⟩
  cases mode
  · cases b <;> simp [py]
  · simp [hb rfl, py]

/-- the code does what `sStmt` says -/
theorem sim (fuel : Nat) : ∀ (c : Stmt) (s : Mem × List (String × BitVec 32)) (w : World) {s' : Mem × List (String × BitVec 32)},
    Holds E.mode F i s w → sStmt i c s = some s' → ∃ w', exec E [] fuel c w = (.ok .next, w') ∧ Holds E.mode F i s' w' := by
  intro c s
  fun_induction sStmt i c s with
  | case1 s a b ih1 ih2 =>
    intro w s' h hs
    obtain ⟨s1, e1, e2⟩ := Option.bind_eq_some_iff.1 hs
    obtain ⟨w1, h1, h2⟩ := ih1 w h e1
    obtain ⟨w2, h3, h4⟩ := ih2 s1 w1 h2 e2
    exact ⟨w2, (seq_next h1).trans h3, h4⟩
  | case2 => intro w s' h hs; simp at hs
  | case3 x e s hx =>
    intro w s' h hs
    obtain ⟨v, e1, rfl⟩ := Option.map_eq_some_iff.1 hs
    obtain ⟨u, h1, h2⟩ := expr_sound h e e1
    simp only [not_or] at hx
    refine ⟨_, assign_var h1, h.fields, h.arrays, ?_, ?_, ?_, ?_⟩
    · simp only [get_put, hx.2, if_false, h.state]
    · intro k hk
      simp only [get_put, hx.1, if_false, h.index k hk]
    · intro z v' hz
      simp only [get_put] at hz ⊢
      split at hz
      · rename_i hxz
        simp only [Option.some.injEq] at hz
        exact ⟨u, by simp [hxz], hz ▸ h2⟩
      · rename_i hxz
        simpa [hxz] using h.vars z v' hz
    · simp only [get_put, hx.1, if_false, h.fresh]
  | case4 e f s =>
    intro w s' h hs
    obtain ⟨k, e1, hs⟩ := Option.bind_eq_some_iff.1 hs
    obtain ⟨v, e2, rfl⟩ := Option.map_eq_some_iff.1 hs
    obtain ⟨u, h1, h2⟩ := expr_sound h f e2
    obtain ⟨j, h3, h4⟩ := index_sound h e e1
    obtain ⟨r, h5, h6⟩ := low_store (s.1 k) h2
    refine ⟨_, aug_item (var_eval h.state) h3 (by rw [h.arrays]; rfl) h4 h1 h5 h6, h.fields, ?_, h.state, h.index, h.vars, h.fresh⟩
    rw [h.arrays]
    rfl
  | case5 => intro w s' h hs; simp at hs
  | case6 => intro w s' h hs; simp at hs

/-- run the first `n` statements of a sequence; what is left -/
def sFirst (i : Option Nat) : Nat → Stmt → Mem × List (String × BitVec 32) → Option ((Mem × List (String × BitVec 32)) × Stmt)
  | 0, c, s => some (s, c)
  | n + 1, .seq a b, s => (sStmt i a s).bind fun s => sFirst i n b s
  | _ + 1, _, _ => none

theorem sim_first (fuel : Nat) : ∀ (n : Nat) (c : Stmt) (s : Mem × List (String × BitVec 32)) (w : World)
    {s' : Mem × List (String × BitVec 32)} {d : Stmt}, Holds E.mode F i s w → sFirst i n c s = some (s', d) →
    ∃ w', exec E [] fuel c w = exec E [] fuel d w' ∧ Holds E.mode F i s' w'
  | 0, c, s, w, s', d, h, e => by
    simp only [sFirst, Option.some.injEq, Prod.mk.injEq] at e
    obtain ⟨rfl, rfl⟩ := e
    exact ⟨w, rfl, h⟩
  | n + 1, c, s, w, s', d, h, e => by
    cases c with
    | seq a b =>
      obtain ⟨s1, e1, e2⟩ := Option.bind_eq_some_iff.1 e
      obtain ⟨w1, h1, h2⟩ := sim fuel a s w h e1
      obtain ⟨w2, h3, h4⟩ := sim_first fuel n b s1 w1 h2 e2
      exact ⟨w2, (seq_next h1).trans h3, h4⟩
    | _ => simp [sFirst] at e

/-- the statements after the first `n` -/
def rest : Nat → Stmt → Stmt
  | n + 1, .seq _ b => rest n b
  | _, c => c

/-- the body of a loop -/
def forBody : Stmt → Stmt
  | .for _ _ c => c
  | .seq a _ => forBody a
  | c => c

theorem group0 (m : Mem) (ρ : List (String × BitVec 32)) :
    ∃ ρ', sFirst none 20 Source.sfmt_shuffle.body (m, ρ) = some ((Sfmt.pyStep m 0 488 616 620, ρ'), rest 20 Source.sfmt_shuffle.body) := by
  simp [Source.sfmt_shuffle, sFirst, sStmt, sExpr, sIndex, get_put, rest, Sfmt.pyStep, Mem.set_ne]

theorem group1 (m : Mem) (ρ : List (String × BitVec 32)) :
    ∃ ρ', sFirst none 20 (rest 20 Source.sfmt_shuffle.body) (m, ρ)
      = some ((Sfmt.pyStep m 4 492 620 0, ρ'), rest 40 Source.sfmt_shuffle.body) := by
  simp [Source.sfmt_shuffle, sFirst, sStmt, sExpr, sIndex, get_put, rest, Sfmt.pyStep, Mem.set_ne]

theorem xor_order (x b d y : BitVec 32) : x ^^^ b ^^^ d ^^^ y = x ^^^ y ^^^ b ^^^ d := by ac_rfl

theorem set4_congr {m : Mem} {i a a' b b' c c' d d'} (h0 : a = a') (h1 : b = b') (h2 : c = c') (h3 : d = d') :
    (((m.set i a).set (i + 1) b).set (i + 2) c).set (i + 3) d = (((m.set i a').set (i + 1) b').set (i + 2) c').set (i + 3) d' := by
  rw [h0, h1, h2, h3]

theorem group2 (m : Mem) (ρ : List (String × BitVec 32)) (j : Nat) (hj : j + 8 + 488 + 3 < 624) :
    ∃ ρ', sStmt (some (j + 8)) (forBody (rest 40 Source.sfmt_shuffle.body)) (m, ρ)
      = some (Sfmt.pyStep m (j + 8) (j + 8 + 488) j (j + 4), ρ') := by
  have h (k : Nat) (hk : k ≤ 491) : j + 8 + k < 624 := by omega
  have h' (k : Nat) (hk : k ≤ 499) : j + k < 624 := by omega
  simp [Source.sfmt_shuffle, forBody, sStmt, sExpr, sIndex, get_put, rest, Sfmt.pyStep, Mem.set_ne, h, h']
  apply set4_congr <;> congr 1 <;> rw [xor_order]

theorem group3 (m : Mem) (ρ : List (String × BitVec 32)) (j : Nat) (hj : j + 136 + 3 < 624) :
    ∃ ρ', sStmt (some (j + 136)) (forBody (rest 41 Source.sfmt_shuffle.body)) (m, ρ)
      = some (Sfmt.pyStep m (j + 136) j (j + 128) (j + 132), ρ') := by
  have h (k : Nat) (hk : k ≤ 3) : j + 136 + k < 624 := by omega
  have h' (k : Nat) (hk : k ≤ 139) : j + k < 624 := by omega
  simp [Source.sfmt_shuffle, forBody, sStmt, sExpr, sIndex, get_put, rest, Sfmt.pyStep, Mem.set_ne, h, h']
  apply set4_congr <;> congr 1 <;> rw [xor_order]

theorem Holds.enter {m : Mode} (h : Holds m F none s w) (k : Nat) :
    Holds m F (some k) s ⟨put "i" (literal m k) w.locals, w.fields, w.arrays⟩ where
  fields := h.fields
  arrays := h.arrays
  state := by simp [get_put, h.state]
  index := by simp [get_put]
  vars := by
    intro x v hx
    have : "i" ≠ x := by
      rintro rfl
      rw [h.fresh] at hx
      simp at hx
    simpa [get_put, this] using h.vars x v hx
  fresh := h.fresh

theorem Holds.leave {m : Mode} (h : Holds m F i s w) : Holds m F none s w where
  fields := h.fields
  arrays := h.arrays
  state := h.state
  index := by simp
  vars := h.vars
  fresh := h.fresh

/-- a loop over some values of the loop variable -/
theorem loop_sim (fuel : Nat) {c : Stmt} (g : Mem → Nat → Mem) : ∀ (is : List Nat)
    (_ : ∀ k ∈ is, ∀ m ρ, ∃ ρ', sStmt (some k) c (m, ρ) = some (g m k, ρ')) (m : Mem) (ρ : List (String × BitVec 32)) (w : World),
    Holds E.mode F none (m, ρ) w → ∃ ρ' w',
      loop (fun v => (storeLocal E [] "i" v).bind fun _ => exec E [] fuel c) (is.map fun (k : Nat) => literal E.mode k) w
        = (.ok .next, w') ∧ Holds E.mode F none (is.foldl g m, ρ') w'
  | [], _, m, ρ, w, h => ⟨ρ, w, rfl, h⟩
  | k :: is, hs, m, ρ, w, h => by
    obtain ⟨ρ1, e1⟩ := hs k (by simp) m ρ
    obtain ⟨w1, h1, h2⟩ := sim fuel c (m, ρ) _ (h.enter k) e1
    obtain ⟨ρ2, w2, h3, h4⟩ := loop_sim fuel g is (fun k hk => hs k (by simp [hk])) _ ρ1 w1 h2.leave
    refine ⟨ρ2, w2, ?_, h4⟩
    simp only [List.map_cons, loop, M.bind, storeLocal_nil, h1]
    exact h3

/-- `for i in range(a, a + 4 * n, 4)` with constants -/
theorem for_step {fuel : Nat} {x : String} {body : Stmt} (a b n : Nat) (ha : a < 2 ^ 63) (hb : b < 2 ^ 63) (hn : b = a + 4 * n) :
    exec E [] fuel (.for x (.call "range" (.cons (.num a) (.cons (.num b) (.cons (.num (4 : Nat)) .nil)))) body) w
      = loop (fun v => (storeLocal E [] x v).bind fun _ => exec E [] fuel body)
        ((List.range' a n 4).map fun (k : Nat) => literal E.mode k) w := by
  simp only [exec, eval, M.bind, M.pure, builtin, if_true, M.lift, range, toInt_literal _ _ ha, toInt_literal _ _ hb,
    toInt_literal _ 4 (by decide)]
  have e : (((b : Int) - a + (4 : Nat) - 1) / (4 : Nat)).toNat = n := by omega
  have l : ((List.range n).map fun (i : Nat) => literal E.mode ((a : Int) + (4 : Nat) * i))
      = (List.range' a n 4).map fun (k : Nat) => literal E.mode k := by
    apply List.ext_getElem <;> simp
  rw [if_pos (by decide), e, l]

theorem pyShuffle_eq (m : Mem) : Sfmt.pyShuffle m =
    (List.range' 136 122 4).foldl (fun m i => Sfmt.pyStep m i (i - 136) (i - 8) (i - 4))
      ((List.range' 8 32 4).foldl (fun m i => Sfmt.pyStep m i (i + 488) (i - 8) (i - 4))
        (Sfmt.pyStep (Sfmt.pyStep m 0 488 616 620) 4 492 620 0)) := by
  simp only [Sfmt.pyShuffle, Sfmt.pyIdx, List.foldl_append, List.foldl_map, List.foldl_cons, List.foldl_nil]

theorem shuffle_exec (fuel : Nat) (m : Mem) : ∃ l,
    exec E [] fuel Source.sfmt_shuffle.body ⟨[("state", .arr "state")], F, [("state", .w32 624 m)]⟩
      = (.ok .next, ⟨l, F, [("state", .w32 624 (Sfmt.pyShuffle m))]⟩) := by
  have h0 : Holds E.mode F none (m, []) ⟨[("state", .arr "state")], F, [("state", .w32 624 m)]⟩ :=
    ⟨rfl, rfl, rfl, by simp, by simp [get], rfl⟩
  obtain ⟨ρ1, g1⟩ := group0 m []
  obtain ⟨w1, e1, h1⟩ := sim_first fuel _ _ _ _ h0 g1
  obtain ⟨ρ2, g2⟩ := group1 (Sfmt.pyStep m 0 488 616 620) ρ1
  obtain ⟨w2, e2, h2⟩ := sim_first fuel _ _ _ _ h1 g2
  obtain ⟨ρ3, w3, e3, h3⟩ := loop_sim fuel (c := forBody (rest 40 Source.sfmt_shuffle.body)) (fun m i => Sfmt.pyStep m i (i + 488) (i - 8) (i - 4))
    (List.range' 8 32 4) (by
      intro k hk m ρ
      obtain ⟨j, hj, rfl⟩ := List.mem_range'.1 hk
      obtain ⟨ρ', h⟩ := group2 m ρ (4 * j) (by omega)
      refine ⟨ρ', ?_⟩
      rw [show 8 + 4 * j - 8 = 4 * j by omega, show 8 + 4 * j - 4 = 4 * j + 4 by omega, Nat.add_comm 8]
      exact h) _ _ _ h2
  obtain ⟨ρ4, w4, e4, h4⟩ := loop_sim fuel (c := forBody (rest 41 Source.sfmt_shuffle.body)) (fun m i => Sfmt.pyStep m i (i - 136) (i - 8) (i - 4))
    (List.range' 136 122 4) (by
      intro k hk m ρ
      obtain ⟨j, hj, rfl⟩ := List.mem_range'.1 hk
      obtain ⟨ρ', h⟩ := group3 m ρ (4 * j) (by omega)
      refine ⟨ρ', ?_⟩
      rw [show 136 + 4 * j - 136 = 4 * j by omega, show 136 + 4 * j - 8 = 4 * j + 128 by omega, show 136 + 4 * j - 4 = 4 * j + 132 by omega,
        Nat.add_comm 136]
      exact h) _ _ _ h3
  refine ⟨w4.locals, ?_⟩
  rw [e1, e2]
  have e5 : exec E [] fuel (rest 40 Source.sfmt_shuffle.body) w2 = (.ok .next, w4) := by
    refine Eq.trans (seq_next (w' := w3) ?_) ?_
    · rw [← e3]
      exact for_step 8 136 32 (by decide) (by decide) rfl
    · rw [← e4]
      exact for_step 136 624 122 (by decide) (by decide) rfl
  rw [e5]
  have e6 := h4.fields
  have e7 := h4.arrays
  cases w4
  simp only at e6 e7
  subst e6 e7
  rw [pyShuffle_eq]

end Verif.Py.SfmtShuffle
