import Verif.Py.Mt
import Verif.Py.Util
import Verif.Py.Lcrng64
import Verif.Model.Sha1
/-
C133 for sha1.py: the source text computes what the model says.
-/
namespace Verif.Py.Sha1
open Verif Verif.Sha1

/-! ### the program -/

/-- a name no array has -/
def fresh (l : List (String × Arr)) : String := String.ofList (List.replicate ((l.map fun e => e.1.length).sum + 1) '#')

theorem get_long (x : String) : ∀ (l : List (String × Arr)), (l.map fun e => e.1.length).sum < x.length → get x l = none
  | [], _ => rfl
  | (y, v) :: l, h => by
    simp only [List.map_cons, List.sum_cons] at h
    have h1 : y ≠ x := by rintro rfl; omega
    rw [get, if_neg h1, get_long x l (by omega)]

theorem get_fresh (l : List (String × Arr)) : get (fresh l) l = none := by
  apply get_long
  rw [fresh, String.length_ofList, List.length_replicate]
  omega

/-- `np.empty(n, dtype=np.uint32)`: a new array; its contents can be anything -/
def empty (junk : Mem) (args : List Val) : M Val := fun w =>
  match args with
  | [n] =>
    match toInt n with
    | some n => (.ok (.arr (fresh w.arrays)), { w with arrays := put (fresh w.arrays) (.w32 n.toNat junk) w.arrays })
    | .none => (.error .typeError, w)
  | _ => (.error .typeError, w)

/-- `np.zeros(n, dtype=np.uint32)` -/
def zeros (args : List Val) : M Val := empty ⟨fun _ => 0⟩ args

/-- the first `n` elements of the array `src` into `dst` -/
def copyTo (dst src : Mem) : Nat → Mem
  | 0 => dst
  | n + 1 => (copyTo dst src n).set n (src n)

/-- `a[:n] = b` for arrays, where `b` has `n` elements and `a` no fewer -/
def setSlice (args : List Val) : M Val := fun w =>
  match args with
  | [.arr a, n, .arr b] =>
    match toInt n, get a w.arrays, get b w.arrays with
    | some n, some (.w32 la ma), some (.w32 lb mb) =>
      if lb = n.toNat ∧ lb ≤ la then (.ok .none, { w with arrays := put a (.w32 la (copyTo ma mb lb)) w.arrays })
      else (.error .valueError, w)
    | _, _, _ => (.error .typeError, w)
  | _ => (.error .typeError, w)

/-- `BWRNG(seed).next()`: the method of a new object of the class of lcrng64.py -/
def bwrngNext (mode : Mode) (args : List Val) : M Val := fun w =>
  match args with
  | [seed] =>
    match run (Lcrng64.prog Lcrng.bwrngParams Source.LCRNG64.next_rand) mode 0 1 "re_init" [seed] ⟨[], [("seed", .none)], []⟩ with
    | (.ok _, w1) => ((run (Lcrng64.prog Lcrng.bwrngParams Source.LCRNG64.next_rand) mode 0 1 "next" [] w1).1, w)
    | (.error e, _) => (.error e, w)
  | _ => (.error .typeError, w)

/-- the tuple `BCD` of lines 195-198 -/
def bcdTable : List Val := (List.range 100).map fun i => .sc false 32 (BitVec.ofNat 32 ((i / 10) <<< 4 ||| i % 10))

/-- the module sha1.py and the class `SHA1`; `junk` is what new arrays contain. The arrays `ENGLISH_BLACK`, … of lines 50-111 have
their own names. -/
def prog (mode : Mode) (junk : Mem) : Prog where
  funs := [("section1_calc", Source.section1_calc), ("section2_calc", Source.section2_calc), ("section3_calc", Source.section3_calc),
    ("section4_calc", Source.section4_calc), ("rotate_left_u32", Source.rotate_left_u32), ("rotate_right_u32", Source.rotate_right_u32),
    ("change_endian_u32", Source.change_endian_u32), ("compute_nazo_bw", Source.compute_nazo_bw),
    ("compute_nazo_bw2", Source.compute_nazo_bw2), ("get_nazo", Source.get_nazo), ("__init__", Source.SHA1.__init__),
    ("hash_seed", Source.SHA1.hash_seed), ("precompute", Source.SHA1.precompute), ("set_button", Source.SHA1.set_button),
    ("set_date", Source.SHA1.set_date), ("set_timer0", Source.SHA1.set_timer0), ("set_time", Source.SHA1.set_time),
    ("calc_w", Source.SHA1.calc_w), ("calc_w_simd", Source.SHA1.calc_w_simd)]
  globals := ("BCD", .tup bcdTable) :: ((Source.enums.map fun e => (e.1, literal mode e.2)) ++ Source.sha1_constants.map fun c => (c.1, .arr c.1))
  fieldTypes := [("ds_type", u8)]
  given := [("np.empty.uint32", empty junk), ("np.zeros.uint32", zeros), ("[:]=", setSlice), ("BWRNG.next", bwrngNext mode)]

/-! ### functions of util.py -/

theorem c32 (x : BitVec 32) : cast u32 (.sc false 32 x) = .ok (.sc false 32 x) := by simp [py]

theorem c8 (x : BitVec 8) : cast u8 (.sc false 8 x) = .ok (.sc false 8 x) := by simp [py]

theorem storeLocal_numpy {E : Env} (hm : E.mode = .numpy) (types : List (String × Ty)) (x : String) (v : Val) (w : World) :
    storeLocal E types x v w = (.ok (), { w with locals := put x v w.locals }) := by simp [storeLocal, hm]

/-- a function that begins by converting its arguments to the declared types -/
theorem recast1 {E : Env} {fuel : Nat} {F : Fun} {p : String} {t : Ty} {rest : Stmt} {v v' : Val} {w : World} (hp : F.params = [p])
    (ha : F.args = some [t]) (hb : F.body = .seq (.assign (.var p) (.cast t (.var p))) rest)
    (hv : cast t v = .ok v') (hv' : cast t v' = .ok v') : invoke E fuel F [v] w = invoke E fuel F [v'] w := by
  cases hm : E.mode
  · simp only [invoke, hm, ha, castArgs, Except.bind, hv, hv']
  · simp only [invoke, hm, ha, castArgs, hp, hb, List.length_cons, List.length_nil, if_true, List.zip_cons_cons, List.zip_nil_left, exec,
      eval, M.bind, get, M.lift, M.pure, hv, hv', store, storeLocal_numpy hm, put]

theorem recast2 {E : Env} {fuel : Nat} {F : Fun} {p q : String} {t u : Ty} {rest : Stmt} {v v' k k' : Val} {w : World} (hp : F.params = [p, q])
    (ha : F.args = some [t, u])
    (hb : F.body = .seq (.assign (.var p) (.cast t (.var p))) (.seq (.assign (.var q) (.cast u (.var q))) rest)) (hpq : p ≠ q)
    (hv : cast t v = .ok v') (hv' : cast t v' = .ok v') (hk : cast u k = .ok k') (hk' : cast u k' = .ok k') :
    invoke E fuel F [v, k] w = invoke E fuel F [v', k'] w := by
  cases hm : E.mode
  · simp only [invoke, hm, ha, castArgs, Except.bind, hv, hv', hk, hk']
  · simp only [invoke, hm, ha, castArgs, hp, hb, List.length_cons, List.length_nil, if_true, List.zip_cons_cons, List.zip_nil_left, exec,
      eval, M.bind, get, M.lift, M.pure, hv, hv', hk, hk', store, storeLocal_numpy hm, put, if_neg hpq]

theorem rotateLeft_invoke (E : Env) (fuel : Nat) (v k : Val) (x : BitVec 32) (n : BitVec 8) (w : World)
    (hv : cast u32 v = .ok (.sc false 32 x)) (hk : cast u8 k = .ok (.sc false 8 n)) (hn : n = 1#8 ∨ n = 2#8 ∨ n = 5#8) :
    invoke E fuel Source.rotate_left_u32 [v, k] w = (.ok (.sc false 32 (rotl E.mode x n.toNat)), w) := by
  rw [recast2 rfl rfl rfl (by decide) hv (c32 _) hk (c8 _), Util.rotateLeft32_invoke]
  rcases hn with rfl | rfl | rfl <;> cases E.mode <;>
    simp [Util.undef, rotl, Util.rotateLeft32, Util.orOpt, Util.shl, Util.shr, Util.subCount]

theorem rotateRight_invoke (E : Env) (fuel : Nat) (v k : Val) (x : BitVec 32) (n : BitVec 8) (w : World)
    (hv : cast u32 v = .ok (.sc false 32 x)) (hk : cast u8 k = .ok (.sc false 8 n)) (hn : n = 2#8) :
    invoke E fuel Source.rotate_right_u32 [v, k] w = (.ok (.sc false 32 (rotr E.mode x n.toNat)), w) := by
  rw [recast2 rfl rfl rfl (by decide) hv (c32 _) hk (c8 _), Util.rotateRight32_invoke]
  rcases hn with rfl <;> cases E.mode <;>
    simp [Util.undef, rotr, Util.rotateRight32, Util.orOpt, Util.shl, Util.shr, Util.subCount]

theorem changeEndian_invoke (E : Env) (fuel : Nat) (v : Val) (x : BitVec 32) (w : World) (hv : cast u32 v = .ok (.sc false 32 x)) :
    invoke E fuel Source.change_endian_u32 [v] w = (.ok (.sc false 32 (Util.changeEndian x)), w) := by
  rw [recast1 rfl rfl rfl hv (c32 _), Util.changeEndian_invoke]

/-- calls of these functions -/
structure Helpers (E : Env) : Prop where
  left : ∀ (v k : Val) (x : BitVec 32) (n : BitVec 8) (w : World), cast u32 v = .ok (.sc false 32 x) → cast u8 k = .ok (.sc false 8 n) →
    (n = 1#8 ∨ n = 2#8 ∨ n = 5#8) → E.call "rotate_left_u32" [v, k] w = (.ok (.sc false 32 (rotl E.mode x n.toNat)), w)
  right : ∀ (v k : Val) (x : BitVec 32) (n : BitVec 8) (w : World), cast u32 v = .ok (.sc false 32 x) → cast u8 k = .ok (.sc false 8 n) →
    n = 2#8 → E.call "rotate_right_u32" [v, k] w = (.ok (.sc false 32 (rotr E.mode x n.toNat)), w)
  endian : ∀ (v : Val) (x : BitVec 32) (w : World), cast u32 v = .ok (.sc false 32 x) →
    E.call "change_endian_u32" [v] w = (.ok (.sc false 32 (Util.changeEndian x)), w)

theorem helpers (mode : Mode) (junk : Mem) (fuel depth : Nat) :
    Helpers ⟨mode, (prog mode junk).globals, (prog mode junk).fieldTypes, run (prog mode junk) mode fuel (depth + 1)⟩ where
  left v k x n w hv hk hn := by
    dsimp only
    rw [run_succ _ _ _ _ _ _ Source.rotate_left_u32 rfl]
    exact rotateLeft_invoke _ _ v k x n w hv hk hn
  right v k x n w hv hk hn := by
    dsimp only
    rw [run_succ _ _ _ _ _ _ Source.rotate_right_u32 rfl]
    exact rotateRight_invoke _ _ v k x n w hv hk hn
  endian v x w hv := by
    dsimp only
    rw [run_succ _ _ _ _ _ _ Source.change_endian_u32 rfl]
    exact changeEndian_invoke _ _ v x w hv

/-! ### the four sections -/

theorem setWidth_not (x : BitVec 32) : (~~~ (x.setWidth 64)).setWidth 32 = ~~~ x := by bits

theorem narrow_add (x y : BitVec 64) : (x + y).setWidth 32 = x.setWidth 32 + y.setWidth 32 := BitVec.setWidth_add _ _ (by decide)

/-- the function of a section -/
def secName : Sec → String
  | .s1 => "section1_calc" | .s2 => "section2_calc" | .s3 => "section3_calc" | .s4 => "section4_calc"

def secFun : Sec → Fun
  | .s1 => Source.section1_calc | .s2 => Source.section2_calc | .s3 => Source.section3_calc | .s4 => Source.section4_calc

theorem section_invoke (E : Env) (H : Helpers E) (fuel : Nat) (s : Sec) (a b c d e x : BitVec 32) (w : World) :
    invoke E fuel (secFun s) [.sc false 32 a, .sc false 32 b, .sc false 32 c, .sc false 32 d, .sc false 32 e, .sc false 32 x] w
      = (.ok (.tup [.sc false 32 (s.calc E.mode a b c d e x).1, .sc false 32 (s.calc E.mode a b c d e x).2]), w) := by
  have hl := fun w => H.left (.sc false 32 a) (literal E.mode 5) a 5 w (by simp [py]) (by cases E.mode <;> simp [py]) (by decide)
  have hr := fun w => H.right (.sc false 32 b) (literal E.mode 2) b 2 w (by simp [py]) (by cases E.mode <;> simp [py]) (by decide)
  cases hm : E.mode <;> simp only [hm, literal] at hl hr <;> simp at hl hr <;> cases s <;>
    simp [py, secFun, Source.section1_calc, Source.section2_calc, Source.section3_calc, Source.section4_calc, hm, hl, hr, Sec.calc,
      section1, section2, section3, section4, narrow_add]

/-! ### `calc_w` and `calc_w_simd` -/

/-- the array `data` of the object in a world -/
structure Data (nm : String) (m : Mem) (w : World) : Prop where
  field : get "data" w.fields = some (.arr nm)
  array : get nm w.arrays = some (.w32 80 m)

theorem xor_wide (E : Env) (x y : BitVec 32) : binop E.mode .xor (wide E.mode x) (.sc false 32 y) = .ok (wide E.mode (x ^^^ y)) := by
  cases E.mode <;> simp [py, wide]

theorem xor_wide' (E : Env) (x y : BitVec 32) : binop E.mode .xor (.sc false 32 x) (.sc false 32 y) = .ok (wide E.mode (x ^^^ y)) := by
  cases E.mode <;> simp [py, wide]

theorem cast_wide (mode : Mode) (x : BitVec 32) : cast u32 (wide mode x) = .ok (.sc false 32 x) := by
  cases mode <;> simp [py, wide]

/-- `np.uint32(i) - np.uint32(k)` as an index -/
theorem position_sub (E : Env) (i k : Nat) (hk : k ≤ i) (hi : i < 80) :
    ∃ v, binop E.mode .sub (.sc false 32 (BitVec.ofNat 32 i)) (.sc false 32 (BitVec.ofNat 32 k)) = .ok v ∧ position 80 v = .ok (i - k) := by
  cases E.mode
  · refine ⟨.sc false 64 ((BitVec.ofNat 32 i).setWidth 64 - (BitVec.ofNat 32 k).setWidth 64), by simp [py], ?_⟩
    have : ((BitVec.ofNat 32 i).setWidth 64 - (BitVec.ofNat 32 k).setWidth 64).toNat = i - k := by
      simp [BitVec.toNat_sub]; omega
    simp only [position, toInt, this]
    simp; omega
  · refine ⟨.sc false 32 (BitVec.ofNat 32 i - BitVec.ofNat 32 k), by simp [py], ?_⟩
    have : (BitVec.ofNat 32 i - BitVec.ofNat 32 k).toNat = i - k := by
      simp [BitVec.toNat_sub]; omega
    simp only [position, toInt, this]
    simp; omega

theorem position_u32 (i : Nat) (hi : i < 80) : position 80 (.sc false 32 (BitVec.ofNat 32 i)) = .ok i := by
  have : (BitVec.ofNat 32 i).toNat = i := by simp; omega
  simp only [position, toInt, this]
  simp; omega

/-- `data[np.uint32(i) - np.uint32(k)]` -/
theorem back_eval {E : Env} {w : World} {nm : String} {m : Mem} {i k : Nat} (hd : get "data" w.locals = some (.arr nm))
    (ha : get nm w.arrays = some (.w32 80 m)) (hv : get "i" w.locals = some (literal E.mode i)) (hk : k ≤ i) (hi : i < 80) :
    eval E (.item (.var "data") (.bin .sub (.cast u32 (.var "i")) (.cast u32 (.num (k : Int))))) w = (.ok (.sc false 32 (m (i - k))), w) := by
  obtain ⟨v, h1, h2⟩ := position_sub E i k hk hi
  exact item_eval (i - k) (var_eval hd) (bin_eval (cast_eval (var_eval hv) (Mt.cast_literal _ i)) (cast_eval num_eval (Mt.cast_literal _ k)) h1) ha h2

theorem cons_eval {E : Env} {w w1 w2 : World} {a b : Expr} {x : Val} {xs : List Val} (h1 : eval E a w = (.ok x, w1))
    (h2 : eval E b w1 = (.ok (.tup xs), w2)) : eval E (.cons a b) w = (.ok (.tup (x :: xs)), w2) := by
  simp [eval, M.bind, h1, h2, M.pure]

theorem nil_eval {E : Env} {w : World} : eval E .nil w = (.ok (.tup []), w) := rfl

theorem call_eval {E : Env} {w w1 : World} {f : String} {args : Expr} {vs : List Val} {r : Except PyErr Val × World}
    (hf : f ≠ "range") (ho : f ≠ "ord") (h1 : eval E args w = (.ok (.tup vs), w1)) (h2 : E.call f vs w1 = r) :
    eval E (.call f args) w = r := by
  simp [eval, M.bind, h1, builtin, hf, ho, h2]

theorem meth_eval {E : Env} {w w1 : World} {f : String} {args : Expr} {vs : List Val} {r : Except PyErr Val × World}
    (h1 : eval E args w = (.ok (.tup vs), w1)) (h2 : E.call f vs w1 = r) : eval E (.meth f args) w = r := by
  simp [eval, M.bind, h1, h2]

theorem castResult_none (mode : Mode) (v : Val) : castResult mode .none v = .ok v := by cases mode <;> rfl

theorem invoke_method {E : Env} {fuel : Nat} {F : Fun} {args : List Val} {w : World} {v : Val} {l' f' : List (String × Val)}
    {a' : List (String × Arr)} (ha : F.args = .none) (hr : F.result = .none) (hs : F.results = .none) (hl : args.length = F.params.length)
    (h : exec E F.locals fuel F.body ⟨F.params.zip args, w.fields, w.arrays⟩ = (.ok (.ret v), ⟨l', f', a'⟩)) :
    invoke E fuel F args w = (.ok v, ⟨w.locals, f', a'⟩) :=
  invoke_ret' (by rw [ha]; cases args <;> rfl) (by rw [hr, castResult_none]) hl h hs

theorem invoke_proc {E : Env} {fuel : Nat} {F : Fun} {args : List Val} {w : World} {l' f' : List (String × Val)}
    {a' : List (String × Arr)} (ha : F.args = .none) (hl : args.length = F.params.length)
    (h : exec E F.locals fuel F.body ⟨F.params.zip args, w.fields, w.arrays⟩ = (.ok .next, ⟨l', f', a'⟩)) :
    invoke E fuel F args w = (.ok .none, ⟨w.locals, f', a'⟩) :=
  invoke_next (o := ⟨w.fields, w.arrays⟩) (o' := ⟨f', a'⟩) (l := w.locals) ha hl h

theorem ret_exec {E : Env} {types : List (String × Ty)} {fuel : Nat} {w w1 : World} {e : Expr} {v : Val} (h : eval E e w = (.ok v, w1)) :
    exec E types fuel (.ret e) w = (.ok (.ret v), w1) := by
  simp [exec, M.bind, h, M.pure]

/-- the body of the two methods -/
def wBody (a b c d n : Int) (e : Expr) : Stmt :=
  .seq (.assign (.var "data") (.self "data"))
  (.seq (.assign (.var "val") (.call "rotate_left_u32" (.cons (.bin .xor (.bin .xor (.bin .xor
    (.item (.var "data") (.bin .sub (.cast u32 (.var "i")) (.cast u32 (.num a))))
    (.item (.var "data") (.bin .sub (.cast u32 (.var "i")) (.cast u32 (.num b)))))
    (.item (.var "data") (.bin .sub (.cast u32 (.var "i")) (.cast u32 (.num c)))))
    (.item (.var "data") (.bin .sub (.cast u32 (.var "i")) (.cast u32 (.num d))))) (.cons (.cast u32 (.num n)) .nil))))
  (.seq (.assign (.item (.var "data") (.cast u32 (.var "i"))) e)
  (.ret (.var "val"))))

theorem wBody_exec (E : Env) (H : Helpers E) (fuel : Nat) (nm : String) (m : Mem) (i : Nat) (hi : i < 80) (a b c d : Nat) (ha : a ≤ i)
    (hb : b ≤ i) (hc : c ≤ i) (hd : d ≤ i) (n : Nat) (hn : n = 1 ∨ n = 2) (e : Expr) (he : e = .var "val" ∨ e = .cast u32 (.var "val"))
    (w : World) (hw : Data nm m w) (hv : w.locals = [("i", literal E.mode i)]) :
    ∃ l x, exec E [] fuel (wBody a b c d n e) w
      = (.ok (.ret (.sc false 32 x)), ⟨l, w.fields, put nm (.w32 80 (m.set i (rotl E.mode (m (i - a) ^^^ m (i - b) ^^^ m (i - c) ^^^ m (i - d)) n))) w.arrays⟩) := by
  obtain ⟨l, f, ar⟩ := w
  obtain ⟨h1, h2⟩ := hw
  simp only at h1 h2 hv
  subst hv
  let w1 : World := ⟨put "data" (.arr nm) [("i", literal E.mode i)], f, ar⟩
  have g1 : get "data" w1.locals = some (.arr nm) := by simp [w1, get_put]
  have g2 : get "i" w1.locals = some (literal E.mode i) := by simp [w1, get_put, get]
  have e0 := back_eval (E := E) g1 h2 g2 ha hi
  have e1 := back_eval (E := E) g1 h2 g2 hb hi
  have e2 := back_eval (E := E) g1 h2 g2 hc hi
  have e3 := back_eval (E := E) g1 h2 g2 hd hi
  have e4 := bin_eval (bin_eval (bin_eval e0 e1 (xor_wide' E _ _)) e2 (xor_wide E _ _)) e3 (xor_wide E _ _)
  generalize m (i - a) ^^^ m (i - b) ^^^ m (i - c) ^^^ m (i - d) = y at e4 ⊢
  have e5 : eval E (.cast u32 (.num (n : Int))) w1 = (.ok (.sc false 32 (BitVec.ofNat 32 n)), w1) := cast_eval num_eval (Mt.cast_literal _ n)
  have e6 := H.left (wide E.mode y) (.sc false 32 (BitVec.ofNat 32 n)) y (BitVec.ofNat 8 n) w1 (cast_wide _ _)
    (by rcases hn with rfl | rfl <;> simp [py]) (by rcases hn with rfl | rfl <;> simp)
  have e7 : (BitVec.ofNat 8 n).toNat = n := by rcases hn with rfl | rfl <;> rfl
  rw [e7] at e6
  let w2 : World := ⟨put "val" (.sc false 32 (rotl E.mode y n)) w1.locals, f, ar⟩
  have e8 : eval E e w2 = (.ok (.sc false 32 (rotl E.mode y n)), w2) := by
    rcases he with rfl | rfl
    · exact var_eval (by simp [w2, get_put])
    · exact cast_eval (var_eval (by simp [w2, get_put])) (c32 _)
  refine ⟨w2.locals, rotl E.mode y n, ?_⟩
  rw [wBody, seq_next (assign_var (self_eval h1)),
    seq_next (assign_var (call_eval (by decide) (by decide) (cons_eval e4 (cons_eval e5 nil_eval)) e6)),
    seq_next (assign_item e8 (var_eval (by simp [w2, get_put, g1])) (cast_eval (var_eval (v := literal E.mode i) (by simp [w2, get_put, g2])) (Mt.cast_literal _ i)) h2
      (position_u32 i hi) (c32 _) rfl)]
  exact ret_exec (var_eval (by simp [w2, get_put]))

/-- a call that changes only the array `data` -/
def Sets (E : Env) (f : String) (g : Mem → Nat → Mem) (lo : Nat) : Prop :=
  ∀ (nm : String) (m : Mem) (i : Nat) (w : World), lo ≤ i → i < 80 → Data nm m w →
    ∃ v, E.call f [literal E.mode i] w = (.ok v, ⟨w.locals, w.fields, put nm (.w32 80 (g m i)) w.arrays⟩)

theorem calcW_invoke (E : Env) (H : Helpers E) (fuel : Nat) (nm : String) (m : Mem) (i : Nat) (w : World) (lo : 16 ≤ i) (hi : i < 80)
    (hw : Data nm m w) : ∃ v, invoke E fuel Source.SHA1.calc_w [literal E.mode i] w
      = (.ok v, ⟨w.locals, w.fields, put nm (.w32 80 (calcW E.mode m i)) w.arrays⟩) := by
  obtain ⟨l, x, h⟩ := wBody_exec E H fuel nm m i hi 3 8 14 16 (by omega) (by omega) (by omega) (by omega) 1 (.inl rfl) (.var "val") (.inl rfl)
    ⟨[("i", literal E.mode i)], w.fields, w.arrays⟩ ⟨hw.1, hw.2⟩ rfl
  exact ⟨.sc false 32 x, invoke_method (F := Source.SHA1.calc_w) rfl rfl rfl rfl h⟩

theorem calcWSimd_invoke (E : Env) (H : Helpers E) (fuel : Nat) (nm : String) (m : Mem) (i : Nat) (w : World) (lo : 32 ≤ i) (hi : i < 80)
    (hw : Data nm m w) : ∃ v, invoke E fuel Source.SHA1.calc_w_simd [literal E.mode i] w
      = (.ok v, ⟨w.locals, w.fields, put nm (.w32 80 (calcWSimd E.mode m i)) w.arrays⟩) := by
  obtain ⟨l, x, h⟩ := wBody_exec E H fuel nm m i hi 6 16 28 32 (by omega) (by omega) (by omega) (by omega) 2 (.inr rfl) (.cast u32 (.var "val"))
    (.inr rfl) ⟨[("i", literal E.mode i)], w.fields, w.arrays⟩ ⟨hw.1, hw.2⟩ rfl
  exact ⟨.sc false 32 x, invoke_method (F := Source.SHA1.calc_w_simd) rfl rfl rfl rfl h⟩

/-! ### the calculation lines -/

/-- the variables of a line: the two assigned, and the first five arguments -/
def lineVars : Line → (String × String) × String × String × String × String × String
  | .tb => (("t_val", "b_val"), "a_val", "b_val", "c_val", "d_val", "e_val")
  | .ea => (("e_val", "a_val"), "t_val", "a_val", "b_val", "c_val", "d_val")
  | .dt => (("d_val", "t_val"), "e_val", "t_val", "a_val", "b_val", "c_val")
  | .ce => (("c_val", "e_val"), "d_val", "e_val", "t_val", "a_val", "b_val")
  | .bd => (("b_val", "d_val"), "c_val", "d_val", "e_val", "t_val", "a_val")
  | .ac => (("a_val", "c_val"), "b_val", "c_val", "d_val", "e_val", "t_val")

/-- the statement of a line -/
def lineStmt (x : Line × Sec × Nat) : Stmt :=
  let v := lineVars x.1
  .assign (.cons (.var v.1.1) (.cons (.var v.1.2) .nil)) (.call (secName x.2.1) (.cons (.var v.2.1) (.cons (.var v.2.2.1)
    (.cons (.var v.2.2.2.1) (.cons (.var v.2.2.2.2.1) (.cons (.var v.2.2.2.2.2) (.cons (.item (.var "data") (.num (x.2.2 : Int))) .nil)))))))

/-- the local variables; `t_val` if it has a value -/
structure Loc (nm : String) (ht : Bool) (r : Regs) (l : List (String × Val)) : Prop where
  data : get "data" l = some (.arr nm)
  a : get "a_val" l = some (.sc false 32 r.a)
  b : get "b_val" l = some (.sc false 32 r.b)
  c : get "c_val" l = some (.sc false 32 r.c)
  d : get "d_val" l = some (.sc false 32 r.d)
  e : get "e_val" l = some (.sc false 32 r.e)
  t : ht = true → get "t_val" l = some (.sc false 32 r.t)

/-- calls of the section functions -/
def Sections (E : Env) : Prop := ∀ (s : Sec) (a b c d e x : BitVec 32) (w : World),
  E.call (secName s) [.sc false 32 a, .sc false 32 b, .sc false 32 c, .sc false 32 d, .sc false 32 e, .sc false 32 x] w
    = (.ok (.tup [.sc false 32 (s.calc E.mode a b c d e x).1, .sc false 32 (s.calc E.mode a b c d e x).2]), w)

theorem assign_pair {E : Env} {w w1 : World} {fuel : Nat} {x y : String} {e : Expr} {u v : Val} (h : eval E e w = (.ok (.tup [u, v]), w1)) :
    exec E [] fuel (.assign (.cons (.var x) (.cons (.var y) .nil)) e) w
      = (.ok .next, ⟨put y v (put x u w1.locals), w1.fields, w1.arrays⟩) := by
  simp [exec, M.bind, h, store, storeLocal_nil, M.pure]

theorem args_eval {E : Env} {w : World} {x1 x2 x3 x4 x5 nm : String} {v1 v2 v3 v4 v5 : BitVec 32} {m : Mem} {k : Nat}
    (h1 : get x1 w.locals = some (.sc false 32 v1)) (h2 : get x2 w.locals = some (.sc false 32 v2))
    (h3 : get x3 w.locals = some (.sc false 32 v3)) (h4 : get x4 w.locals = some (.sc false 32 v4))
    (h5 : get x5 w.locals = some (.sc false 32 v5)) (hd : get "data" w.locals = some (.arr nm))
    (ha : get nm w.arrays = some (.w32 80 m)) (hk : k < 80) :
    eval E (.cons (.var x1) (.cons (.var x2) (.cons (.var x3) (.cons (.var x4) (.cons (.var x5) (.cons (.item (.var "data") (.num (k : Int))) .nil)))))) w
      = (.ok (.tup [.sc false 32 v1, .sc false 32 v2, .sc false 32 v3, .sc false 32 v4, .sc false 32 v5, .sc false 32 (m k)]), w) :=
  cons_eval (var_eval h1) (cons_eval (var_eval h2) (cons_eval (var_eval h3) (cons_eval (var_eval h4) (cons_eval (var_eval h5)
    (cons_eval (item_eval k (var_eval hd) num_eval ha (by rw [position_literal _ _ _ (by omega), if_pos hk])) nil_eval)))))

theorem line_exec (E : Env) (S : Sections E) (fuel : Nat) (x : Line × Sec × Nat) (hx : x.2.2 < 80) (b : Bool) (hb : x.1 = .tb ∨ b = true)
    (nm : String) (m : Mem) (r : Regs) (w : World) (ha : get nm w.arrays = some (.w32 80 m)) (hl : Loc nm b r w.locals) :
    ∃ l, exec E [] fuel (lineStmt x) w = (.ok .next, ⟨l, w.fields, w.arrays⟩)
      ∧ Loc nm true (x.1.exec E.mode x.2.1 (m x.2.2) r) l := by
  obtain ⟨ln, s, k⟩ := x
  have hs : secName s ≠ "range" ∧ secName s ≠ "ord" := by cases s <;> decide
  obtain ⟨hdata, h1, h2, h3, h4, h5, h6⟩ := hl
  cases ln
  · refine ⟨_, assign_pair (call_eval hs.1 hs.2 (args_eval h1 h2 h3 h4 h5 hdata ha hx) (S s _ _ _ _ _ _ w)), ?_⟩
    constructor <;> simp [get_put, lineVars, Line.exec, *]
  · have h6 := h6 (by simpa using hb)
    refine ⟨_, assign_pair (call_eval hs.1 hs.2 (args_eval h6 h1 h2 h3 h4 hdata ha hx) (S s _ _ _ _ _ _ w)), ?_⟩
    constructor <;> simp [get_put, lineVars, Line.exec, *]
  · have h6 := h6 (by simpa using hb)
    refine ⟨_, assign_pair (call_eval hs.1 hs.2 (args_eval h5 h6 h1 h2 h3 hdata ha hx) (S s _ _ _ _ _ _ w)), ?_⟩
    constructor <;> simp [get_put, lineVars, Line.exec, *]
  · have h6 := h6 (by simpa using hb)
    refine ⟨_, assign_pair (call_eval hs.1 hs.2 (args_eval h4 h5 h6 h1 h2 hdata ha hx) (S s _ _ _ _ _ _ w)), ?_⟩
    constructor <;> simp [get_put, lineVars, Line.exec, *]
  · have h6 := h6 (by simpa using hb)
    refine ⟨_, assign_pair (call_eval hs.1 hs.2 (args_eval h3 h4 h5 h6 h1 hdata ha hx) (S s _ _ _ _ _ _ w)), ?_⟩
    constructor <;> simp [get_put, lineVars, Line.exec, *]
  · have h6 := h6 (by simpa using hb)
    refine ⟨_, assign_pair (call_eval hs.1 hs.2 (args_eval h2 h3 h4 h5 h6 hdata ha hx) (S s _ _ _ _ _ _ w)), ?_⟩
    constructor <;> simp [get_put, lineVars, Line.exec, *]

/-- statements one after the other -/
def seqs (ss : List Stmt) (s : Stmt) : Stmt := ss.foldr .seq s

theorem lines_exec (E : Env) (S : Sections E) (fuel : Nat) (nm : String) (m : Mem) (rest : Stmt) :
    ∀ (xs : List (Line × Sec × Nat)) (_ : ∀ x ∈ xs, x.2.2 < 80) (r : Regs) (w : World)
      (_ : get nm w.arrays = some (.w32 80 m)) (_ : Loc nm true r w.locals),
      ∃ l, exec E [] fuel (seqs (xs.map lineStmt) rest) w = exec E [] fuel rest ⟨l, w.fields, w.arrays⟩
        ∧ Loc nm true (Verif.Sha1.exec E.mode m xs r) l
  | [], _, r, w, _, hl => ⟨w.locals, rfl, hl⟩
  | x :: xs, hx, r, w, ha, hl => by
    obtain ⟨l1, h1, h2⟩ := line_exec E S fuel x (hx x (by simp)) true (.inr rfl) nm m r w ha hl
    obtain ⟨l2, h3, h4⟩ := lines_exec E S fuel nm m rest xs (fun y hy => hx y (by simp [hy])) _ ⟨l1, w.fields, w.arrays⟩ ha h2
    exact ⟨l2, (seq_next h1).trans h3, h4⟩

/-- the first line assigns `t_val` -/
theorem lines_exec' (E : Env) (S : Sections E) (fuel : Nat) (nm : String) (m : Mem) (rest : Stmt) (xs : List (Line × Sec × Nat)) (s : Sec) (k : Nat)
    (ys : List (Line × Sec × Nat)) (hxs : xs = (.tb, s, k) :: ys) (hk : k < 80) (hx : ∀ x ∈ ys, x.2.2 < 80) (r : Regs) (w : World)
    (ha : get nm w.arrays = some (.w32 80 m)) (hl : Loc nm false r w.locals) :
    ∃ l, exec E [] fuel (seqs (xs.map lineStmt) rest) w = exec E [] fuel rest ⟨l, w.fields, w.arrays⟩
      ∧ Loc nm true (Verif.Sha1.exec E.mode m xs r) l := by
  subst hxs
  obtain ⟨l1, h1, h2⟩ := line_exec E S fuel (.tb, s, k) hk false (.inl rfl) nm m r w ha hl
  obtain ⟨l2, h3, h4⟩ := lines_exec E S fuel nm m rest ys hx _ ⟨l1, w.fields, w.arrays⟩ ha h2
  exact ⟨l2, (seq_next h1).trans h3, h4⟩

/-- `self.calc_w(k)` -/
def calcStmt (k : Nat) : Stmt := .expr (.meth "calc_w" (.cons (.num (k : Int)) .nil))

theorem expr_exec {E : Env} {types : List (String × Ty)} {fuel : Nat} {w w1 : World} {e : Expr} {v : Val} (h : eval E e w = (.ok v, w1)) :
    exec E types fuel (.expr e) w = (.ok .next, w1) := by
  simp [exec, M.bind, h, M.pure]

/-- arrays other than `nm` are as they were -/
def Others (nm : String) (a a' : List (String × Arr)) : Prop := ∀ x, x ≠ nm → get x a' = get x a

theorem Others.refl (nm : String) (a : List (String × Arr)) : Others nm a a := fun _ _ => rfl

theorem Others.put {nm : String} {a a' : List (String × Arr)} (h : Others nm a a') (v : Arr) : Others nm a (put nm v a') :=
  fun x hx => by rw [get_put, if_neg (Ne.symm hx), h x hx]

theorem calcs_exec (E : Env) (C : Sets E "calc_w" (calcW E.mode) 16) (fuel : Nat) (nm : String) (rest : Stmt) :
    ∀ (ks : List Nat) (_ : ∀ k ∈ ks, 16 ≤ k ∧ k < 80) (m : Mem) (w : World) (_ : Data nm m w),
      ∃ a', exec E [] fuel (seqs (ks.map calcStmt) rest) w = exec E [] fuel rest ⟨w.locals, w.fields, a'⟩
        ∧ get nm a' = some (.w32 80 (ks.foldl (calcW E.mode) m)) ∧ Others nm w.arrays a'
  | [], _, m, w, hw => ⟨w.arrays, rfl, hw.2, .refl _ _⟩
  | k :: ks, hk, m, w, hw => by
    obtain ⟨v, h⟩ := C nm m k w (hk k (by simp)).1 (hk k (by simp)).2 hw
    obtain ⟨a', h1, h2, h3⟩ := calcs_exec E C fuel nm rest ks (fun j hj => hk j (by simp [hj])) (calcW E.mode m k)
      ⟨w.locals, w.fields, put nm (.w32 80 (calcW E.mode m k)) w.arrays⟩ ⟨hw.1, by simp [get_put]⟩
    refine ⟨a', (seq_next (expr_exec (meth_eval (cons_eval num_eval nil_eval) h))).trans h1, h2, fun x hx => ?_⟩
    rw [h3 x hx, get_put, if_neg (Ne.symm hx)]

/-- the loop over 32, …, 79 -/
theorem simd_exec (E : Env) (C : Sets E "calc_w_simd" (calcWSimd E.mode) 32) (fuel : Nat) (nm : String) (m : Mem) (r : Regs) (w : World)
    (hw : Data nm m w) (hl : Loc nm false r w.locals) :
    ∃ w', exec E [] fuel (.for "i" (.call "range" (.cons (.num 0x20) (.cons (.num 0x50) .nil))) (.expr (.meth "calc_w_simd" (.cons (.var "i") .nil)))) w
        = (.ok .next, w')
      ∧ w'.fields = w.fields ∧ get nm w'.arrays = some (.w32 80 ((List.range' 32 48).foldl (calcWSimd E.mode) m)) ∧ Others nm w.arrays w'.arrays
      ∧ Loc nm false r w'.locals := by
  refine for_fold (E := E) (types := []) (fuel := fuel) (x := "i") (body := .expr (.meth "calc_w_simd" (.cons (.var "i") .nil)))
    (fun w' m' => w'.fields = w.fields ∧ get nm w'.arrays = some (.w32 80 m') ∧ Others nm w.arrays w'.arrays ∧ Loc nm false r w'.locals)
    (calcWSimd E.mode) 32 80 (by decide) (by decide) ?_ ⟨rfl, hw.2, .refl _ _, hl⟩
  rintro i h32 h80 ⟨l1, f1, a1⟩ m1 ⟨rfl, h2, h3, h4⟩
  obtain ⟨v, h⟩ := C nm m1 i ⟨put "i" (literal E.mode i) l1, w.fields, a1⟩ h32 h80 ⟨hw.1, h2⟩
  refine ⟨⟨put "i" (literal E.mode i) l1, w.fields, put nm (.w32 80 (calcWSimd E.mode m1 i)) a1⟩, ?_, rfl, by simp [get_put], h3.put _, ?_⟩
  · simp only [M.bind, storeLocal_nil]
    exact expr_exec (meth_eval (cons_eval (var_eval (by simp [get_put])) nil_eval) h)
  · obtain ⟨g1, g2, g3, g4, g5, g6, g7⟩ := h4
    constructor <;> simp [get_put, *]

/-! ### `precompute` -/

/-- the words of an array of five -/
structure Words (m : Mem) (v0 v1 v2 v3 v4 : BitVec 32) : Prop where
  w0 : m 0 = v0
  w1 : m 1 = v1
  w2 : m 2 = v2
  w3 : m 3 = v3
  w4 : m 4 = v4

/-- what the program calls -/
structure Callees (E : Env) (junk : Mem) : Prop extends Helpers E where
  sections : Sections E
  calcs : Sets E "calc_w" (calcW E.mode) 16
  simd : Sets E "calc_w_simd" (calcWSimd E.mode) 32
  empty : ∀ (n : Nat) (w : World), n < 2 ^ 63 →
    E.call "np.empty.uint32" [literal E.mode n] w
      = (.ok (.arr (fresh w.arrays)), ⟨w.locals, w.fields, put (fresh w.arrays) (.w32 n junk) w.arrays⟩)
  bwrng : ∀ (x : BitVec 64) (w : World), E.call "BWRNG.next" [.sc false 64 x] w
    = (.ok (.sc false 64 (Lcrng.next Lcrng.bwrngParams x)), w)

theorem fresh_ne {nm : String} {a : List (String × Arr)} {v : Arr} (h : get nm a = some v) : fresh a ≠ nm := by
  rintro e
  have := get_fresh a
  rw [e, h] at this
  cases this

theorem position_num (E : Env) {n k : Nat} (hk : k < n) (hn : n < 2 ^ 63) : position n (literal E.mode (k : Int)) = .ok k := by
  rw [position_literal _ _ _ (by omega), if_pos hk]

/-- `alpha[k] = x` -/
theorem setWord {E : Env} {fuel : Nat} {w : World} {a x nm : String} {n k : Nat} {m : Mem} {v : BitVec 32} (hk : k < n) (hn : n < 2 ^ 63)
    (hx : get x w.locals = some (.sc false 32 v)) (ha : get a w.locals = some (.arr nm)) (hm : get nm w.arrays = some (.w32 n m)) :
    exec E [] fuel (.assign (.item (.var a) (.num (k : Int))) (.var x)) w
      = (.ok .next, ⟨w.locals, w.fields, put nm (.w32 n (m.set k v)) w.arrays⟩) :=
  assign_item (var_eval hx) (var_eval ha) num_eval hm (position_num E hk hn) (c32 _) rfl

/-- the end of `precompute` -/
def alphaTail : Stmt :=
  .seq (.assign (.var "alpha") (.call "np.empty.uint32" (.cons (.num 5) .nil)))
  (.seq (.assign (.item (.var "alpha") (.num 0)) (.var "d_val"))
  (.seq (.assign (.item (.var "alpha") (.num 1)) (.var "e_val"))
  (.seq (.assign (.item (.var "alpha") (.num 2)) (.var "t_val"))
  (.seq (.assign (.item (.var "alpha") (.num 3)) (.var "a_val"))
  (.seq (.assign (.item (.var "alpha") (.num 4)) (.var "b_val"))
  (.ret (.var "alpha")))))))

theorem alphaTail_exec (E : Env) (junk : Mem) (C : Callees E junk) (fuel : Nat) (nm : String) (r : Regs) (w : World) (hl : Loc nm true r w.locals) :
    ∃ l a' m', exec E [] fuel alphaTail w = (.ok (.ret (.arr (fresh w.arrays))), ⟨l, w.fields, a'⟩)
      ∧ get (fresh w.arrays) a' = some (.w32 5 m') ∧ Words m' r.d r.e r.t r.a r.b ∧ Others (fresh w.arrays) w.arrays a' := by
  obtain ⟨l, f, ar⟩ := w
  obtain ⟨hdata, h1, h2, h3, h4, h5, h6⟩ := hl
  replace h6 := h6 rfl
  simp only at hdata h1 h2 h3 h4 h5 h6
  generalize hv : fresh ar = v
  let l1 := put "alpha" (.arr v) l
  have e0 : eval E (.call "np.empty.uint32" (.cons (.num 5) .nil)) ⟨l, f, ar⟩ = (.ok (.arr v), ⟨l, f, put v (.w32 5 junk) ar⟩) := by
    rw [← hv]
    exact call_eval (by decide) (by decide) (cons_eval num_eval nil_eval) (C.empty 5 ⟨l, f, ar⟩ (by decide))
  have g (x : String) (y : Val) (hx : "alpha" ≠ x) (h : get x l = some y) : get x l1 = some y := by simp [l1, get_put, hx, h]
  have ga : get "alpha" l1 = some (.arr v) := by simp [l1, get_put]
  let m1 := junk.set 0 r.d
  let m2 := m1.set 1 r.e
  let m3 := m2.set 2 r.t
  let m4 := m3.set 3 r.a
  let m5 := m4.set 4 r.b
  let a0 := put v (.w32 5 junk) ar
  let a1 := put v (.w32 5 m1) a0
  let a2 := put v (.w32 5 m2) a1
  let a3 := put v (.w32 5 m3) a2
  let a4 := put v (.w32 5 m4) a3
  let a5 := put v (.w32 5 m5) a4
  refine ⟨l1, a5, m5, ?_, by simp [a5, get_put], ?_, ?_⟩
  · rw [alphaTail]
    refine (seq_next (assign_var e0)).trans ?_
    refine (seq_next (setWord (k := 0) (n := 5) (m := junk) (by decide) (by decide) (w := ⟨l1, f, a0⟩) (g _ _ (by decide) h4) ga (by simp [a0, get_put]))).trans ?_
    refine (seq_next (setWord (k := 1) (n := 5) (m := m1) (by decide) (by decide) (w := ⟨l1, f, a1⟩) (g _ _ (by decide) h5) ga (by simp [a1, get_put]))).trans ?_
    refine (seq_next (setWord (k := 2) (n := 5) (m := m2) (by decide) (by decide) (w := ⟨l1, f, a2⟩) (g _ _ (by decide) h6) ga (by simp [a2, get_put]))).trans ?_
    refine (seq_next (setWord (k := 3) (n := 5) (m := m3) (by decide) (by decide) (w := ⟨l1, f, a3⟩) (g _ _ (by decide) h1) ga (by simp [a3, get_put]))).trans ?_
    refine (seq_next (setWord (k := 4) (n := 5) (m := m4) (by decide) (by decide) (w := ⟨l1, f, a4⟩) (g _ _ (by decide) h2) ga (by simp [a4, get_put]))).trans ?_
    exact ret_exec (var_eval ga)
  · constructor <;> simp [m5, m4, m3, m2, m1, Mem.set]
  · exact (((((Others.refl v ar).put _).put _).put _).put _).put _ |>.put _

theorem num_cast (E : Env) (w : World) (k : Nat) : eval E (.cast u32 (.num (k : Int))) w = (.ok (.sc false 32 (BitVec.ofNat 32 k)), w) :=
  cast_eval num_eval (Mt.cast_literal _ k)

abbrev r0 : Regs := { a := 0x67452301, b := 0xEFCDAB89, c := 0x98BADCFE, d := 0x10325476, e := 0xC3D2E1F0, t := 0 }

/-- the array of line 518 -/
def alphaOf (r : Regs) : Alpha := { v0 := r.d, v1 := r.e, v2 := r.t, v3 := r.a, v4 := r.b }

theorem precompute_alpha (mode : Mode) (o : Verif.Sha1.Obj) :
    (precompute mode o).2 = alphaOf (Verif.Sha1.exec mode o.data precomputeLines
      { a := 0x67452301, b := 0xEFCDAB89, c := 0x98BADCFE, d := 0x10325476, e := 0xC3D2E1F0, t := 0 }) := rfl

theorem words_alphaOf {m : Mem} {r : Regs} (h : Words m r.d r.e r.t r.a r.b) :
    Words m (alphaOf r).v0 (alphaOf r).v1 (alphaOf r).v2 (alphaOf r).v3 (alphaOf r).v4 := h

theorem precompute_invoke (E : Env) (junk : Mem) (C : Callees E junk) (fuel : Nat) (nm : String) (o : Verif.Sha1.Obj) (w : World)
    (hw : Data nm o.data w) :
    ∃ v a' m', invoke E fuel Source.SHA1.precompute [] w = (.ok (.arr v), ⟨w.locals, w.fields, a'⟩)
      ∧ get nm a' = some (.w32 80 (precompute E.mode o).1.data) ∧ v ≠ nm ∧ get v w.arrays = none ∧ get v a' = some (.w32 5 m')
      ∧ Words m' (precompute E.mode o).2.v0 (precompute E.mode o).2.v1 (precompute E.mode o).2.v2 (precompute E.mode o).2.v3 (precompute E.mode o).2.v4
      ∧ ∀ x, x ≠ nm → x ≠ v → get x a' = get x w.arrays := by
  have eb : Source.SHA1.precompute.body = .seq (.assign (.var "data") (.self "data")) (.seq (.assign (.var "a_val") (.cast u32 (.num 0x67452301)))
    (.seq (.assign (.var "b_val") (.cast u32 (.num 0xEFCDAB89))) (.seq (.assign (.var "c_val") (.cast u32 (.num 0x98BADCFE)))
    (.seq (.assign (.var "d_val") (.cast u32 (.num 0x10325476))) (.seq (.assign (.var "e_val") (.cast u32 (.num 0xC3D2E1F0)))
    (seqs (precomputeLines.map lineStmt) (seqs ([16, 19, 21, 22, 24, 27, 30].map calcStmt) alphaTail))))))) := rfl
  let l1 : List (String × Val) := put "e_val" (.sc false 32 0xC3D2E1F0) (put "d_val" (.sc false 32 0x10325476) (put "c_val" (.sc false 32 0x98BADCFE)
    (put "b_val" (.sc false 32 0xEFCDAB89) (put "a_val" (.sc false 32 0x67452301) (put "data" (.arr nm) [])))))
  have hl1 : Loc nm false r0 l1 := by
    constructor <;> simp [l1, get_put]
  obtain ⟨l2, e2, hl2⟩ := lines_exec' E C.sections fuel nm o.data (seqs ([16, 19, 21, 22, 24, 27, 30].map calcStmt) alphaTail) precomputeLines .s1 0
    precomputeLines.tail rfl (by decide) (by decide) r0 ⟨l1, w.fields, w.arrays⟩ hw.2 hl1
  obtain ⟨a3, e3, h3, h3'⟩ := calcs_exec E C.calcs fuel nm alphaTail [16, 19, 21, 22, 24, 27, 30] (by decide) o.data ⟨l2, w.fields, w.arrays⟩ ⟨hw.1, hw.2⟩
  obtain ⟨l4, a4, m', e4, h4, hm, h4'⟩ := alphaTail_exec E junk C fuel nm _ ⟨l2, w.fields, a3⟩ hl2
  have hne : fresh a3 ≠ nm := fresh_ne h3
  refine ⟨fresh a3, a4, m', ?_, ?_, hne, ?_, h4, ?_, fun x hx hv => ?_⟩
  · refine invoke_method (F := Source.SHA1.precompute) rfl rfl rfl rfl (l' := l4) ?_
    rw [eb]
    change exec E [] fuel _ ⟨[], w.fields, w.arrays⟩ = _
    refine (seq_next (assign_var (self_eval (w := ⟨[], w.fields, w.arrays⟩) hw.1))).trans ?_
    refine (seq_next (assign_var (num_cast E _ 0x67452301))).trans ?_
    refine (seq_next (assign_var (num_cast E _ 0xEFCDAB89))).trans ?_
    refine (seq_next (assign_var (num_cast E _ 0x98BADCFE))).trans ?_
    refine (seq_next (assign_var (num_cast E _ 0x10325476))).trans ?_
    refine (seq_next (assign_var (num_cast E _ 0xC3D2E1F0))).trans ?_
    exact e2.trans (e3.trans e4)
  · rw [h4' nm (Ne.symm hne)]
    exact h3
  · have := get_fresh a3
    rwa [h3' _ hne] at this
  · rw [precompute_alpha]
    exact words_alphaOf hm
  · rw [h4' x hv]
    exact h3' x hx

/-! ### `hash_seed` -/

/-- the end of `hash_seed` -/
def seedTail : Stmt :=
  .seq (.assign (.var "part1") (.call "change_endian_u32" (.cons (.bin .add (.var "b_val") (.cast u32 (.num 0x67452301))) .nil)))
  (.seq (.assign (.var "part2") (.call "change_endian_u32" (.cons (.bin .add (.var "c_val") (.cast u32 (.num 0xEFCDAB89))) .nil)))
  (.seq (.assign (.var "seed") (.cast u64 (.bin .or (.cast u64 (.bin .shl (.cast u64 (.var "part2")) (.cast u64 (.num 0x20)))) (.cast u64 (.var "part1")))))
  (.ret (.call "BWRNG.next" (.cons (.var "seed") .nil)))))

/-- the hash of line 487 -/
def seedOf (r : Regs) : BitVec 64 := Lcrng.next Lcrng.bwrngParams
  (((Util.changeEndian (r.c + 0xEFCDAB89)).setWidth 64 <<< 32) ||| (Util.changeEndian (r.b + 0x67452301)).setWidth 64)

theorem hashSeed_value (mode : Mode) (o : Verif.Sha1.Obj) (alpha : Alpha) :
    (hashSeed mode o alpha).2 = seedOf (Verif.Sha1.exec mode
      ((List.range' 32 48).foldl (calcWSimd mode) ([17, 20, 23, 25, 26, 28, 29, 31].foldl (calcW mode) o.data)) hashLines
      { a := alpha.v0, b := alpha.v1, c := alpha.v2, d := alpha.v3, e := alpha.v4, t := 0 }) := rfl

theorem seedTail_exec (E : Env) (junk : Mem) (C : Callees E junk) (fuel : Nat) (nm : String) (r : Regs) (w : World) (hl : Loc nm true r w.locals) :
    ∃ l, exec E [] fuel seedTail w = (.ok (.ret (.sc false 64 (seedOf r))), ⟨l, w.fields, w.arrays⟩) := by
  have add (x y : BitVec 32) : ∃ v, binop E.mode .add (.sc false 32 x) (.sc false 32 y) = .ok v ∧ cast u32 v = .ok (.sc false 32 (x + y)) := by
    cases E.mode
    · exact ⟨.sc false 64 (x.setWidth 64 + y.setWidth 64), by simp [py], by simp [py, narrow_add]⟩
    · exact ⟨.sc false 32 (x + y), by simp [py], by simp [py]⟩
  rw [seedOf]
  obtain ⟨v1, a1, b1⟩ := add r.b 0x67452301
  obtain ⟨v2, a2, b2⟩ := add r.c 0xEFCDAB89
  obtain ⟨l, f, ar⟩ := w
  obtain ⟨hdata, h1, h2, h3, h4, h5, h6⟩ := hl
  simp only at h2 h3
  generalize hp1 : Util.changeEndian (r.b + 0x67452301) = p1
  generalize hp2 : Util.changeEndian (r.c + 0xEFCDAB89) = p2
  let w1 : World := ⟨put "part1" (.sc false 32 p1) l, f, ar⟩
  let w2 : World := ⟨put "part2" (.sc false 32 p2) w1.locals, f, ar⟩
  let s : BitVec 64 := (p2.setWidth 64 <<< 32) ||| p1.setWidth 64
  have e1 : eval E (.call "change_endian_u32" (.cons (.bin .add (.var "b_val") (.cast u32 (.num 0x67452301))) .nil)) ⟨l, f, ar⟩
      = (.ok (.sc false 32 p1), ⟨l, f, ar⟩) := by
    rw [← hp1]
    exact call_eval (by decide) (by decide) (cons_eval (bin_eval (var_eval h2) (num_cast E _ 0x67452301) a1) nil_eval) (C.endian _ _ _ b1)
  have e2 : eval E (.call "change_endian_u32" (.cons (.bin .add (.var "c_val") (.cast u32 (.num 0xEFCDAB89))) .nil)) w1 = (.ok (.sc false 32 p2), w1) := by
    rw [← hp2]
    exact call_eval (by decide) (by decide) (cons_eval (bin_eval (var_eval (by simp [w1, get_put, h3])) (num_cast E _ 0xEFCDAB89) a2) nil_eval) (C.endian _ _ _ b2)
  have e3 : eval E (.cast u64 (.bin .or (.cast u64 (.bin .shl (.cast u64 (.var "part2")) (.cast u64 (.num 0x20)))) (.cast u64 (.var "part1")))) w2
      = (.ok (.sc false 64 s), w2) := by
    have g1 : get "part1" w2.locals = some (.sc false 32 p1) := by simp [w2, w1, get_put]
    have g2 : get "part2" w2.locals = some (.sc false 32 p2) := by simp [w2, get_put]
    generalize w2 = w2 at g1 g2
    cases hm : E.mode <;> simp [py, g1, g2, hm, s]
  refine ⟨put "seed" (.sc false 64 s) w2.locals, ?_⟩
  rw [seedTail]
  refine (seq_next (assign_var e1)).trans ?_
  refine (seq_next (assign_var e2)).trans ?_
  refine (seq_next (assign_var e3)).trans ?_
  exact ret_exec (call_eval (by decide) (by decide) (cons_eval (var_eval (by simp [get_put])) nil_eval) (C.bwrng s _))

theorem hashSeed_invoke (E : Env) (junk : Mem) (C : Callees E junk) (fuel : Nat) (nm al : String) (o : Verif.Sha1.Obj) (alpha : Alpha) (ma : Mem)
    (w : World) (hw : Data nm o.data w) (ha : get al w.arrays = some (.w32 5 ma)) (hm : Words ma alpha.v0 alpha.v1 alpha.v2 alpha.v3 alpha.v4) :
    ∃ a', invoke E fuel Source.SHA1.hash_seed [.arr al] w = (.ok (.sc false 64 (hashSeed E.mode o alpha).2), ⟨w.locals, w.fields, a'⟩)
      ∧ get nm a' = some (.w32 80 (hashSeed E.mode o alpha).1.data) ∧ Others nm w.arrays a' := by
  have eb : Source.SHA1.hash_seed.body = .seq (.assign (.var "data") (.self "data")) (.seq (.assign (.var "a_val") (.item (.var "alpha") (.num 0)))
    (.seq (.assign (.var "b_val") (.item (.var "alpha") (.num 1))) (.seq (.assign (.var "c_val") (.item (.var "alpha") (.num 2)))
    (.seq (.assign (.var "d_val") (.item (.var "alpha") (.num 3))) (.seq (.assign (.var "e_val") (.item (.var "alpha") (.num 4)))
    (seqs ([17, 20, 23, 25, 26, 28, 29, 31].map calcStmt)
    (.seq (.for "i" (.call "range" (.cons (.num 0x20) (.cons (.num 0x50) .nil))) (.expr (.meth "calc_w_simd" (.cons (.var "i") .nil))))
    (seqs (hashLines.map lineStmt) seedTail)))))))) := rfl
  let r : Regs := { a := alpha.v0, b := alpha.v1, c := alpha.v2, d := alpha.v3, e := alpha.v4, t := 0 }
  obtain ⟨m0, m1, m2, m3, m4⟩ := hm
  have word (k : Nat) (hk : k < 5) (l : List (String × Val)) (hl : get "alpha" l = some (.arr al)) :
      eval E (.item (.var "alpha") (.num (k : Int))) ⟨l, w.fields, w.arrays⟩ = (.ok (.sc false 32 (ma k)), ⟨l, w.fields, w.arrays⟩) :=
    item_eval k (var_eval hl) num_eval ha (position_num E hk (by decide))
  let l0 : List (String × Val) := put "data" (.arr nm) [("alpha", .arr al)]
  let la := put "a_val" (.sc false 32 (ma 0)) l0
  let lb := put "b_val" (.sc false 32 (ma 1)) la
  let lc := put "c_val" (.sc false 32 (ma 2)) lb
  let ld := put "d_val" (.sc false 32 (ma 3)) lc
  let le := put "e_val" (.sc false 32 (ma 4)) ld
  have hl1 : Loc nm false r le := by
    constructor <;> simp [le, ld, lc, lb, la, l0, get_put, r, *]
  obtain ⟨a2, e2, h2, h2'⟩ := calcs_exec E C.calcs fuel nm (.seq (.for "i" (.call "range" (.cons (.num 0x20) (.cons (.num 0x50) .nil)))
    (.expr (.meth "calc_w_simd" (.cons (.var "i") .nil)))) (seqs (hashLines.map lineStmt) seedTail)) [17, 20, 23, 25, 26, 28, 29, 31] (by decide)
    o.data ⟨le, w.fields, w.arrays⟩ ⟨hw.1, hw.2⟩
  obtain ⟨⟨l3, f3, a3⟩, e3, hf, h3, h3', hl3⟩ := simd_exec E C.simd fuel nm _ r ⟨le, w.fields, a2⟩ ⟨hw.1, h2⟩ hl1
  simp only at hf
  subst hf
  obtain ⟨l4, e4, hl4⟩ := lines_exec' E C.sections fuel nm _ seedTail hashLines .s1 9 hashLines.tail rfl (by decide) (by decide) r ⟨l3, w.fields, a3⟩ h3 hl3
  obtain ⟨l5, e5⟩ := seedTail_exec E junk C fuel nm _ ⟨l4, w.fields, a3⟩ hl4
  refine ⟨a3, ?_, h3, fun x hx => (h3' x hx).trans (h2' x hx)⟩
  rw [hashSeed_value]
  refine invoke_method (F := Source.SHA1.hash_seed) rfl rfl rfl rfl (l' := l5) ?_
  rw [eb]
  change exec E [] fuel _ ⟨[("alpha", .arr al)], w.fields, w.arrays⟩ = _
  refine (seq_next (assign_var (self_eval (w := ⟨[("alpha", .arr al)], w.fields, w.arrays⟩) hw.1))).trans ?_
  refine (seq_next (assign_var (word 0 (by decide) l0 (by simp [l0, get_put, get])))).trans ?_
  refine (seq_next (assign_var (word 1 (by decide) la (by simp [la, l0, get_put, get])))).trans ?_
  refine (seq_next (assign_var (word 2 (by decide) lb (by simp [lb, la, l0, get_put, get])))).trans ?_
  refine (seq_next (assign_var (word 3 (by decide) lc (by simp [lc, lb, la, l0, get_put, get])))).trans ?_
  refine (seq_next (assign_var (word 4 (by decide) ld (by simp [ld, lc, lb, la, l0, get_put, get])))).trans ?_
  exact e2.trans ((seq_next e3).trans (e4.trans e5))

/-! ### the buttons, the date, the time and the timer -/

theorem bcd_eval {E : Env} {w : World} {i : Expr} {v : Val} {n : Nat} (hg : get "BCD" E.globals = some (.tup bcdTable))
    (hl : get "BCD" w.locals = none) (hi : eval E i w = (.ok v, w)) (hv : toInt v = some (n : Int)) :
    eval E (.item (.var "BCD") i) w = ((bcd n).map (.sc false 32), w) := by
  have e1 : eval E (.var "BCD") w = (.ok (.tup bcdTable), w) := by simp [eval, hl, hg]
  have e2 : bcdTable.length = 100 := by simp [bcdTable]
  simp only [eval, M.bind] at e1 ⊢
  rw [e1]
  simp only [hi, loadItem, position, hv, e2]
  by_cases h : n < 100
  · simp [bcd, h, Except.bind, Except.map, bcdTable]
  · simp [bcd, h, Except.bind, Except.map]

/-- `np.uint32(np.uint32(a) << np.uint32(k))` -/
theorem shifted_eval {E : Env} {w : World} {a : Expr} {r : Except PyErr (BitVec 32)} (k : Nat) (hk : k < 32)
    (h : eval E a w = (r.map (.sc false 32), w)) :
    eval E (.cast u32 (.bin .shl (.cast u32 a) (.cast u32 (.num (k : Int))))) w = ((r.map fun x : BitVec 32 => x <<< k).map (.sc false 32), w) := by
  have hb (x : BitVec 32) : ∃ v, binop E.mode .shl (.sc false 32 x) (.sc false 32 (BitVec.ofNat 32 k)) = .ok v ∧ cast u32 v = .ok (.sc false 32 (x <<< k)) := by
    have e : k % 4294967296 = k := by omega
    have e' : k < 64 := by omega
    have e2 : k % 18446744073709551616 = k := by omega
    cases E.mode
    · exact ⟨.sc false 64 (x.setWidth 64 <<< k), by simp [py, e, e2, e'], by simp [py]⟩
    · exact ⟨.sc false 32 (x <<< k), by simp [py, e, hk], by simp [py]⟩
  cases r with
  | error e => simp [eval, M.bind, h, Except.map]
  | ok x =>
    obtain ⟨v, h1, h2⟩ := hb x
    exact cast_eval (bin_eval (cast_eval h (c32 _)) (num_cast E w k) h1) h2

theorem or_wide (mode : Mode) (x y : BitVec 32) : binop mode .or (wide mode x) (.sc false 32 y) = .ok (wide mode (x ||| y)) := by
  cases mode <;> simp [py, wide]

theorem or_wide' (mode : Mode) (x y : BitVec 32) : binop mode .or (.sc false 32 x) (.sc false 32 y) = .ok (wide mode (x ||| y)) := by
  cases mode <;> simp [py, wide]

/-- one after the other; the first error counts -/
def both (f : BitVec 32 → BitVec 32 → BitVec 32) (r s : Except PyErr (BitVec 32)) : Except PyErr (BitVec 32) :=
  r.bind fun x => s.bind fun y => .ok (f x y)

theorem or_eval {E : Env} {w : World} {a b : Expr} {r s : Except PyErr (BitVec 32)} {f : BitVec 32 → Val}
    (hf : f = .sc false 32 ∨ f = wide E.mode) (h1 : eval E a w = (r.map f, w)) (h2 : eval E b w = (s.map (.sc false 32), w)) :
    eval E (.bin .or a b) w = ((both (· ||| ·) r s).map (wide E.mode), w) := by
  cases r with
  | error e => simp [eval, M.bind, h1, Except.map, both, Except.bind]
  | ok x =>
    cases s with
    | error e => simp [eval, M.bind, h1, h2, Except.map, both, Except.bind]
    | ok y =>
      rcases hf with rfl | rfl
      · exact bin_eval h1 h2 (or_wide' _ _ _)
      · exact bin_eval h1 h2 (or_wide _ _ _)

/-- `self.data[k] = e` -/
theorem setData {E : Env} {fuel : Nat} {w : World} {nm : String} {m : Mem} {k : Nat} (hk : k < 80) (hw : Data nm m w) {e : Expr} {v : Val} {x : BitVec 32}
    (he : eval E e w = (.ok v, w)) (hv : cast u32 v = .ok (.sc false 32 x)) :
    exec E [] fuel (.assign (.item (.self "data") (.num (k : Int))) e) w
      = (.ok .next, ⟨w.locals, w.fields, put nm (.w32 80 (m.set k x)) w.arrays⟩) :=
  assign_item he (self_eval hw.1) num_eval hw.2 (position_num E hk (by decide)) hv rfl

theorem assign_error {E : Env} {types : List (String × Ty)} {fuel : Nat} {w w1 : World} {t e : Expr} {x : PyErr} (h : eval E e w = (.error x, w1)) :
    exec E types fuel (.assign t e) w = (.error x, w1) := by
  simp [exec, M.bind, h]

theorem setButton_invoke (E : Env) (fuel : Nat) (nm : String) (o : Verif.Sha1.Obj) (w : World) (hw : Data nm o.data w) (button : BitVec 32) :
    invoke E fuel Source.SHA1.set_button [.sc false 32 button] w
      = (.ok .none, ⟨w.locals, w.fields, put nm (.w32 80 (setButton o button).data) w.arrays⟩) := by
  refine invoke_proc (F := Source.SHA1.set_button) rfl rfl (l' := [("button", .sc false 32 button)]) ?_
  exact setData (w := ⟨[("button", .sc false 32 button)], w.fields, w.arrays⟩) (k := 12) (by decide) ⟨hw.1, hw.2⟩
    (cast_eval (var_eval (by simp [get])) (c32 button)) (c32 _)

theorem setTimer0_invoke (E : Env) (H : Helpers E) (fuel : Nat) (nm : String) (o : Verif.Sha1.Obj) (w : World) (hw : Data nm o.data w)
    (timer0 : BitVec 32) (vcount : BitVec 8) :
    invoke E fuel Source.SHA1.set_timer0 [.sc false 32 timer0, .sc false 8 vcount] w
      = (.ok .none, ⟨w.locals, w.fields, put nm (.w32 80 (setTimer0 o timer0 vcount).data) w.arrays⟩) := by
  let w1 : World := ⟨[("timer0", .sc false 32 timer0), ("vcount", .sc false 8 vcount)], w.fields, w.arrays⟩
  refine invoke_proc (F := Source.SHA1.set_timer0) rfl rfl (l' := w1.locals) ?_
  refine setData (w := w1) (k := 5) (by decide) ⟨hw.1, hw.2⟩ (v := .sc false 32 (Util.changeEndian ((vcount.setWidth 32 <<< 16) ||| timer0))) ?_ (c32 _)
  have e1 : eval E (.cast u32 (.bin .or (.cast u32 (.bin .shl (.cast u32 (.var "vcount")) (.cast u32 (.num 0x10)))) (.cast u32 (.var "timer0")))) w1
      = (.ok (.sc false 32 ((vcount.setWidth 32 <<< 16) ||| timer0)), w1) := by
    cases hm : E.mode <;> simp [py, w1, hm]
  exact call_eval (by decide) (by decide) (cons_eval e1 nil_eval) (H.endian _ _ _ (c32 _))

/-- a result that is either the new contents of `data` or an error -/
def Outcome (nm : String) (w : World) (r : Except PyErr Verif.Sha1.Obj) : Except PyErr Val × World :=
  match r with
  | .ok o => (.ok .none, ⟨w.locals, w.fields, put nm (.w32 80 o.data) w.arrays⟩)
  | .error e => (.error e, w)

theorem toInt_nat (x : BitVec k) : toInt (.sc false k x) = some ((x.toNat : Nat) : Int) := by simp [toInt]

theorem year_index (E : Env) (year : BitVec 16) :
    ∃ v n, binop E.mode .sub (.sc false 16 year) (.sc false 16 2000) = .ok v ∧ toInt v = some ((n : Nat) : Int) ∧ bcd n = bcd (year - 2000).toNat := by
  cases E.mode
  · refine ⟨.sc false 64 (year.setWidth 64 - 2000), _, by simp [py], toInt_nat _, ?_⟩
    have h1 : (year - 2000).toNat = (65536 - 2000 + year.toNat) % 65536 := by simp [BitVec.toNat_sub]
    have h2 : (year.setWidth 64 - 2000).toNat = (18446744073709551616 - 2000 + year.toNat) % 18446744073709551616 := by
      simp [BitVec.toNat_sub]
    have := year.isLt
    by_cases h : 2000 ≤ year.toNat
    · rw [show (year.setWidth 64 - 2000).toNat = (year - 2000).toNat by omega]
    · rw [bcd, bcd, if_neg (by omega), if_neg (by omega)]
  · exact ⟨.sc false 16 (year - 2000), _, by simp [py], toInt_nat _, rfl⟩

theorem setDate_invoke (E : Env) (hg : get "BCD" E.globals = some (.tup bcdTable)) (fuel : Nat) (nm : String) (o : Verif.Sha1.Obj) (w : World)
    (hw : Data nm o.data w) (year : BitVec 16) (month day dow : BitVec 8) :
    invoke E fuel Source.SHA1.set_date [.sc false 16 year, .sc false 8 month, .sc false 8 day, .sc false 8 dow] w
      = Outcome nm w (setDate o year month day dow) := by
  let w1 : World := ⟨[("year", .sc false 16 year), ("month", .sc false 8 month), ("day", .sc false 8 day), ("day_of_week", .sc false 8 dow)], w.fields, w.arrays⟩
  have hl : get "BCD" w1.locals = none := by simp [w1, get]
  obtain ⟨v, n, hv1, hv2, hn⟩ := year_index E year
  have c16 (x : BitVec 16) : cast u16 (.sc false 16 x) = .ok (.sc false 16 x) := by simp [py]
  have ey : eval E (.bin .sub (.cast u16 (.var "year")) (.cast u16 (.num 0x7D0))) w1 = (.ok v, w1) :=
    bin_eval (cast_eval (var_eval (by simp [w1, get])) (c16 year)) (cast_eval num_eval (v := .sc false 16 2000) (by cases E.mode <;> simp [py])) hv1
  have i1 := bcd_eval hg hl ey hv2
  rw [hn] at i1
  have i2 := bcd_eval (i := .cast u8 (.var "month")) hg hl (cast_eval (var_eval (by simp [w1, get])) (c8 month)) (toInt_nat month)
  have i3 := bcd_eval (i := .cast u8 (.var "day")) hg hl (cast_eval (var_eval (by simp [w1, get])) (c8 day)) (toInt_nat day)
  have i4 : eval E (.cast u32 (.cast u8 (.var "day_of_week"))) w1 = ((Except.ok (dow.setWidth 32)).map (.sc false 32), w1) :=
    cast_eval (cast_eval (var_eval (by simp [w1, get])) (c8 dow)) (by simp [py])
  have e := or_eval (.inr rfl) (or_eval (.inr rfl) (or_eval (.inl rfl) (shifted_eval 24 (by decide) i1) (shifted_eval 16 (by decide) i2))
    (shifted_eval 8 (by decide) i3)) i4
  generalize hy : bcd (year - 2000).toNat = y at e
  generalize hmo : bcd month.toNat = mo at e
  generalize hd : bcd day.toNat = d at e
  simp only [setDate, hy, hmo, hd]
  have err (x : PyErr) (h : both (· ||| ·) (both (· ||| ·) (both (· ||| ·) (y.map fun x : BitVec 32 => x <<< 24) (mo.map fun x : BitVec 32 => x <<< 16)) (d.map fun x : BitVec 32 => x <<< 8)) (.ok (dow.setWidth 32)) = .error x) :
      invoke E fuel Source.SHA1.set_date [.sc false 16 year, .sc false 8 month, .sc false 8 day, .sc false 8 dow] w = (.error x, w) := by
    rw [h] at e
    exact invoke_error (F := Source.SHA1.set_date) (o := ⟨w.fields, w.arrays⟩) (o' := ⟨w.fields, w.arrays⟩) (l := w.locals) (l' := w1.locals) rfl rfl (assign_error e)
  cases y with
  | error x => exact err x rfl
  | ok y =>
    cases mo with
    | error x => exact err x rfl
    | ok mo =>
      cases d with
      | error x => exact err x rfl
      | ok d =>
        refine invoke_proc (F := Source.SHA1.set_date) rfl rfl (l' := w1.locals) ?_
        exact setData (w := w1) (k := 8) (by decide) ⟨hw.1, hw.2⟩ e (cast_wide _ _)

theorem cmp_eval {E : Env} {w w1 w2 : World} {op : CmpOp} {a b : Expr} {x y v : Val} (h1 : eval E a w = (.ok x, w1))
    (h2 : eval E b w1 = (.ok y, w2)) (h3 : compare op x y = .ok v) : eval E (.cmp op a b) w = (.ok v, w2) := by
  simp [eval, M.bind, h1, h2, M.lift, h3]

theorem and_eval {E : Env} {w : World} {a b : Expr} {p q : Bool} (h1 : eval E a w = (.ok (.bool p), w))
    (h2 : eval E b w = (.ok (.bool q), w)) : eval E (.and a b) w = (.ok (.bool (p && q)), w) := by
  cases p <;> simp [eval, M.bind, h1, h2, M.lift, truth, M.pure]

theorem ite_eval {E : Env} {w : World} {c a b : Expr} {p : Bool} (h : eval E c w = (.ok (.bool p), w)) :
    eval E (.ite c a b) w = if p then eval E a w else eval E b w := by
  cases p <;> simp [eval, M.bind, h, M.lift, truth]

/-- the value of an attribute `ds_type` -/
def dsNum : DSType → BitVec 8
  | .ds => 0 | .dsi => 1 | .ds3 => 2

/-- the first statement of `set_time` -/
theorem hour_eval (E : Env) (hg : get "BCD" E.globals = some (.tup bcdTable)) (h3 : get "DSType.DS3" E.globals = some (literal E.mode 2)) (w : World)
    (t : DSType) (ht : get "ds_type" w.fields = some (.sc false 8 (dsNum t))) (hour : BitVec 8) (hl : get "hour" w.locals = some (.sc false 8 hour))
    (hb : get "BCD" w.locals = none) (h3' : get "DSType.DS3" w.locals = none) :
    ∃ f : BitVec 32 → Val,
      eval E (.bin .shl (.cast u32 (.bin .add (.cast u32 (.item (.var "BCD") (.cast u8 (.var "hour")))) (.ite (.and (.cmp .ge (.cast u8 (.var "hour")) (.cast u8 (.num 0xC))) (.cmp .ne (.self "ds_type") (.var "DSType.DS3"))) (.cast u32 (.num 0x40)) (.cast u32 (.num 0))))) (.cast u32 (.num 0x18))) w
        = ((bcd hour.toNat).map f, w)
      ∧ ∀ x (y z : BitVec 32), ∃ v v', binop E.mode .or (f x) (.sc false 32 y) = .ok v ∧ binop E.mode .or v (.sc false 32 z) = .ok v'
        ∧ cast u32 v' = .ok (.sc false 32 (((x + if hour ≥ 12 ∧ t ≠ .ds3 then 0x40 else 0) <<< 24) ||| y ||| z)) := by
  have i1 := bcd_eval (i := .cast u8 (.var "hour")) hg hb (cast_eval (var_eval hl) (c8 hour)) (toInt_nat hour)
  have i2 : eval E (.and (.cmp .ge (.cast u8 (.var "hour")) (.cast u8 (.num 0xC))) (.cmp .ne (.self "ds_type") (.var "DSType.DS3"))) w
      = (.ok (.bool (decide (hour ≥ 12) && decide (t ≠ .ds3))), w) := by
    refine and_eval (cmp_eval (cast_eval (var_eval hl) (c8 hour)) (cast_eval num_eval (v := .sc false 8 12) (by cases E.mode <;> simp [py])) ?_)
      (cmp_eval (self_eval ht) (y := literal E.mode 2) (by simp [eval, h3, h3']) ?_)
    · simp only [compare, toInt_nat]
      congr 3
      exact propext Int.ofNat_le
    · have e := toInt_literal E.mode 2 (by decide)
      simp only [Nat.cast_ofNat] at e
      simp only [compare, toInt_nat, e]
      cases t <;> simp [dsNum]
  have i3 : eval E (.ite (.and (.cmp .ge (.cast u8 (.var "hour")) (.cast u8 (.num 0xC))) (.cmp .ne (.self "ds_type") (.var "DSType.DS3"))) (.cast u32 (.num 0x40)) (.cast u32 (.num 0))) w
      = (.ok (.sc false 32 (if hour ≥ 12 ∧ t ≠ .ds3 then 0x40 else 0)), w) := by
    rw [ite_eval i2]
    by_cases hc : hour ≥ 12 ∧ t ≠ .ds3
    · rw [if_pos hc, if_pos (by simpa using hc)]
      exact num_cast E w 0x40
    · rw [if_neg hc, if_neg (by simpa using hc)]
      exact num_cast E w 0
  generalize (if hour ≥ 12 ∧ t ≠ .ds3 then (0x40 : BitVec 32) else 0) = q at i3 ⊢
  generalize hB : Expr.item (.var "BCD") (.cast u8 (.var "hour")) = B at i1 ⊢
  generalize hQ : Expr.ite (.and (.cmp .ge (.cast u8 (.var "hour")) (.cast u8 (.num 0xC))) (.cmp .ne (.self "ds_type") (.var "DSType.DS3"))) (.cast u32 (.num 0x40)) (.cast u32 (.num 0)) = Q at i3 ⊢
  refine ⟨fun x => match E.mode with | .numba => .sc false 64 ((x + q).setWidth 64 <<< 24) | .numpy => .sc false 32 ((x + q) <<< 24), ?_, fun x y z => ?_⟩
  · generalize bcd hour.toNat = b at i1 ⊢
    cases b with
    | error e => simp [eval, M.bind, i1, Except.map]
    | ok x => cases hm : E.mode <;> simp [py, i1, i3, hm, narrow_add]
  · cases E.mode
    · refine ⟨_, _, by simp [py]; rfl, by simp [py]; rfl, by simp [py]⟩
    · refine ⟨_, _, by simp [py]; rfl, by simp [py]; rfl, by simp [py]⟩

theorem setTime_invoke (E : Env) (hg : get "BCD" E.globals = some (.tup bcdTable)) (h3 : get "DSType.DS3" E.globals = some (literal E.mode 2))
    (fuel : Nat) (nm : String) (o : Verif.Sha1.Obj) (w : World) (hw : Data nm o.data w)
    (ht : get "ds_type" w.fields = some (.sc false 8 (dsNum o.dsType))) (hour minute second : BitVec 8) :
    invoke E fuel Source.SHA1.set_time [.sc false 8 hour, .sc false 8 minute, .sc false 8 second] w
      = Outcome nm w (setTime o hour minute second) := by
  let l1 : List (String × Val) := [("hour", .sc false 8 hour), ("minute", .sc false 8 minute), ("second", .sc false 8 second)]
  obtain ⟨f, e1, e1'⟩ := hour_eval E hg h3 ⟨l1, w.fields, w.arrays⟩ o.dsType ht hour (by simp [l1, get]) (by simp [l1, get]) (by simp [l1, get])
  have err {l' : List (String × Val)} {x : PyErr} (h : exec E [] fuel Source.SHA1.set_time.body ⟨l1, w.fields, w.arrays⟩ = (.error x, ⟨l', w.fields, w.arrays⟩)) :
      invoke E fuel Source.SHA1.set_time [.sc false 8 hour, .sc false 8 minute, .sc false 8 second] w = (.error x, w) :=
    invoke_error (F := Source.SHA1.set_time) (o := ⟨w.fields, w.arrays⟩) (o' := ⟨w.fields, w.arrays⟩) (l := w.locals) (l' := l') rfl rfl h
  rw [setTime]
  cases hh : bcd hour.toNat with
  | error x =>
    rw [hh] at e1
    exact err (seq_error (assign_error e1))
  | ok h =>
  rw [hh] at e1
  have s1 := assign_var (x := "h_val") (fuel := fuel) e1
  let l2 := put "h_val" (f h) l1
  have i2 := shifted_eval 16 (by decide) (bcd_eval (E := E) (w := ⟨l2, w.fields, w.arrays⟩) (i := .cast u8 (.var "minute")) hg (by simp [l2, l1, get_put, get])
    (cast_eval (var_eval (by simp [l2, l1, get_put, get])) (c8 minute)) (toInt_nat minute))
  cases hm : bcd minute.toNat with
  | error x =>
    rw [hm] at i2
    exact err ((seq_next s1).trans (seq_error (assign_error i2)))
  | ok m =>
  rw [hm] at i2
  have s2 := assign_var (x := "m_val") (fuel := fuel) i2
  let l3 := put "m_val" (.sc false 32 (m <<< 16)) l2
  have i3 := shifted_eval 8 (by decide) (bcd_eval (E := E) (w := ⟨l3, w.fields, w.arrays⟩) (i := .cast u8 (.var "second")) hg (by simp [l3, l2, l1, get_put, get])
    (cast_eval (var_eval (by simp [l3, l2, l1, get_put, get])) (c8 second)) (toInt_nat second))
  cases hs : bcd second.toNat with
  | error x =>
    rw [hs] at i3
    exact err ((seq_next s1).trans ((seq_next s2).trans (seq_error (assign_error i3))))
  | ok s =>
  rw [hs] at i3
  have s3 := assign_var (x := "s_val") (fuel := fuel) i3
  let l4 := put "s_val" (.sc false 32 (s <<< 8)) l3
  obtain ⟨v, v', b1, b2, b3⟩ := e1' h (m <<< 16) (s <<< 8)
  have i4 : eval E (.bin .or (.bin .or (.var "h_val") (.var "m_val")) (.var "s_val")) ⟨l4, w.fields, w.arrays⟩ = (.ok v', ⟨l4, w.fields, w.arrays⟩) :=
    bin_eval (bin_eval (var_eval (v := f h) (by simp [l4, l3, l2, get_put])) (var_eval (v := .sc false 32 (m <<< 16)) (by simp [l4, l3, get_put])) b1)
      (var_eval (v := .sc false 32 (s <<< 8)) (by simp [l4, get_put])) b2
  refine invoke_proc (F := Source.SHA1.set_time) rfl rfl (l' := l4) ?_
  exact (seq_next s1).trans ((seq_next s2).trans ((seq_next s3).trans (setData (k := 9) (w := ⟨l4, w.fields, w.arrays⟩) (by decide) ⟨hw.1, hw.2⟩ i4 b3)))

end Verif.Py.Sha1
