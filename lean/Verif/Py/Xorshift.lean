import Verif.Py.Eval
import Verif.Py.Float
import Verif.Lemmas.Fp
import Verif.Model.Xorshift128
/-
C133 for xorshift/xorshift128.py: the source text computes what the model says.
-/
namespace Verif.Py.Xorshift
open Verif Xorshift128

/-- the class `Xorshift128` -/
def prog : Prog where
  funs := [("re_init", Source.Xorshift128.re_init), ("advance", Source.Xorshift128.advance), ("next", Source.Xorshift128.next),
    ("previous", Source.Xorshift128.previous), ("next_randrange", Source.Xorshift128.next_randrange),
    ("next_rand", Source.Xorshift128.next_rand), ("next_alternate_rand", Source.Xorshift128.next_alternate_rand),
    ("next_float_randrange", Source.Xorshift128.next_float_randrange)]
  globals := []
  fieldTypes := []
  given := [("np.float32", toF32), ("/", div32)]

@[py] theorem prog_globals : prog.globals = [] := rfl
@[py] theorem prog_fieldTypes : prog.fieldTypes = [] := rfl

/-- the array attribute `state` holds the four words -/
def Rep (s : State) (o : Obj) : Prop :=
  ∃ m : Mem, o = ⟨[("state", .arr "state")], [("state", .w32 4 m)]⟩ ∧ s = ⟨m 0, m 1, m 2, m 3⟩

theorem next_source (mode : Mode) (s : State) :
    Calls prog mode Rep 0 1 "next" [] s (.ok (.sc false 32 (Xorshift128.next mode s).2)) (Xorshift128.next mode s).1 := by
  refine calls_of Source.Xorshift128.next rfl ?_
  rintro fuel depth - - _ ⟨m, rfl, rfl⟩
  refine ⟨_, ⟨(((m.set 0 (m 1)).set 1 (m 2)).set 2 (m 3)).set 3 (nextWord mode ⟨m 0, m 1, m 2, m 3⟩), rfl, ?_⟩, fun l => ?_⟩
  · simp [Xorshift128.next, Mem.set]
  · cases mode <;> simp [py, Obj.world, Source.Xorshift128.next, Xorshift128.next, nextWord, c32, Mem.set]

theorem previous_source (mode : Mode) (s : State) :
    Calls prog mode Rep 0 1 "previous" [] s (.ok (.sc false 32 (previous mode s).2)) (previous mode s).1 := by
  refine calls_of Source.Xorshift128.previous rfl ?_
  rintro fuel depth - - _ ⟨m, rfl, rfl⟩
  refine ⟨_, ⟨(((m.set 3 (m 2)).set 2 (m 1)).set 1 (m 0)).set 0 (prevWord mode ⟨m 0, m 1, m 2, m 3⟩), rfl, ?_⟩, fun l => ?_⟩
  · simp [previous, Mem.set]
  · cases mode <;> simp [py, Obj.world, Source.Xorshift128.previous, previous, prevWord, c32, Mem.set]

theorem nextRand_source (mode : Mode) (s : State) (maximum : BitVec 32) :
    Calls prog mode Rep 0 2 "next_rand" [.sc false 32 maximum] s ((nextRand mode s maximum).2.map (wide mode)) (nextRand mode s maximum).1 := by
  refine calls_of Source.Xorshift128.next_rand rfl ?_
  intro fuel depth hn hd o ho
  obtain ⟨o', h1, h2⟩ := next_source mode s fuel depth hn hd o ho
  refine ⟨o', h1, fun l => ?_⟩
  simp only [Obj.world] at h2
  cases mode <;> by_cases h0 : maximum = 0#32 <;>
    simp [py, Obj.world, Source.Xorshift128.next_rand, h2, nextRand, pyMod, wide, h0, umod_wide, wide_eq_zero]

theorem nextRandrange_source (mode : Mode) (s : State) (minimum maximum : BitVec 32) :
    Calls prog mode Rep 0 2 "next_randrange" [.sc true 32 minimum, .sc true 32 maximum] s
      ((nextRandrange mode s minimum maximum).2.map (.sc false 32)) (nextRandrange mode s minimum maximum).1 := by
  refine calls_of Source.Xorshift128.next_randrange rfl ?_
  intro fuel depth hn hd o ho
  obtain ⟨o', h1, h2⟩ := next_source mode s fuel depth hn hd o ho
  refine ⟨o', h1, fun l => ?_⟩
  simp only [Obj.world] at h2
  by_cases h0 : maximum - minimum = 0#32 <;> cases mode <;>
    simp [py, Obj.world, Source.Xorshift128.next_randrange, h2, nextRandrange, pyMod, sub_narrow, add_narrow, h0, umod_wide,
      wide_eq_zero]

/-- the first bound may be an `int64` -/
theorem nextRandrange_wide (mode : Mode) (s : State) (minimum : BitVec 64) (maximum : BitVec 32) :
    Calls prog mode Rep 0 2 "next_randrange" [.sc true 64 minimum, .sc true 32 maximum] s
      ((nextRandrange mode s (minimum.setWidth 32) maximum).2.map (.sc false 32)) (nextRandrange mode s (minimum.setWidth 32) maximum).1 := by
  refine calls_of Source.Xorshift128.next_randrange rfl ?_
  intro fuel depth hn hd o ho
  obtain ⟨o', h1, h2⟩ := next_source mode s fuel depth hn hd o ho
  refine ⟨o', h1, fun l => ?_⟩
  simp only [Obj.world] at h2
  by_cases h0 : maximum - minimum.setWidth 32 = 0#32 <;> cases mode <;>
    simp [py, Obj.world, Source.Xorshift128.next_randrange, h2, nextRandrange, pyMod, sub_narrow, add_narrow, h0, umod_wide,
      wide_eq_zero]

theorem nextAlternateRand_source (mode : Mode) (s : State) (maximum : BitVec 32) :
    Calls prog mode Rep 0 3 "next_alternate_rand" [.sc false 32 maximum] s
      ((nextAlternateRand mode s maximum).2.map (wide mode)) (nextAlternateRand mode s maximum).1 := by
  refine calls_of Source.Xorshift128.next_alternate_rand rfl ?_
  intro fuel depth hn hd o ho
  obtain ⟨o', h1, h2⟩ := nextRandrange_wide mode s ((-0x7FFFFFFF#32).signExtend 64 - (1#32).setWidth 64) 0x7FFFFFFF fuel depth hn hd o ho
  refine ⟨o', h1, fun l => ?_⟩
  simp only [Obj.world] at h2
  generalize hr : nextRandrange mode s _ _ = r at h1 h2
  obtain ⟨s1, r⟩ := r
  have hr' := hr
  simp at hr'
  rcases r with e | v
  · simp [py] at h2
    cases mode <;> simp [py, Obj.world, Source.Xorshift128.next_alternate_rand, nextAlternateRand, hr', h2]
  · simp [py] at h2
    cases mode <;> by_cases h0 : maximum = 0#32 <;>
      simp [py, Obj.world, Source.Xorshift128.next_alternate_rand, nextAlternateRand, hr', h2, pyMod, wide, h0, umod_wide,
        wide_eq_zero]

theorem advance_source (mode : Mode) (s : State) (adv : BitVec 32) :
    Calls prog mode Rep 0 2 "advance" [.sc false 32 adv] s (.ok .none) (advance mode s adv.toNat) :=
  advance_calls (next_source mode) "adv" rfl 32 adv s

theorem reInit_source (mode : Mode) (s : State) (a b c d : BitVec 32) :
    Calls prog mode Rep 0 1 "re_init" [.sc false 32 a, .sc false 32 b, .sc false 32 c, .sc false 32 d] s (.ok .none)
      (reInit s a b c d) := by
  refine calls_of Source.Xorshift128.re_init rfl ?_
  rintro fuel depth - - _ ⟨m, rfl, rfl⟩
  refine ⟨_, ⟨(((m.set 0 a).set 1 b).set 2 c).set 3 d, rfl, ?_⟩, fun l => ?_⟩
  · simp [reInit, Mem.set]
  · cases mode <;> simp [py, Obj.world, Source.Xorshift128.re_init, Mem.set]

/-- the integers of 24 bits are `float32` numbers -/
theorem rnd_int (n : Nat) (h : n < 2 ^ 24) : Fp.rnd 24 (((n : Int) : ℚ)) = n := by
  rw [Fp.rnd_fix (by decide) (Fp.isFp_int _ (by rw [abs_of_nonneg (by omega)]; exact_mod_cast h.le))]
  norm_cast

theorem mask_eval {E : Env} {w w' : World} {x : BitVec 32} (h : E.call "next" [] w = (.ok (.sc false 32 x), w')) :
    ∃ v, eval E (.bin .and (.meth "next" .nil) (.cast u32 (.num 0x7FFFFF))) w = (.ok v, w') ∧ toInt v = some (((x &&& 0x7FFFFF).toNat : Nat) : Int) := by
  cases hm : E.mode
  · refine ⟨.sc false 64 (x.setWidth 64 &&& 0x7FFFFF), by simp [py, h, hm], ?_⟩
    simp [toInt]
    rw [Nat.mod_eq_of_lt (by omega)]
  · exact ⟨.sc false 32 (x &&& 0x7FFFFF), by simp [py, h, hm], rfl⟩

theorem nextFloat_source (mode : Mode) (s : State) (lo hi : ℚ) :
    Calls prog mode Rep 0 2 "next_float_randrange" [.f32 lo, .f32 hi] s (.ok (.flt (nextFloatRandrange mode s lo hi).2)) (nextFloatRandrange mode s lo hi).1 := by
  refine calls_of Source.Xorshift128.next_float_randrange rfl ?_
  intro fuel depth hn hd o ho
  obtain ⟨o', h1, h2⟩ := next_source mode s fuel depth hn hd o ho
  refine ⟨o', h1, fun l => ?_⟩
  obtain ⟨d, rfl⟩ : ∃ d, depth = d + 1 := ⟨depth - 1, by omega⟩
  generalize hE : (⟨mode, prog.globals, prog.fieldTypes, run prog mode fuel (d + 1)⟩ : Env) = E
  have hm : E.mode = mode := by rw [← hE]
  have hF : E.call "np.float32" = toF32 := by rw [← hE]; funext args; simp only [run]; rfl
  have hD : E.call "/" = div32 := by rw [← hE]; funext args; simp only [run]; rfl
  have hN (l : List (String × Val)) : E.call "next" [] (o.world l) = (.ok (.sc false 32 (Xorshift128.next mode s).2), o'.world l) := by rw [← hE]; exact h2 l
  have fl (q : ℚ) (w : World) : toF32 [.f32 q] w = (.ok (.f32 q), w) := rfl
  generalize hL : ([("minimum", .f32 lo), ("maximum", .f32 hi)] : List (String × Val)) = L
  have g1 : get "minimum" L = some (.f32 lo) := by rw [← hL]; rfl
  have g2 : get "maximum" L = some (.f32 hi) := by rw [← hL]; rfl
  have p1 : put "minimum" (.f32 lo) L = L := by rw [← hL]; rfl
  have p2 : put "maximum" (.f32 hi) L = L := by rw [← hL]; rfl
  obtain ⟨v, m1, m2⟩ := mask_eval (hN L)
  generalize hx : (Xorshift128.next mode s).2 &&& 0x7FFFFF = x at m2
  have hx24 : x.toNat < 2 ^ 24 := by
    rw [← hx, BitVec.toNat_and]
    exact lt_of_le_of_lt Nat.and_le_right (by decide)
  have q1 : eval E (.call "/" (.cons (.call "np.float32" (.cons (.bin .and (.meth "next" .nil) (.cast u32 (.num 0x7FFFFF))) .nil))
      (.cons (.call "np.float32" (.cons (.num 0x7FFFFF) .nil)) .nil))) (o.world L) = (.ok (.f32 (Fp.rnd 24 ((x.toNat : ℚ) / 0x7FFFFF))), o'.world L) := by
    have k : toInt (literal E.mode 0x7FFFFF) = some ((0x7FFFFF : Nat) : Int) := by cases E.mode <;> rfl
    have n1 := rnd_int x.toNat hx24
    have n2 := rnd_int 0x7FFFFF (by decide)
    generalize (Expr.bin .and (.meth "next" .nil) (.cast u32 (.num 0x7FFFFF))) = e at m1 ⊢
    simp only [eval, M.bind, m1, builtin, String.reduceEq, if_false, hF, toF32_int m2, toF32_int k, n1, n2, M.pure, hD, div32]
    norm_num [M.pure]
  have body : exec E [] fuel Source.Xorshift128.next_float_randrange.body (o.world L)
      = (.ok (.ret (.flt (nextFloatRandrange mode s lo hi).2)), o'.world (put "rand_float" (.f32 (Fp.rnd 24 ((x.toNat : ℚ) / 0x7FFFFF))) L)) := by
    have a1 : exec E [] fuel (.assign (.var "minimum") (.call "np.float32" (.cons (.var "minimum") .nil))) (o.world L) = (.ok .next, o.world L) := by
      simp [exec, eval, M.bind, Obj.world, g1, M.pure, builtin, hF, fl, store, storeLocal_nil, p1]
    have a2 : exec E [] fuel (.assign (.var "maximum") (.call "np.float32" (.cons (.var "maximum") .nil))) (o.world L) = (.ok .next, o.world L) := by
      simp [exec, eval, M.bind, Obj.world, g2, M.pure, builtin, hF, fl, store, storeLocal_nil, p2]
    rw [Source.Xorshift128.next_float_randrange]
    refine (seq_next a1).trans ((seq_next a2).trans ?_)
    generalize hf : Fp.rnd 24 ((x.toNat : ℚ) / 0x7FFFFF) = f at q1 ⊢
    have a3 : exec E [] fuel (.assign (.var "rand_float") (.call "/" (.cons (.call "np.float32" (.cons (.bin .and (.meth "next" .nil) (.cast u32 (.num 0x7FFFFF))) .nil))
        (.cons (.call "np.float32" (.cons (.num 0x7FFFFF) .nil)) .nil)))) (o.world L) = (.ok .next, o'.world (put "rand_float" (.f32 f) L)) := by
      rw [exec, M.bind, q1]
      simp only [M.bind, store, Obj.world, storeLocal_nil, M.pure]
    refine (seq_next a3).trans ?_
    have r1 : get "rand_float" (put "rand_float" (.f32 f) L) = some (.f32 f) := by rw [← hL]; rfl
    have r2 : get "minimum" (put "rand_float" (.f32 f) L) = some (.f32 lo) := by rw [← hL]; rfl
    have r3 : get "maximum" (put "rand_float" (.f32 f) L) = some (.f32 hi) := by rw [← hL]; rfl
    have one : Fp.rnd 53 (1 : ℚ) = 1 := by
      have := Fp.rnd_fix (p := 53) (by decide) (Fp.isFp_int 1 (by norm_num))
      simpa using this
    have hv : (nextFloatRandrange mode s lo hi).2 = Fp.rnd 53 (Fp.rnd 24 (f * lo) + Fp.rnd 53 (Fp.rnd 53 (1 - f) * hi)) := by
      rw [← hf, ← hx]; rfl
    have s1 : binop E.mode .sub (literal E.mode 1) (.f32 f) = .ok (.flt (Fp.rnd 53 (1 - f))) := by
      cases E.mode <;> simp [literal, binop, floatBin, one]
    have s2 (x y : ℚ) : binop E.mode .mul (.f32 x) (.f32 y) = .ok (.f32 (Fp.rnd 24 (x * y))) := rfl
    have s3 (x y : ℚ) : binop E.mode .mul (.flt x) (.f32 y) = .ok (.flt (Fp.rnd 53 (x * y))) := rfl
    have s4 (x y : ℚ) : binop E.mode .add (.f32 x) (.flt y) = .ok (.flt (Fp.rnd 53 (x + y))) := rfl
    simp only [exec, eval, M.bind, Obj.world, r1, r2, r3, M.lift, M.pure, s1, s2, s3, s4, hv]
  exact invoke_ret rfl rfl rfl (by rw [← hL] at body; exact body)

end Verif.Py.Xorshift
