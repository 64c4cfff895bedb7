import Verif.Py.Util
import Verif.Model.Xoroshiro
/-
C133 for xorshift/xoroshiro128plus.py: the source text computes what the model says.
-/
namespace Verif.Py.Xoroshiro
open Verif Verif.Xoroshiro

/-- the object with these two words (the array has two elements) -/
def obj (m : Nat → BitVec 64) : Obj := ⟨[("state", .arr "state")], [("state", .w64 2 m)]⟩

/-- the array attribute `state` holds the two words -/
def Rep (s : State) (o : Obj) : Prop := ∃ m, o = obj m ∧ s = ⟨m 0, m 1⟩

/-- the array with these two words -/
def words (m : Nat → BitVec 64) (s : State) : Nat → BitVec 64 := fun j => if j = 1 then s.s1 else if j = 0 then s.s0 else m j

theorem rep_words (m : Nat → BitVec 64) (s : State) : Rep s (obj (words m s)) := ⟨_, rfl, rfl⟩

/-- what the calls of the rotations do -/
structure Rotates (E : Env) : Prop where
  left (k : Nat) (hk : k = 24 ∨ k = 37) (v : BitVec 64) (w : World) :
    E.call "rotate_left_u64" [.sc false 64 v, literal E.mode k] w = (.ok (.sc false 64 (rotl E.mode v k)), w)
  right (k : Nat) (hk : k = 24 ∨ k = 37) (v : BitVec 64) (w : World) :
    E.call "rotate_right_u64" [.sc false 64 v, literal E.mode k] w = (.ok (.sc false 64 (rotr E.mode v k)), w)

theorem undef_left (mode : Mode) (v : BitVec 64) (k : Nat) (hk : k = 24 ∨ k = 37) :
    Util.undef (Verif.Util.rotateLeft64 mode v k) = .ok (.sc false 64 (rotl mode v k)) := by
  rcases hk with rfl | rfl <;> cases mode <;> rfl

theorem undef_right (mode : Mode) (v : BitVec 64) (k : Nat) (hk : k = 24 ∨ k = 37) :
    Util.undef (Verif.Util.rotateRight64 mode v k) = .ok (.sc false 64 (rotr mode v k)) := by
  rcases hk with rfl | rfl <;> cases mode <;> rfl

theorem rotates (P : Prog) (mode : Mode) (fuel depth : Nat) (hd : 1 ≤ depth)
    (h1 : get "rotate_left_u64" P.funs = some Source.rotate_left_u64)
    (h2 : get "rotate_right_u64" P.funs = some Source.rotate_right_u64) :
    Rotates ⟨mode, P.globals, P.fieldTypes, run P mode fuel depth⟩ := by
  obtain ⟨d, rfl⟩ : ∃ d, depth = d + 1 := ⟨depth - 1, by omega⟩
  constructor
  · intro k hk v w
    simp only [run, h1]
    rw [← undef_left mode v k hk]
    exact Util.rotateLeft64_literal ⟨mode, P.globals, P.fieldTypes, run P mode fuel d⟩ fuel v k hk w
  · intro k hk v w
    simp only [run, h2]
    rw [← undef_right mode v k hk]
    exact Util.rotateRight64_literal ⟨mode, P.globals, P.fieldTypes, run P mode fuel d⟩ fuel v k hk w

namespace Rejection
open Verif.Xoroshiro.Rejection

/-- the class `Xoroshiro128PlusRejection` -/
def prog : Prog where
  funs := [("re_init", Source.Xoroshiro128PlusRejection.re_init), ("advance", Source.Xoroshiro128Plus.advance),
    ("next", Source.Xoroshiro128PlusRejection.next), ("previous", Source.Xoroshiro128PlusRejection.previous),
    ("next_rand", Source.Xoroshiro128PlusRejection.next_rand), ("bit_mask", Source.Xoroshiro128PlusRejection.bit_mask),
    ("rotate_left_u64", Source.rotate_left_u64), ("rotate_right_u64", Source.rotate_right_u64)]
  globals := []
  fieldTypes := []

@[py] theorem prog_globals : prog.globals = [] := rfl
@[py] theorem prog_fieldTypes : prog.fieldTypes = [] := rfl

theorem next_exec (E : Env) (fuel : Nat) (hr : Rotates E) (m : Nat → BitVec 64) : ∃ l,
    exec E [] fuel Source.Xoroshiro128PlusRejection.next.body ((obj m).world [])
      = (.ok (.ret (.sc false 64 (next E.mode ⟨m 0, m 1⟩).2)), (obj (words m (next E.mode ⟨m 0, m 1⟩).1)).world l) := by
  have h1 := hr.left 24 (Or.inl rfl)
  have h2 := hr.left 37 (Or.inr rfl)
  cases hm : E.mode <;> simp [literal, hm] at h1 h2 <;>
    simp [py, Obj.world, obj, hm, Source.Xoroshiro128PlusRejection.next, next, step, h1, h2] <;> rfl

theorem next_source (mode : Mode) (s : State) :
    Calls prog mode Rep 0 2 "next" [] s (.ok (.sc false 64 (next mode s).2)) (next mode s).1 := by
  refine calls_of Source.Xoroshiro128PlusRejection.next rfl ?_
  rintro fuel depth - hd _ ⟨m, rfl, rfl⟩
  obtain ⟨l', h⟩ := next_exec ⟨mode, prog.globals, prog.fieldTypes, run prog mode fuel depth⟩ fuel (rotates prog mode fuel depth hd rfl rfl) m
  exact ⟨_, rep_words m _, fun l => invoke_ret rfl rfl rfl h⟩

theorem previous_exec (E : Env) (fuel : Nat) (hr : Rotates E) (m : Nat → BitVec 64) : ∃ l,
    exec E [] fuel Source.Xoroshiro128PlusRejection.previous.body ((obj m).world [])
      = (.ok (.ret (.sc false 64 (previous E.mode ⟨m 0, m 1⟩).2)), (obj (words m (previous E.mode ⟨m 0, m 1⟩).1)).world l) := by
  have h1 := hr.right 24 (Or.inl rfl)
  have h2 := hr.right 37 (Or.inr rfl)
  cases hm : E.mode <;> simp [literal, hm] at h1 h2 <;>
    simp [py, Obj.world, obj, hm, Source.Xoroshiro128PlusRejection.previous, previous, unstep, h1, h2] <;> rfl

theorem previous_source (mode : Mode) (s : State) :
    Calls prog mode Rep 0 2 "previous" [] s (.ok (.sc false 64 (previous mode s).2)) (previous mode s).1 := by
  refine calls_of Source.Xoroshiro128PlusRejection.previous rfl ?_
  rintro fuel depth - hd _ ⟨m, rfl, rfl⟩
  obtain ⟨l', h⟩ := previous_exec ⟨mode, prog.globals, prog.fieldTypes, run prog mode fuel depth⟩ fuel (rotates prog mode fuel depth hd rfl rfl) m
  exact ⟨_, rep_words m _, fun l => invoke_ret rfl rfl rfl h⟩

theorem advance_source (mode : Mode) (s : State) (adv : BitVec 64) :
    Calls prog mode Rep 0 3 "advance" [.sc false 64 adv] s (.ok .none) (advance mode s adv.toNat) :=
  advance_calls (next_source mode) "adv" rfl 64 adv s

theorem reInit_source (mode : Mode) (s : State) (a b : BitVec 64) :
    Calls prog mode Rep 0 1 "re_init" [.sc false 64 a, .sc false 64 b] s (.ok .none) (reInit s a b) := by
  refine calls_of Source.Xoroshiro128PlusRejection.re_init rfl ?_
  rintro fuel depth - - _ ⟨m, rfl, rfl⟩
  refine ⟨_, rep_words m _, fun l => ?_⟩
  cases mode <;> simp [py, Obj.world, obj, Source.Xoroshiro128PlusRejection.re_init, reInit] <;> rfl

/-- the type of the value of `bit_mask`: 64 bits wide in compiled code, otherwise 32 -/
def mask (mode : Mode) (v : BitVec 64) : Val := match mode with | .numba => .sc false 64 v | .numpy => .sc false 32 (v.setWidth 32)

theorem bitMask_source (mode : Mode) (s : State) (v : BitVec 32) :
    Calls prog mode Rep 0 1 "bit_mask" [.sc false 32 v] s (.ok (mask mode (bitMask mode v))) s := by
  refine calls_of Source.Xoroshiro128PlusRejection.bit_mask rfl ?_
  rintro fuel depth - - _ ⟨m, rfl, rfl⟩
  refine ⟨_, ⟨m, rfl, rfl⟩, fun l => ?_⟩
  have e : mask mode (bitMask mode v)
      = match mode with | .numba => .sc false 64 (smear (v.setWidth 64 - 1)) | .numpy => .sc false 32 (smear (v - 1)) := by
    cases mode <;> simp [mask, bitMask]
  rw [e]
  cases mode <;> simp [py, Obj.world, obj, Source.Xoroshiro128PlusRejection.bit_mask, smear]

/-- the environment of a call -/
abbrev env (mode : Mode) (fuel depth : Nat) : Env := ⟨mode, prog.globals, prog.fieldTypes, run prog mode fuel depth⟩

theorem cond_draw (mode : Mode) (fuel depth : Nat) (maximum : BitVec 32) (res : BitVec 64) (w : World)
    (h1 : get "maximum" w.locals = some (.sc false 32 maximum)) (h3 : get "result" w.locals = some (.sc false 64 res)) :
    ((eval (env mode fuel depth) (.cmp .ge (.var "result") (.var "maximum"))).bind fun v => M.lift (truth v)) w
      = (.ok (decide (res ≥ maximum.setWidth 64)), w) := by
  have e : (res ≥ maximum.setWidth 64) = (maximum.toNat ≤ res.toNat) := by
    have := maximum.isLt
    rw [ge_iff_le, BitVec.le_def, BitVec.toNat_setWidth, Nat.mod_eq_of_lt (by omega)]
  simp only [e]
  simp [py, h1, h3]

theorem body_draw (mode : Mode) (fuel depth : Nat) (hd : 2 ≤ depth) (mk : BitVec 64) (hk : mode = .numpy → mk.toNat < 2 ^ 32)
    (o : Obj) (s : State) (l : List (String × Val)) (hr : Rep s o) (h2 : get "mask" l = some (mask mode mk)) :
    ∃ o', Rep (next mode s).1 o' ∧
      exec (env mode fuel depth) [] fuel (.assign (.var "result") (.bin .and (.meth "next" .nil) (.var "mask"))) (o.world l)
        = (.ok .next, o'.world (put "result" (.sc false 64 ((next mode s).2 &&& mk)) l)) := by
  obtain ⟨o', h, e⟩ := next_source mode s fuel depth (Nat.zero_le _) hd o hr
  refine ⟨o', h, ?_⟩
  simp only [Obj.world] at e ⊢
  rw [env]
  generalize run prog mode fuel depth = c at e ⊢
  have hm : mode = .numpy → (mk.setWidth 32).setWidth 64 = mk := fun h => by
    have := hk h
    apply BitVec.eq_of_toNat_eq
    simp
    omega
  cases mode <;> simp [mask] at h2 <;> simp [py, e, h2]
  rw [hm rfl]

theorem while_draw (mode : Mode) (fuel depth : Nat) (hd : 2 ≤ depth) (maximum : BitVec 32) (mk : BitVec 64)
    (hk : mode = .numpy → mk.toNat < 2 ^ 32) :
    ∀ (k n : Nat) (o : Obj) (s s' : State) (res v : BitVec 64) (l : List (String × Val)), k + 1 ≤ n → Rep s o →
    get "maximum" l = some (.sc false 32 maximum) → get "mask" l = some (mask mode mk) → get "result" l = some (.sc false 64 res) →
    (if res ≥ maximum.setWidth 64 then drawLoop mode mk maximum k s else some (s, res)) = some (s', v) →
    ∃ o' l', Rep s' o' ∧ get "result" l' = some (.sc false 64 v) ∧
      whileLoop ((eval (env mode fuel depth) (.cmp .ge (.var "result") (.var "maximum"))).bind fun v => M.lift (truth v))
        (exec (env mode fuel depth) [] fuel (.assign (.var "result") (.bin .and (.meth "next" .nil) (.var "mask")))) n (o.world l)
        = (.ok .next, o'.world l') := by
  intro k
  induction k with
  | zero =>
    intro n o s s' res v l hn hr h1 h2 h3 h
    obtain ⟨n, rfl⟩ : ∃ j, n = j + 1 := ⟨n - 1, by omega⟩
    by_cases c : res ≥ maximum.setWidth 64
    · simp only [c, if_true, drawLoop] at h
      cases h
    · simp only [c, if_false] at h
      cases h
      refine ⟨o, l, hr, h3, ?_⟩
      rw [whileLoop, M.bind, cond_draw mode fuel depth maximum res _ h1 h3]
      simp only [c, decide_false, Bool.false_eq_true, if_false]
      rfl
  | succ k ih =>
    intro n o s s' res v l hn hr h1 h2 h3 h
    obtain ⟨n, rfl⟩ : ∃ j, n = j + 1 := ⟨n - 1, by omega⟩
    by_cases c : res ≥ maximum.setWidth 64
    · simp only [c, if_true, drawLoop] at h
      obtain ⟨o1, r1, e1⟩ := body_draw mode fuel depth hd mk hk o s l hr h2
      obtain ⟨o2, l2, r2, g2, e2⟩ := ih n o1 (next mode s).1 s' ((next mode s).2 &&& mk) v
        (put "result" (.sc false 64 ((next mode s).2 &&& mk)) l) (by omega) r1 (by rw [get_put]; simpa using h1)
        (by rw [get_put]; simpa using h2) (by rw [get_put]; simp) h
      refine ⟨o2, l2, r2, g2, ?_⟩
      rw [whileLoop, M.bind, cond_draw mode fuel depth maximum res _ h1 h3]
      simp only [c, decide_true, if_true]
      rw [M.bind, e1]
      exact e2
    · simp only [c, if_false] at h
      cases h
      refine ⟨o, l, hr, h3, ?_⟩
      rw [whileLoop, M.bind, cond_draw mode fuel depth maximum res _ h1 h3]
      simp only [c, decide_false, Bool.false_eq_true, if_false]
      rfl

theorem bitMask_lt (v : BitVec 32) : (bitMask .numpy v).toNat < 2 ^ 32 := by
  simp only [bitMask, BitVec.toNat_setWidth]
  have := (smear (v - 1)).isLt
  omega

/-- `next_rand`, whenever the model's loop ends within `n` draws -/
theorem nextRand_source (mode : Mode) (s s' : State) (maximum : BitVec 32) (n : Nat) (v : BitVec 64)
    (h : nextRand mode n s maximum = some (s', v)) :
    Calls prog mode Rep n 3 "next_rand" [.sc false 32 maximum] s (.ok (.sc false 64 v)) s' := by
  refine calls_of Source.Xoroshiro128PlusRejection.next_rand rfl ?_
  intro fuel depth hn hd o ho
  obtain ⟨o1, r1, e1⟩ := bitMask_source mode s maximum fuel depth (Nat.zero_le _) (by omega) o ho
  have hk : mode = .numpy → (bitMask mode maximum).toNat < 2 ^ 32 := fun h => by subst h; exact bitMask_lt maximum
  let l1 : List (String × Val) := [("maximum", .sc false 32 maximum), ("mask", mask mode (bitMask mode maximum))]
  obtain ⟨o2, r2, e2⟩ := body_draw mode fuel depth hd (bitMask mode maximum) hk o1 s l1 r1 rfl
  obtain ⟨n, rfl⟩ : ∃ j, n = j + 1 := by
    cases n with
    | zero => simp [nextRand, drawLoop] at h
    | succ n => exact ⟨n, rfl⟩
  rw [nextRand, drawLoop] at h
  obtain ⟨o3, l3, r3, g3, e3⟩ := while_draw mode fuel depth hd maximum (bitMask mode maximum) hk n fuel o2 _ s' _ v
    (put "result" (.sc false 64 ((next mode s).2 &&& bitMask mode maximum)) l1) hn r2 rfl rfl rfl h
  refine ⟨o3, r3, fun l => invoke_ret (l' := l3) rfl rfl rfl ?_⟩
  refine Eq.trans (seq_next (w' := o1.world l1) ?_) ?_
  · clear e2 e3
    simp only [Obj.world] at e1 ⊢
    generalize run prog mode fuel depth = c at e1 ⊢
    simp [py, Source.Xoroshiro128PlusRejection.next_rand, e1, l1]
  refine Eq.trans (seq_next e2) ?_
  refine Eq.trans (seq_next e3) ?_
  simp [py, Obj.world, g3]

end Rejection

namespace SplitMix
open Verif.Xoroshiro.SplitMix

/-- the class `SplitMixXoroshiro128Plus` -/
def prog : Prog where
  funs := [("re_init", Source.SplitMixXoroshiro128Plus.re_init), ("splitmix", Source.SplitMixXoroshiro128Plus.splitmix),
    ("advance", Source.Xoroshiro128Plus.advance),
    ("next", Source.SplitMixXoroshiro128Plus.next), ("previous", Source.SplitMixXoroshiro128Plus.previous),
    ("next_rand", Source.SplitMixXoroshiro128Plus.next_rand),
    ("rotate_left_u64", Source.rotate_left_u64), ("rotate_right_u64", Source.rotate_right_u64)]
  globals := []
  fieldTypes := []

@[py] theorem prog_globals : prog.globals = [] := rfl
@[py] theorem prog_fieldTypes : prog.fieldTypes = [] := rfl

theorem next_exec (E : Env) (fuel : Nat) (hr : Rotates E) (m : Nat → BitVec 64) : ∃ l,
    exec E [] fuel Source.SplitMixXoroshiro128Plus.next.body ((obj m).world [])
      = (.ok (.ret (.sc false 32 (next E.mode ⟨m 0, m 1⟩).2)), (obj (words m (next E.mode ⟨m 0, m 1⟩).1)).world l) := by
  have h1 := hr.left 24 (Or.inl rfl)
  have h2 := hr.left 37 (Or.inr rfl)
  cases hm : E.mode <;> simp [literal, hm] at h1 h2 <;>
    simp [py, Obj.world, obj, hm, Source.SplitMixXoroshiro128Plus.next, next, step, h1, h2] <;> rfl

theorem next_source (mode : Mode) (s : State) :
    Calls prog mode Rep 0 2 "next" [] s (.ok (.sc false 32 (next mode s).2)) (next mode s).1 := by
  refine calls_of Source.SplitMixXoroshiro128Plus.next rfl ?_
  rintro fuel depth - hd _ ⟨m, rfl, rfl⟩
  obtain ⟨l', h⟩ := next_exec ⟨mode, prog.globals, prog.fieldTypes, run prog mode fuel depth⟩ fuel (rotates prog mode fuel depth hd rfl rfl) m
  exact ⟨_, rep_words m _, fun l => invoke_ret rfl rfl rfl h⟩

theorem previous_exec (E : Env) (fuel : Nat) (hr : Rotates E) (m : Nat → BitVec 64) : ∃ l,
    exec E [] fuel Source.SplitMixXoroshiro128Plus.previous.body ((obj m).world [])
      = (.ok (.ret (.sc false 32 (previous E.mode ⟨m 0, m 1⟩).2)), (obj (words m (previous E.mode ⟨m 0, m 1⟩).1)).world l) := by
  have h1 := hr.right 24 (Or.inl rfl)
  have h2 := hr.right 37 (Or.inr rfl)
  cases hm : E.mode <;> simp [literal, hm] at h1 h2 <;>
    simp [py, Obj.world, obj, hm, Source.SplitMixXoroshiro128Plus.previous, previous, unstep, h1, h2] <;> rfl

theorem previous_source (mode : Mode) (s : State) :
    Calls prog mode Rep 0 2 "previous" [] s (.ok (.sc false 32 (previous mode s).2)) (previous mode s).1 := by
  refine calls_of Source.SplitMixXoroshiro128Plus.previous rfl ?_
  rintro fuel depth - hd _ ⟨m, rfl, rfl⟩
  obtain ⟨l', h⟩ := previous_exec ⟨mode, prog.globals, prog.fieldTypes, run prog mode fuel depth⟩ fuel (rotates prog mode fuel depth hd rfl rfl) m
  exact ⟨_, rep_words m _, fun l => invoke_ret rfl rfl rfl h⟩

theorem advance_source (mode : Mode) (s : State) (adv : BitVec 64) :
    Calls prog mode Rep 0 3 "advance" [.sc false 64 adv] s (.ok .none) (advance mode s adv.toNat) :=
  advance_calls (next_source mode) "adv" rfl 64 adv s

theorem nextRand_source (mode : Mode) (s : State) (maximum : BitVec 32) :
    Calls prog mode Rep 0 3 "next_rand" [.sc false 32 maximum] s
      ((nextRand mode s maximum).2.map (wide mode)) (nextRand mode s maximum).1 := by
  refine calls_of Source.SplitMixXoroshiro128Plus.next_rand rfl ?_
  intro fuel depth hn hd o ho
  obtain ⟨o', h1, h2⟩ := next_source mode s fuel depth hn hd o ho
  refine ⟨o', h1, fun l => ?_⟩
  simp only [Obj.world] at h2 ⊢
  rw [prog_globals, prog_fieldTypes]
  generalize run prog mode fuel depth = c at h2 ⊢
  cases mode <;> by_cases h0 : maximum = 0#32 <;>
    simp [py, Source.SplitMixXoroshiro128Plus.next_rand, nextRand, h2, pyMod, wide, h0, umod_wide, wide_eq_zero]

theorem splitmix_invoke (E : Env) (fuel : Nat) (a b : BitVec 64) (w : World) :
    invoke E fuel Source.SplitMixXoroshiro128Plus.splitmix [.sc false 64 a, .sc false 64 b] w
      = (.ok (.sc false 64 (splitmix a b)), w) := by
  cases hm : E.mode <;> simp [py, hm, Source.SplitMixXoroshiro128Plus.splitmix, splitmix]

theorem splitmix_source (mode : Mode) (s : State) (a b : BitVec 64) :
    Calls prog mode Rep 0 1 "splitmix" [.sc false 64 a, .sc false 64 b] s (.ok (.sc false 64 (splitmix a b))) s := by
  refine calls_of Source.SplitMixXoroshiro128Plus.splitmix rfl ?_
  intro fuel depth _ _ o ho
  exact ⟨o, ho, fun l => splitmix_invoke _ _ a b _⟩

theorem reInit_source (mode : Mode) (s : State) (a : BitVec 64) :
    Calls prog mode Rep 0 2 "re_init" [.sc false 64 a] s (.ok .none) (reInit s a) := by
  refine calls_of Source.SplitMixXoroshiro128Plus.re_init rfl ?_
  rintro fuel depth - hd _ ⟨m, rfl, rfl⟩
  refine ⟨_, rep_words m _, fun l => ?_⟩
  have h : ∀ x y w, run prog mode fuel depth "splitmix" [.sc false 64 x, .sc false 64 y] w = (.ok (.sc false 64 (splitmix x y)), w) := by
    obtain ⟨d, rfl⟩ : ∃ d, depth = d + 1 := ⟨depth - 1, by omega⟩
    exact fun x y w => splitmix_invoke _ _ x y w
  rw [prog_globals, prog_fieldTypes]
  generalize run prog mode fuel depth = c at h ⊢
  cases mode <;> simp [py, h, Obj.world, obj, Source.SplitMixXoroshiro128Plus.re_init, reInit] <;> rfl

end SplitMix
end Verif.Py.Xoroshiro
