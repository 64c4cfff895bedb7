import Verif.Py.Count
import Verif.Model.TinyMt
import Mathlib.Tactic.IntervalCases
/-
C133 for mersenne_twister/tinymt.py: the source text computes what the model says.
-/
namespace Verif.Py.TinyMt
open Verif Verif.TinyMt

/-- the class `TinyMersenneTwister` -/
def prog : Prog where
  funs := [("re_init", Source.TinyMersenneTwister.re_init), ("advance", Source.TinyMersenneTwister.advance),
    ("next", Source.TinyMersenneTwister.next), ("shuffle", Source.TinyMersenneTwister.shuffle),
    ("temper", Source.TinyMersenneTwister.temper), ("next_rand", Source.TinyMersenneTwister.next_rand),
    ("next_rand_mod", Source.TinyMersenneTwister.next_rand_mod)]
  globals := []
  fieldTypes := []

@[py] theorem prog_globals : prog.globals = [] := rfl
@[py] theorem prog_fieldTypes : prog.fieldTypes = [] := rfl

/-- the object with these four words (the array has four elements) -/
def obj (m : Mem) : Obj := ⟨[("state", .arr "state")], [("state", .w32 4 m)]⟩

/-- the array attribute `state` holds the four words -/
def Rep (s : State) (o : Obj) : Prop := ∃ m : Mem, o = obj m ∧ s = ⟨m 0, m 1, m 2, m 3⟩


/-- the array after `shuffle` -/
def after (m : Mem) (t : State) : Mem := (((m.set 0 (m 1)).set 1 t.s1).set 2 t.s2).set 3 t.s3

theorem shuffle_exec (mode : Mode) (m : Mem) (E : Env) (fuel : Nat) (hm : E.mode = mode) : ∃ l,
    exec E [] fuel Source.TinyMersenneTwister.shuffle.body ((obj m).world [])
      = (.ok .next, (obj (after m (shuffle mode ⟨m 0, m 1, m 2, m 3⟩))).world l) := by
  cases mode
  · simp [py, Obj.world, obj, hm, Source.TinyMersenneTwister.shuffle, after, shuffle, shuffle64, Mem.set_ne]
  · simp [py, Obj.world, obj, hm, Source.TinyMersenneTwister.shuffle, after, shuffle, shuffle32, Mem.set_ne]
    rw [BitVec.setWidth_mul _ _ (by decide)]
    simp [narrow_shr]

theorem shuffle_source (mode : Mode) (s : State) :
    Calls prog mode Rep 0 1 "shuffle" [] s (.ok .none) (shuffle mode s) := by
  refine calls_of Source.TinyMersenneTwister.shuffle rfl ?_
  rintro fuel depth - - _ ⟨m, rfl, rfl⟩
  refine ⟨_, ⟨after m (shuffle mode ⟨m 0, m 1, m 2, m 3⟩), rfl, ?_⟩, fun l => ?_⟩
  · have h0 : (shuffle mode ⟨m 0, m 1, m 2, m 3⟩).s0 = m 1 := by cases mode <;> rfl
    generalize shuffle mode ⟨m 0, m 1, m 2, m 3⟩ = t at h0
    cases t
    simpa [after, Mem.set] using h0
  · obtain ⟨l', h⟩ := shuffle_exec mode m ⟨mode, prog.globals, prog.fieldTypes, run prog mode fuel depth⟩ fuel rfl
    exact invoke_next rfl rfl h

theorem temper_source (mode : Mode) (s : State) :
    Calls prog mode Rep 0 1 "temper" [] s (.ok (.sc true 64 (temper mode s))) s := by
  refine calls_of Source.TinyMersenneTwister.temper rfl ?_
  rintro fuel depth - - _ ⟨m, rfl, rfl⟩
  refine ⟨_, ⟨m, rfl, rfl⟩, fun l => ?_⟩
  cases mode <;> simp [py, Obj.world, obj, Source.TinyMersenneTwister.temper, temper]


theorem next_source (mode : Mode) (s : State) :
    Calls prog mode Rep 0 2 "next" [] s (.ok (.sc true 64 (next mode s).2)) (next mode s).1 := by
  refine calls_of Source.TinyMersenneTwister.next rfl ?_
  intro fuel depth hn hd o ho
  obtain ⟨o1, h1, e1⟩ := shuffle_source mode s fuel depth hn hd o ho
  obtain ⟨o2, h2, e2⟩ := temper_source mode (shuffle mode s) fuel depth hn hd o1 h1
  refine ⟨o2, h2, fun l => ?_⟩
  refine invoke_ret (l' := []) rfl rfl rfl ?_
  simp [py, Source.TinyMersenneTwister.next, e1, e2, next]

theorem advance_source (mode : Mode) (s : State) (adv : BitVec 32) :
    Calls prog mode Rep 0 2 "advance" [.sc false 32 adv] s (.ok .none) (advance mode s adv.toNat) :=
  advance_calls (shuffle_source mode) "adv" rfl 32 adv s

theorem nextRand_source (mode : Mode) (s : State) (maximum : BitVec 32) :
    Calls prog mode Rep 0 3 "next_rand" [.sc false 32 maximum] s (.ok (.sc false 32 (nextRand mode s maximum).2)) (nextRand mode s maximum).1 := by
  refine calls_of Source.TinyMersenneTwister.next_rand rfl ?_
  intro fuel depth hn hd o ho
  obtain ⟨o1, h1, e1⟩ := next_source mode s fuel depth hn hd o ho
  refine ⟨o1, h1, fun l => ?_⟩
  simp only [Obj.world] at e1
  rw [prog_globals, prog_fieldTypes]
  generalize run _ mode fuel depth = c at e1 ⊢
  cases mode <;> simp [py, Obj.world, Source.TinyMersenneTwister.next_rand, e1, nextRand]

theorem temper_lt (mode : Mode) (s : State) : (temper mode s).toNat < 2 ^ 33 := by
  have k (x : BitVec 64) : ((x &&& 1) * 0x3793FDFF).toNat < 2 ^ 33 := by
    have h : (x &&& 1).toNat ≤ 1 := by rw [BitVec.toNat_and]; exact Nat.and_le_right
    rw [BitVec.toNat_mul, show (0x3793FDFF : BitVec 64).toNat = 0x3793FDFF from rfl]
    refine lt_of_le_of_lt (Nat.mod_le _ _) ?_
    omega
  cases mode <;> simp only [temper, BitVec.toNat_xor] <;> refine Nat.xor_lt_two_pow (Nat.xor_lt_two_pow ?_ ?_) ?_
  · simp; omega
  · simp; omega
  · exact k _
  · simp; omega
  · simp; omega
  · exact k _

/-- the remainder of small non-negative `int64` values -/
theorem fmod_small (x : BitVec 64) (m : BitVec 32) (h : x.toNat < 2 ^ 33) :
    BitVec.ofInt 64 (x.toInt.fmod ((m.toNat : Int).bmod 18446744073709551616)) = x % m.setWidth 64 := by
  have hm := m.isLt
  have h1 : x.toInt = x.toNat := by rw [BitVec.toInt_eq_toNat_of_lt]; omega
  have h2 : (m.toNat : Int).bmod 18446744073709551616 = m.toNat := by rw [Int.bmod_eq_of_le] <;> omega
  have h3 : (m.setWidth 64).toNat = m.toNat := by simp; omega
  rw [h1, h2, Int.fmod_eq_emod_of_nonneg _ (by omega), ← Int.natCast_mod, BitVec.ofInt_natCast]
  apply BitVec.eq_of_toNat_eq
  have h4 : x.toNat % m.toNat ≤ x.toNat := Nat.mod_le _ _
  rw [BitVec.toNat_ofNat, BitVec.toNat_umod, h3, Nat.mod_eq_of_lt (by omega)]

theorem setWidth_ne_zero (m : BitVec 32) (h : m ≠ 0#32) : m.setWidth 64 ≠ 0#64 := by
  intro e
  apply h
  have := congrArg BitVec.toNat e
  apply BitVec.eq_of_toNat_eq
  have hm := m.isLt
  simp at this ⊢
  omega

theorem nextRandMod_source (mode : Mode) (s : State) (maximum : BitVec 32) :
    Calls prog mode Rep 0 3 "next_rand_mod" [.sc false 32 maximum] s ((nextRandMod mode s maximum).2.map (.sc true 64)) (nextRandMod mode s maximum).1 := by
  refine calls_of Source.TinyMersenneTwister.next_rand_mod rfl ?_
  intro fuel depth hn hd o ho
  obtain ⟨o1, h1, e1⟩ := next_source mode s fuel depth hn hd o ho
  refine ⟨o1, h1, fun l => ?_⟩
  simp only [Obj.world] at e1
  rw [prog_globals, prog_fieldTypes]
  generalize run _ mode fuel depth = c at e1 ⊢
  have ht := temper_lt mode (shuffle mode s)
  change (next mode s).2.toNat < 2 ^ 33 at ht
  cases mode <;> by_cases h0 : maximum = 0#32 <;> simp [py, Obj.world, Source.TinyMersenneTwister.next_rand_mod, e1, nextRandMod, pyMod, h0]
  all_goals simp [setWidth_ne_zero maximum h0, fmod_small _ maximum ht]

theorem seed_step (mode : Mode) (E : Env) (fuel : Nat) (hm : E.mode = mode) (m : Mem) (l : List (String × Val)) (i : Nat)
    (h1 : 1 ≤ i) (h8 : i < 8) :
    ((storeLocal E [] "i" (literal mode i)).bind fun _ => exec E [] fuel (.aug .xor (.item (.self "state") (.bin .and (.var "i") (.num 3))) (.cast u32 (.bin .add (.bin .mul (.cast u32 (.num 0x6C078965)) (.bin .xor (.item (.self "state") (.bin .and (.bin .sub (.var "i") (.num 1)) (.num 3))) (.bin .shr (.item (.self "state") (.bin .and (.bin .sub (.var "i") (.num 1)) (.num 3))) (.cast u32 (.num 0x1E))))) (.cast u32 (.var "i"))))))
      ((obj m).world l) = (.ok .next, (obj (m.set (i % 4) ((seedStep ⟨m 0, m 1, m 2, m 3⟩ i).get i))).world (put "i" (literal mode i) l)) := by
  subst hm
  have a0 : Int.land 0 3 = 0 := rfl
  have a1 : Int.land 1 3 = 1 := rfl
  have a2 : Int.land 2 3 = 2 := rfl
  have a3 : Int.land 3 3 = 3 := rfl
  have a4 : Int.land 4 3 = 0 := rfl
  have a5 : Int.land 5 3 = 1 := rfl
  have a6 : Int.land 6 3 = 2 := rfl
  have a7 : Int.land 7 3 = 3 := rfl
  have n (a : BitVec 32) (k : BitVec 64) : (1812433253#64 * (a.setWidth 64 ^^^ a.setWidth 64 >>> 30) + k).setWidth 32
      = 1812433253#32 * (a ^^^ a >>> 30) + k.setWidth 32 := by
    rw [BitVec.setWidth_add _ _ (by decide), BitVec.setWidth_mul _ _ (by decide)]
    simp [narrow_shr]
  interval_cases i <;> cases hm : E.mode <;>
    simp [py, Obj.world, obj, hm, seedStep, State.get, State.set, get_put, a0, a1, a2, a3, a4, a5, a6, a7, n]

/-- the four words -/
def words (m : Mem) : State := ⟨m 0, m 1, m 2, m 3⟩

theorem words_set (m : Mem) (i : Nat) (v : BitVec 32) : words (m.set (i % 4) v) = (words m).set i v := by
  have h : i % 4 < 4 := Nat.mod_lt _ (by decide)
  generalize hk : i % 4 = k at h
  simp only [State.set, hk]
  interval_cases k <;> simp [words, Mem.set_ne]

theorem step_words (m : Mem) (i : Nat) : words (m.set (i % 4) ((seedStep (words m) i).get i)) = seedStep (words m) i := by
  rw [words_set]
  have h : i % 4 < 4 := Nat.mod_lt _ (by decide)
  generalize hk : i % 4 = k at h
  simp only [seedStep, State.set, State.get, hk]
  interval_cases k <;> rfl

theorem and_eval {E : Env} {a b : Expr} {w : World} {p q : Bool} (ha : eval E a w = (.ok (.bool p), w))
    (hb : eval E b w = (.ok (.bool q), w)) : eval E (.and a b) w = (.ok (.bool (p && q)), w) := by
  cases p <;> simp [eval, M.bind, ha, hb, truth, M.lift, M.pure]

theorem word_eval (E : Env) (m : Mem) (l : List (String × Val)) (k : Nat) (hk : k < 4) :
    eval E (.cmp .eq (.item (.self "state") (.num k)) (.cast u32 (.num 0))) ((obj m).world l)
      = (.ok (.bool (m k = 0#32)), (obj m).world l) := by
  have h : ((m k).toNat = 0) = (m k = 0#32) := by
    rw [← BitVec.toNat_inj]; simp
  interval_cases k <;> cases hm : E.mode <;> simp [py, Obj.world, obj, hm, h]

theorem low_eval (E : Env) (m : Mem) (l : List (String × Val)) :
    eval E (.cmp .eq (.bin .and (.item (.self "state") (.num 0)) (.cast u32 (.num 0x7FFFFFFF))) (.cast u32 (.num 0))) ((obj m).world l)
      = (.ok (.bool (m 0 &&& 0x7FFFFFFF#32 = 0#32)), (obj m).world l) := by
  have h : (m 0 &&& 0x7FFFFFFF#32 = 0#32) = ((m 0).toNat &&& 2147483647 = 0) := by
    rw [← BitVec.toNat_inj]; simp
  have e : (m 0).toNat % 18446744073709551616 = (m 0).toNat := Nat.mod_eq_of_lt (by omega)
  cases hm : E.mode <;> simp [py, Obj.world, obj, hm, h, e]

theorem certify_exec (E : Env) (fuel : Nat) (m : Mem) (l : List (String × Val)) : ∃ m',
    exec E [] fuel
     (.ite (.and (.cmp .eq (.bin .and (.item (.self "state") (.num 0)) (.cast u32 (.num 0x7FFFFFFF))) (.cast u32 (.num 0))) (.and (.cmp .eq (.item (.self "state") (.num 1)) (.cast u32 (.num 0))) (.and (.cmp .eq (.item (.self "state") (.num 2)) (.cast u32 (.num 0))) (.cmp .eq (.item (.self "state") (.num 3)) (.cast u32 (.num 0))))))
      (.seq
       (.assign (.item (.self "state") (.num 0)) (.call "ord" (.cons (.str "T") .nil)))
      (.seq
       (.assign (.item (.self "state") (.num 1)) (.call "ord" (.cons (.str "I") .nil)))
      (.seq
       (.assign (.item (.self "state") (.num 2)) (.call "ord" (.cons (.str "N") .nil)))
      (.assign (.item (.self "state") (.num 3)) (.call "ord" (.cons (.str "Y") .nil))))))
      .pass) ((obj m).world l) = (.ok .next, (obj m').world l) ∧ words m' = certify (words m) := by
  have h := and_eval (low_eval E m l) (and_eval (word_eval E m l 1 (by decide)) (and_eval (word_eval E m l 2 (by decide))
    (word_eval E m l 3 (by decide))))
  by_cases c : m 0 &&& 0x7FFFFFFF#32 = 0#32 ∧ m 1 = 0#32 ∧ m 2 = 0#32 ∧ m 3 = 0#32
  · refine ⟨(((m.set 0 84).set 1 73).set 2 78).set 3 89, (ite_true' h (by simp [truth, c])).trans ?_, ?_⟩
    · cases hm : E.mode <;> simp [py, Obj.world, obj, hm]
    · simp only [words, certify, Mem.set_same, Mem.set_ne _ _ (show (0 : Nat) ≠ 3 by decide), Mem.set_ne _ _ (show (0 : Nat) ≠ 2 by decide),
        Mem.set_ne _ _ (show (0 : Nat) ≠ 1 by decide), Mem.set_ne _ _ (show (1 : Nat) ≠ 3 by decide),
        Mem.set_ne _ _ (show (1 : Nat) ≠ 2 by decide), Mem.set_ne _ _ (show (2 : Nat) ≠ 3 by decide)]
      exact (if_pos c).symm
  · refine ⟨m, (ite_false' h ?_).trans rfl, ?_⟩
    · simp only [truth, Except.ok.injEq]; simpa using c
    · simp only [words, certify]
      exact (if_neg c).symm

theorem loop_seed (mode : Mode) (E : Env) (fuel : Nat) (hm : E.mode = mode) (m : Mem) (l : List (String × Val)) : ∃ m' l',
    exec E [] fuel (.for "i" (.call "range" (.cons (.num 1) (.cons (.num 8) .nil)))
      (.aug .xor (.item (.self "state") (.bin .and (.var "i") (.num 3))) (.cast u32 (.bin .add (.bin .mul (.cast u32 (.num 0x6C078965)) (.bin .xor (.item (.self "state") (.bin .and (.bin .sub (.var "i") (.num 1)) (.num 3))) (.bin .shr (.item (.self "state") (.bin .and (.bin .sub (.var "i") (.num 1)) (.num 3))) (.cast u32 (.num 0x1E))))) (.cast u32 (.var "i"))))))
        ((obj m).world l) = (.ok .next, (obj m').world l')
      ∧ words m' = (List.range' 1 7).foldl seedStep (words m) := by
  obtain ⟨w', h1, m', l', rfl, h2⟩ := for_fold (E := E) (types := []) (fuel := fuel) (x := "i")
    (fun w t => ∃ m l, w = (obj m).world l ∧ words m = t) seedStep 1 8 (by decide) (by decide) (fun i h1 h8 w t ⟨m, l, e, e'⟩ => by
      subst e e'
      rw [hm]
      exact ⟨_, seed_step mode E fuel hm m l i h1 h8, _, _, rfl, step_words m i⟩) ⟨m, l, rfl, rfl⟩
  exact ⟨m', l', h1, h2⟩

theorem reInit_source (mode : Mode) (s : State) (seed : BitVec 32) :
    Calls prog mode Rep 0 2 "re_init" [.sc false 32 seed] s (.ok .none) (reInit mode s seed) := by
  refine calls_of Source.TinyMersenneTwister.re_init rfl ?_
  rintro fuel depth hn hd _ ⟨m, rfl, rfl⟩
  let E : Env := ⟨mode, prog.globals, prog.fieldTypes, run prog mode fuel depth⟩
  let L : List (String × Val) := [("seed", .sc false 32 seed)]
  let m1 := (((m.set 0 seed).set 1 0x8F7011EE).set 2 0xFC78FF1F).set 3 0x3793FDFF
  obtain ⟨m2, l2, h2, e2⟩ := loop_seed mode E fuel rfl m1 L
  obtain ⟨m3, h3, e3⟩ := certify_exec E fuel m2 l2
  obtain ⟨o4, r4, h4⟩ := loop_calls (shuffle_source mode) hn hd (counted mode 0 8) (obj m3) (words m3) ⟨m3, rfl, rfl⟩
  obtain ⟨l4, h4⟩ := h4 l2
  have hw : words m1 = ((((words m).set 0 seed).set 1 0x8F7011EE).set 2 0xFC78FF1F).set 3 0x3793FDFF := by
    have := words_set
    rfl
  refine ⟨o4, ?_, fun l => invoke_next (l' := l4) rfl rfl ?_⟩
  · rw [e3, e2, hw] at r4
    exact r4
  · refine Eq.trans (seq_next (w' := (obj m).world L) ?_) ?_
    · cases mode <;> simp [py, Obj.world, obj, L, Source.TinyMersenneTwister.re_init]
    refine Eq.trans (seq_next (w' := (obj (m.set 0 seed)).world L) ?_) ?_
    · cases mode <;> simp [py, Obj.world, obj, L]
    refine Eq.trans (seq_next (w' := (obj ((m.set 0 seed).set 1 0x8F7011EE)).world L) ?_) ?_
    · cases mode <;> simp [py, Obj.world, obj, L]
    refine Eq.trans (seq_next (w' := (obj (((m.set 0 seed).set 1 0x8F7011EE).set 2 0xFC78FF1F)).world L) ?_) ?_
    · cases mode <;> simp [py, Obj.world, obj, L]
    refine Eq.trans (seq_next (w' := (obj m1).world L) ?_) ?_
    · cases mode <;> simp [py, Obj.world, obj, L, m1]
    refine Eq.trans (seq_next h2) ?_
    refine Eq.trans (seq_next h3) ?_
    refine Eq.trans (for_counted' 8 (by decide)) ?_
    exact h4

end Verif.Py.TinyMt
