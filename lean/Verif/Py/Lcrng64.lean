import Verif.Py.Count
import Verif.Model.Lcrng
/-
C133 for lcrng/lcrng64.py: the source text computes what the model says.
-/
namespace Verif.Py.Lcrng64
open Verif Lcrng

/-- entries of the tuple `jump_table` -/
def entry (e : BitVec 64 × BitVec 64) : Val := .tup [.sc false 64 e.1, .sc false 64 e.2]

/-- a class made by `lcrng64_init` from `add` and `mult` (lines 85-90), which are variables of the enclosing function, like
`jump_table` -/
def prog (p : Params 64) (nextRand : Fun) : Prog where
  funs := [("re_init", Source.LCRNG64.re_init), ("advance", Source.LCRNG64.advance), ("next_u32", Source.LCRNG64.next_u32),
    ("next", Source.LCRNG64.next), ("jump", Source.LCRNG64.jump), ("next_rand", nextRand)]
  globals := [("mult", .sc false 64 p.mult), ("add", .sc false 64 p.add), ("jump_table", .tup ((jumpTable p).map entry))]
  fieldTypes := [("seed", u64)]

@[py] theorem prog_globals (p : Params 64) (r : Fun) : (prog p r).globals =
  [("mult", .sc false 64 p.mult), ("add", .sc false 64 p.add), ("jump_table", .tup ((jumpTable p).map entry))] := rfl
@[py] theorem prog_fieldTypes (p : Params 64) (r : Fun) : (prog p r).fieldTypes = [("seed", u64)] := rfl

/-- the attribute `seed` -/
def Rep (s : BitVec 64) (o : Obj) : Prop := o = ⟨[("seed", .sc false 64 s)], []⟩

theorem reInit_source (mode : Mode) (p : Params 64) (r : Fun) (s seed : BitVec 64) :
    Calls (prog p r) mode Rep 0 1 "re_init" [.sc false 64 seed] s (.ok .none) (reInit s seed) := by
  refine calls_of Source.LCRNG64.re_init rfl ?_
  rintro fuel depth - - _ rfl
  refine ⟨_, rfl, fun l => ?_⟩
  cases mode <;> simp [py, Obj.world, Source.LCRNG64.re_init, reInit]

theorem next_source (mode : Mode) (p : Params 64) (r : Fun) (s : BitVec 64) :
    Calls (prog p r) mode Rep 0 1 "next" [] s (.ok (.sc false 64 (next p s))) (next p s) := by
  refine calls_of Source.LCRNG64.next rfl ?_
  rintro fuel depth - - _ rfl
  refine ⟨_, rfl, fun l => ?_⟩
  cases mode <;> simp [py, Obj.world, Source.LCRNG64.next, next, muladd_narrow]

theorem advance_source (mode : Mode) (p : Params 64) (r : Fun) (s adv : BitVec 64) :
    Calls (prog p r) mode Rep 0 2 "advance" [.sc false 64 adv] s (.ok (.sc false 64 (advance p adv.toNat s)))
      (advance p adv.toNat s) := by
  refine calls_of Source.LCRNG64.advance rfl ?_
  rintro fuel depth hn hd o ho
  have e : advance p adv.toNat s = (next p)^[adv.toNat] s := by
    have h (n : Nat) : ∀ s, advanceLoop p n s = (next p)^[n] s := by
      induction n with
      | zero => intro s; rfl
      | succ n ih => intro s; exact ih _
    rw [advance, h]; simp
  obtain ⟨o', h1, h2⟩ := loop_calls (next_source mode p r) hn hd ((List.range adv.toNat).map fun (i : Nat) => literal mode i) o s ho
  refine ⟨o', by simpa [e] using h1, fun l => ?_⟩
  obtain ⟨l', h3⟩ := h2 [("adv", .sc false 64 adv)]
  simp only [List.length_map, List.length_range, ← e] at h1
  obtain rfl := h1
  refine invoke_ret rfl rfl rfl (l' := l') ?_
  refine Eq.trans (seq_next (w' := o.world [("adv", .sc false 64 adv)]) ?_) ?_
  · cases mode <;> simp [py, Obj.world, Source.LCRNG64.advance]
  refine Eq.trans (seq_next ((for_range rfl).trans h3)) ?_
  cases mode <;> simp [py, Obj.world]

theorem nextU32_source (mode : Mode) (p : Params 64) (r : Fun) (s : BitVec 64) :
    Calls (prog p r) mode Rep 0 2 "next_u32" [] s (.ok (.sc false 32 (nextU32 p s).2)) (nextU32 p s).1 := by
  refine calls_of Source.LCRNG64.next_u32 rfl ?_
  rintro fuel depth hn hd o ho
  obtain ⟨o', h1, h2⟩ := next_source mode p r s fuel depth hn hd o ho
  refine ⟨o', h1, fun l => ?_⟩
  simp only [Obj.world] at h2
  cases mode <;> simp [py, Obj.world, Source.LCRNG64.next_u32, h2, nextU32]

/-- `np.uint64(np.uint64(self.seed) * np.uint64(mult) + np.uint64(add))` -/
theorem step_eval (E : Env) (l : List (String × Val)) (seed mult add : BitVec 64) (h1 : get "mult" l = some (.sc false 64 mult))
    (h2 : get "add" l = some (.sc false 64 add)) :
    eval E (.cast u64 (.bin .add (.bin .mul (.cast u64 (.self "seed")) (.cast u64 (.var "mult"))) (.cast u64 (.var "add"))))
      ⟨l, [("seed", .sc false 64 seed)], []⟩
    = (.ok (.sc false 64 (seed * mult + add)), ⟨l, [("seed", .sc false 64 seed)], []⟩) := by
  cases hm : E.mode <;> simp [py, h1, h2, hm, muladd_narrow]

theorem seed_store (E : Env) (hf : E.fieldTypes = [("seed", u64)]) (l : List (String × Val)) (s x : BitVec 64) :
    storeField E "seed" (.sc false 64 x) ⟨l, [("seed", .sc false 64 s)], []⟩ = (.ok (), ⟨l, [("seed", .sc false 64 x)], []⟩) := by
  cases hm : E.mode <;> simp [py, hf, hm]

/-- the `while` loop of `jump` -/
theorem jump_loop (mode : Mode) (tbl : List (BitVec 64 × BitVec 64)) (E : Env) (hm : E.mode = mode)
    (hg : get "jump_table" E.globals = some (.tup (tbl.map entry))) (hf : E.fieldTypes = [("seed", u64)]) (fuel' : Nat) :
    ∀ (n i : Nat) (seed : BitVec 64) (v : Val) (l : List (String × Val)) (fuel : Nat), n < fuel → Dist mode v n →
      get "adv" l = some v → get "i" l = some (literal mode i) → get "jump_table" l = .none →
      (mode = .numba → n < 2 ^ (64 - i) ∧ i ≤ 64) →
      ∃ l', whileLoop ((eval E (.var "adv")).bind fun v => M.lift (truth v))
          (exec E [] fuel' (.seq (.ite (.bin .and (.var "adv") (.num 1))
            (.seq
              (.assign (.cons (.var "add") (.cons (.var "mult") .nil)) (.item (.var "jump_table") (.var "i")))
              (.assign (.self "seed") (.cast u64 (.bin .add (.bin .mul (.cast u64 (.self "seed")) (.cast u64 (.var "mult")))
                (.cast u64 (.var "add"))))))
            .pass)
            (.seq (.aug .shr (.var "adv") (.num 1)) (.aug .add (.var "i") (.num 1))))) fuel
          ⟨l, [("seed", .sc false 64 seed)], []⟩
        = ((jumpLoop tbl n i seed).2.map fun _ => .next, ⟨l', [("seed", .sc false 64 (jumpLoop tbl n i seed).1)], []⟩) := by
  intro n
  induction n using Nat.strongRecOn with
  | ind n ih =>
  intro i seed v l fuel hfuel hv ha hi hj hb
  obtain ⟨fuel, rfl⟩ := Nat.exists_eq_add_of_le' (show 1 ≤ fuel by omega)
  rw [whileLoop, jumpLoop]
  by_cases h0 : n = 0
  · refine ⟨l, ?_⟩
    simp [M.bind, eval, ha, M.lift, hv.truth, h0, M.pure, Except.map]
  · obtain ⟨v', h1, h2⟩ := hv.half
    have hlow := hv.low
    -- the next value of `i`
    have hinc : binop mode .add (literal mode i) (literal mode 1) = .ok (literal mode ((i + 1 : Nat) : Int)) := by
      cases mode
      · simp [py, BitVec.ofInt_add]
      · simp [py]
    have hnext (s' : BitVec 64) (l1 : List (String × Val)) (h3 : get "jump_table" l1 = .none) :
        ∃ l', whileLoop ((eval E (.var "adv")).bind fun v => M.lift (truth v))
          (exec E [] fuel' (.seq (.ite (.bin .and (.var "adv") (.num 1))
            (.seq
              (.assign (.cons (.var "add") (.cons (.var "mult") .nil)) (.item (.var "jump_table") (.var "i")))
              (.assign (.self "seed") (.cast u64 (.bin .add (.bin .mul (.cast u64 (.self "seed")) (.cast u64 (.var "mult")))
                (.cast u64 (.var "add"))))))
            .pass)
            (.seq (.aug .shr (.var "adv") (.num 1)) (.aug .add (.var "i") (.num 1))))) fuel
          ⟨put "i" (literal mode ((i + 1 : Nat) : Int)) (put "adv" v' l1), [("seed", .sc false 64 s')], []⟩
        = ((jumpLoop tbl (n / 2) (i + 1) s').2.map fun _ => .next,
            ⟨l', [("seed", .sc false 64 (jumpLoop tbl (n / 2) (i + 1) s').1)], []⟩) := by
      refine ih (n / 2) (by omega) (i + 1) s' v' _ fuel (by omega) h2 (by simp [get_put]) (by simp [get_put]) (by simpa [get_put] using h3) ?_
      intro hm'
      obtain ⟨hb1, hb2⟩ := hb hm'
      have : i < 64 := by
        rcases Nat.lt_or_ge i 64 with h | h
        · exact h
        · rw [show 64 - i = 0 by omega] at hb1; omega
      refine ⟨?_, by omega⟩
      have e : 2 ^ (64 - i) = 2 * 2 ^ (64 - (i + 1)) := by rw [show 64 - i = 64 - (i + 1) + 1 by omega, Nat.pow_succ]; omega
      omega
    have hpos : position tbl.length (literal mode i) = if i < tbl.length then .ok i else .error .indexError := by
      cases mode
      · have h64 : i ≤ 64 := (hb rfl).2
        have : (BitVec.ofInt 64 (i : Int)).toInt = i := by
          rw [BitVec.toInt_ofInt]; rw [Int.bmod_eq_of_le] <;> omega
        simp only [position, literal, toInt, if_true, this]
        simp
      · simp [position, literal, toInt]
    obtain ⟨b, hb1, hb2⟩ : ∃ b, binop mode .and v (literal mode 1) = .ok b ∧ truth b = .ok (decide (n % 2 = 1)) := by
      cases hh : binop mode .and v (literal mode 1) with
      | error e => rw [hh] at hlow; simp [Except.bind] at hlow
      | ok b => rw [hh] at hlow; exact ⟨b, rfl, hlow⟩
    by_cases h5 : n % 2 = 1
    · by_cases h6 : i < tbl.length
      · obtain ⟨l', h7⟩ := hnext (seed * tbl[i].2 + tbl[i].1)
          (put "mult" (.sc false 64 tbl[i].2) (put "add" (.sc false 64 tbl[i].1) l)) (by simpa [get_put] using hj)
        refine ⟨l', ?_⟩
        have h8 : tbl[i]? = some tbl[i] := by simp [h6]
        simp only [h0, h5, h8, dif_neg, not_false_eq_true, if_true]
        rw [← h7]
        clear ih hnext
        have e1 : exec E [] fuel' (.assign (.cons (.var "add") (.cons (.var "mult") .nil)) (.item (.var "jump_table") (.var "i")))
            ⟨l, [("seed", .sc false 64 seed)], []⟩ = (.ok .next, ⟨put "mult" (.sc false 64 tbl[i].2)
              (put "add" (.sc false 64 tbl[i].1) l), [("seed", .sc false 64 seed)], []⟩) := by
          simp [M.bind, M.pure, eval, exec, store, hi, hj, hg, storeLocal_nil, loadItem, hpos, h6, Except.bind, entry]
        have e2 := step_eval E (put "mult" (.sc false 64 tbl[i].2) (put "add" (.sc false 64 tbl[i].1) l)) seed tbl[i].2 tbl[i].1
          (by simp [get_put]) (by simp [get_put])
        have e3 : exec E [] fuel' (.assign (.self "seed") (.cast u64 (.bin .add (.bin .mul (.cast u64 (.self "seed"))
            (.cast u64 (.var "mult"))) (.cast u64 (.var "add")))))
            ⟨put "mult" (.sc false 64 tbl[i].2) (put "add" (.sc false 64 tbl[i].1) l), [("seed", .sc false 64 seed)], []⟩
            = (.ok .next, ⟨put "mult" (.sc false 64 tbl[i].2) (put "add" (.sc false 64 tbl[i].1) l),
              [("seed", .sc false 64 (seed * tbl[i].2 + tbl[i].1))], []⟩) := by
          simp only [exec, M.bind, e2, store, seed_store E hf, M.pure]
        have e4 := (seq_next e1).trans e3
        have e5 := (ite_true' (E := E) (types := []) (fuel := fuel') (c := .bin .and (.var "adv") (.num 1)) (b := .pass) (v := b)
          (w := ⟨l, [("seed", .sc false 64 seed)], []⟩) (by simp [eval, M.bind, M.pure, M.lift, ha, hm, hb1])
          (by simp [hb2, h5])).trans e4
        simp only [M.bind, eval, ha, M.lift, hv.truth, h0, ne_eq, not_false_eq_true, decide_true, if_true, seq_next e5]
        simp [M.bind, M.lift, M.pure, eval, exec, store, ha, hi, hm, get_put, storeLocal_nil, h1, hinc, -Int.natCast_add]
      · refine ⟨l, ?_⟩
        have h8 : tbl[i]? = none := by simp; omega
        simp only [h8]
        simp [M.bind, M.lift, M.pure, eval, exec, ha, hi, hj, hm, hg, hv.truth, hb1, hb2, h0, h5,
          loadItem, hpos, h6, Except.bind, Except.map]
    · obtain ⟨l', h7⟩ := hnext seed l hj
      refine ⟨l', ?_⟩
      simp only [h0, h5, dif_neg, not_false_eq_true, if_false]
      rw [← h7]
      simp [M.bind, M.lift, M.pure, eval, exec, store, ha, hi, hm, hv.truth, hb1, hb2, h0, h5, get_put, storeLocal_nil, h1, hinc,
        -Int.natCast_add]

theorem jump_source (mode : Mode) (p : Params 64) (r : Fun) (s : BitVec 64) (adv : Nat) (v : Val) (hv : Dist mode v adv) :
    Calls (prog p r) mode Rep (adv + 1) 1 "jump" [v] s ((jump p adv s).2.map (.sc false 64)) (jump p adv s).1 := by
  refine calls_of Source.LCRNG64.jump rfl ?_
  rintro fuel depth hn - _ rfl
  refine ⟨_, rfl, fun l => ?_⟩
  obtain ⟨l', h⟩ := jump_loop mode (jumpTable p) ⟨mode, (prog p r).globals, (prog p r).fieldTypes, run (prog p r) mode fuel depth⟩ rfl
    rfl rfl fuel adv 0 s v [("adv", v), ("i", literal mode 0)] fuel hn hv rfl rfl rfl (by
      rintro rfl
      refine ⟨?_, by omega⟩
      cases hv with
      | numba w x h => exact lt_of_lt_of_le x.isLt (Nat.pow_le_pow_right (by omega) h)
      | long _ x h => exact lt_trans h (by decide))
  have e1 : exec ⟨mode, (prog p r).globals, (prog p r).fieldTypes, run (prog p r) mode fuel depth⟩ [] fuel (.assign (.var "i") (.num 0))
      ⟨[("adv", v)], [("seed", .sc false 64 s)], []⟩ = (.ok .next, ⟨[("adv", v), ("i", literal mode 0)], [("seed", .sc false 64 s)], []⟩) := by
    cases mode <;> simp [py]
  rw [jump]
  cases hj : jumpLoop (jumpTable p) adv 0 s with
  | mk s' x =>
  rw [hj] at h
  cases x with
  | error e =>
    refine invoke_error rfl rfl (l' := l') ?_
    exact (seq_next e1).trans (seq_error h)
  | ok x =>
    have hx : x = s' := jumpLoop_ok _ _ _ _ hj
    subst hx
    refine invoke_ret rfl rfl rfl (l' := l') ?_
    refine Eq.trans (seq_next e1) ?_
    refine Eq.trans (seq_next (w' := ⟨l', [("seed", .sc false 64 x)], []⟩) ?_) ?_
    · exact h
    cases mode <;> simp [py, Obj.world]

/-- `next_rand` with the distribution MULTIPLICATION_SHIFT -/
theorem nextRand_source (mode : Mode) (p : Params 64) (s : BitVec 64) (maximum : BitVec 32) :
    Calls (prog p Source.LCRNG64.next_rand) mode Rep 0 3 "next_rand" [.sc false 32 maximum] s
      ((nextRand64 p .multiplicationShift maximum s).2.map (.sc false 32)) (nextRand64 p .multiplicationShift maximum s).1 := by
  refine calls_of Source.LCRNG64.next_rand rfl ?_
  intro fuel depth hn hd o ho
  obtain ⟨o', h1, h2⟩ := nextU32_source mode p Source.LCRNG64.next_rand s fuel depth hn hd o ho
  refine ⟨o', h1, fun l => ?_⟩
  simp only [Obj.world] at h2
  rw [prog_globals, prog_fieldTypes]
  generalize run _ mode fuel depth = c at h2 ⊢
  cases mode <;> simp [py, Obj.world, Source.LCRNG64.next_rand, h2, nextRand64, mulShift]

end Verif.Py.Lcrng64
