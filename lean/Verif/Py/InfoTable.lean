import Verif.Py.Small
import Verif.Model.WildGen3
/-
C133 for `get_info_table_3` of data/personal/__init__.py. Compiled code only.
-/
namespace Verif.Py.InfoTable
open Verif Gen3 Area3 Small

/-- `get_info_table_3` and the members of the enumerations; `PERSONAL_INFO_RS` and so on are given -/
def prog (t : Tables) : Prog where
  funs := [("get_info_table_3", Source.get_info_table_3)]
  globals := [("PERSONAL_INFO_RS", tableOfInfo t.rs), ("PERSONAL_INFO_E", tableOfInfo t.e), ("PERSONAL_INFO_FR", tableOfInfo t.fr),
    ("PERSONAL_INFO_LG", tableOfInfo t.lg)] ++ Source.enums3.map fun e => (e.1, literal .numba e.2)
  fieldTypes := []

/-- `game & mask` is true if the game has the bit -/
theorem has_truth {v : Val} {g : BitVec 32} {k : Nat} (hv : Is v (g.toNat &&& k)) (hk : k < 2 ^ 32) : truth v = .ok (Game.has g (BitVec.ofNat 32 k)) := by
  obtain ⟨s, n, x, rfl, hn, hlt, h⟩ := hv
  have e : (x = 0) = (g.toNat &&& k = 0) := by
    have h2 : conv s 64 x = BitVec.ofNat 64 (g.toNat &&& k) := conv_of 64 h
    simp only [toInt, Option.some.injEq] at h
    apply propext
    constructor
    · rintro rfl
      cases s <;> simp at h <;> omega
    · intro h0
      rw [h0] at h
      cases s
      · simp only [Bool.false_eq_true, if_false, Nat.cast_inj] at h
        exact BitVec.eq_of_toNat_eq (by simpa using h)
      · simp only [if_true] at h
        exact BitVec.eq_of_toInt_eq (by simpa using h)
  simp only [truth, Game.has, bne]
  congr 1
  have e2 : (g &&& BitVec.ofNat 32 k = 0) = (g.toNat &&& k = 0) := by
    rw [← BitVec.toNat_inj, BitVec.toNat_and, BitVec.toNat_ofNat, Nat.mod_eq_of_lt hk]
    rfl
  rw [show (x == 0) = decide (x = 0) from rfl, show (g &&& BitVec.ofNat 32 k == 0) = decide (g &&& BitVec.ofNat 32 k = 0) from rfl]
  simp only [e, e2]

theorem get_none (y : String) (h : y ∈ Source.enums3.map Prod.fst) (v : Val) : get y [("game", v)] = none := by
  have hn : ∀ y ∈ Source.enums3.map Prod.fst, ¬ "game" = y := by decide +kernel
  rw [get, if_neg (hn y h), get]

theorem enum_get (t : Tables) (x : String) (k : Int) (h : (x, k) ∈ Source.enums3) : get x (prog t).globals = some (literal .numba k) := by
  have hn : ((prog t).globals.map Prod.fst).Nodup := by
    have e : (prog t).globals.map Prod.fst = ["PERSONAL_INFO_RS", "PERSONAL_INFO_E", "PERSONAL_INFO_FR", "PERSONAL_INFO_LG"] ++ Source.enums3.map Prod.fst := by
      simp only [prog, List.map_append, List.map_map]
      rfl
    rw [e]
    decide +kernel
  exact get_mem hn (e := (x, literal .numba k)) (List.mem_append_right _ (List.mem_map_of_mem (f := fun e => (e.1, literal .numba e.2)) h))

theorem member (t : Tables) (E : Env) (hg : E.globals = (prog t).globals) (x : String) (k : Nat) (h : (x, (k : Int)) ∈ Source.enums3)
    (hk : k < 2 ^ 63) (v : Val) (f : List (String × Val)) (a : List (String × Arr)) : Ev E (.var x) ⟨[("game", v)], f, a⟩ k := by
  refine ⟨literal .numba k, ?_, Is.lit k hk⟩
  have := get_none x (List.mem_map_of_mem (f := Prod.fst) h) v
  simp only [eval, this, hg, enum_get t x k h]

/-- `get_info_table_3(game)` for a number below 2^32 of any type -/
theorem call_table (t : Tables) (fuel depth : Nat) (v : Val) (g : BitVec 32) (hv : Is v g.toNat) (w : World) :
    run (prog t) .numba fuel (depth + 1) "get_info_table_3" [v] w = (.ok (tableOfInfo (getInfoTable3 t g)), w) := by
  rw [run_succ _ _ _ _ _ _ Source.get_info_table_3 rfl]
  generalize hE : (⟨.numba, (prog t).globals, (prog t).fieldTypes, run (prog t) .numba fuel depth⟩ : Env) = E
  have hm : E.mode = .numba := by rw [← hE]
  have hg : E.globals = (prog t).globals := by rw [← hE]
  have hx (x : String) (u : Val) (hu : get x (prog t).globals = some u) (hl : get x [("game", v)] = none) :
      eval E (.var x) ⟨[("game", v)], w.fields, w.arrays⟩ = (.ok u, ⟨[("game", v)], w.fields, w.arrays⟩) := by
    simp only [eval, hl, hg, hu]
  have hgame : Ev E (.var "game") ⟨[("game", v)], w.fields, w.arrays⟩ g.toNat := ⟨v, by simp [eval, get], hv⟩
  have cond {e : Expr} {k : Nat} (hk : k < 2 ^ 32) (he : Ev E e ⟨[("game", v)], w.fields, w.arrays⟩ k) :
      ∃ u, eval E (.bin .and (.var "game") e) ⟨[("game", v)], w.fields, w.arrays⟩ = (.ok u, ⟨[("game", v)], w.fields, w.arrays⟩)
        ∧ truth u = .ok (Game.has g (BitVec.ofNat 32 k)) := by
    obtain ⟨u, h1, h2⟩ := Ev.bin hm hgame he fun _ _ => Is.and
    exact ⟨u, h1, has_truth h2 hk⟩
  obtain ⟨u1, a1, b1⟩ := cond (k := 3) (by decide) (Ev.bin (op := .or) hm (member t E hg "Game.RUBY" 1 (by decide +kernel) (by decide) v _ _)
    (member t E hg "Game.SAPPHIRE" 2 (by decide +kernel) (by decide) v _ _) fun _ _ => Is.or)
  obtain ⟨u2, a2, b2⟩ := cond (k := 4) (by decide) (member t E hg "Game.EMERALD" 4 (by decide +kernel) (by decide) v _ _)
  obtain ⟨u3, a3, b3⟩ := cond (k := 8) (by decide) (member t E hg "Game.FIRE_RED" 8 (by decide +kernel) (by decide) v _ _)
  have body : exec E [] fuel Source.get_info_table_3.body ⟨[("game", v)], w.fields, w.arrays⟩
      = (.ok (.ret (tableOfInfo (getInfoTable3 t g))), ⟨[("game", v)], w.fields, w.arrays⟩) := by
    have ret {e : Expr} {u : Val} (h : eval E e ⟨[("game", v)], w.fields, w.arrays⟩ = (.ok u, ⟨[("game", v)], w.fields, w.arrays⟩)) :
        exec E [] fuel (.ret e) ⟨[("game", v)], w.fields, w.arrays⟩ = (.ok (.ret u), ⟨[("game", v)], w.fields, w.arrays⟩) := by
      simp only [exec, M.bind, h, M.pure]
    have s1 : getInfoTable3 t g = if Game.has g (BitVec.ofNat 32 3) = true then t.rs else if Game.has g (BitVec.ofNat 32 4) = true then t.e
        else if Game.has g (BitVec.ofNat 32 8) = true then t.fr else t.lg := rfl
    rw [s1]
    simp only [Source.get_info_table_3]
    cases c1 : Game.has g (BitVec.ofNat 32 3) with
    | true =>
      rw [c1] at b1
      rw [exec, M.bind, ite_true' a1 b1, ret (hx "PERSONAL_INFO_RS" _ rfl rfl)]
      rfl
    | false =>
      rw [c1] at b1
      refine (seq_next ((ite_false' a1 b1).trans rfl)).trans ?_
      cases c2 : Game.has g (BitVec.ofNat 32 4) with
      | true =>
        rw [c2] at b2
        rw [exec, M.bind, ite_true' a2 b2, ret (hx "PERSONAL_INFO_E" _ rfl rfl)]
        rfl
      | false =>
        rw [c2] at b2
        refine (seq_next ((ite_false' a2 b2).trans rfl)).trans (ret ?_)
        rw [eval]
        simp only [M.bind, a3, M.lift, b3]
        cases c3 : Game.has g (BitVec.ofNat 32 8) with
        | true => exact hx "PERSONAL_INFO_FR" _ rfl rfl
        | false => exact hx "PERSONAL_INFO_LG" _ rfl rfl
  exact invoke_plain (F := Source.get_info_table_3) (args := [v]) (w := w) (w' := ⟨[("game", v)], w.fields, w.arrays⟩) (q := .ok _) rfl rfl rfl rfl body

end Verif.Py.InfoTable
