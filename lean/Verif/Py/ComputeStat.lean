import Verif.Py.Small
import Verif.Py.Sha1
import Verif.Py.Float
import Verif.Props.Stat
/-
C133 for `compute_stat` of util.py. Compiled code only. The table `NATURE_MODIFIERS` (util.py:48-51) has the entries of the model.
-/
namespace Verif.Py.ComputeStat
open Verif Area3 Small Sha1

/-- `NATURE_MODIFIERS` -/
def natureTable : Val := .tup ((List.range 25).map fun i => .tup ((List.range 5).map fun j => .f32 (Stat.natureModifier i j)))

theorem sub_one (z : BitVec 8) : ∃ v, binop .numba .sub (.sc false 8 z) (literal .numba 1) = .ok v ∧ toInt v = some ((z.toNat : Int) - 1) := by
  refine ⟨_, rfl, ?_⟩
  rw [toInt]
  congr 1
  revert z
  decide +kernel

theorem modifier_nonneg (i j : Nat) : 0 ≤ Stat.natureModifier i j := by
  rw [Stat.natureModifier_eq]
  split_ifs <;> norm_num

theorem invoke_compute {E : Env} (hm : E.mode = .numba) (hg : get "NATURE_MODIFIERS" E.globals = some natureTable) (hc : E.call "np.float32" = toF32) (fuel : Nat)
    {a b c : Val} {x : BitVec 16} {y z : BitVec 8} (ha : cast u16 a = .ok (.sc false 16 x)) (hb : cast u8 b = .ok (.sc false 8 y))
    (hc' : cast u8 c = .ok (.sc false 8 z)) (w : World) :
    invoke E fuel Source.compute_stat [a, b, c] w = ((Stat.computeStat x y.toNat z.toNat).map (.sc false 16), w) := by
  obtain ⟨v, v1, v2⟩ := sub_one z
  have hargs : castArgs .numba (some [u16, u8, u8]) [a, b, c] = .ok [.sc false 16 x, .sc false 8 y, .sc false 8 z] := by
    simp only [castArgs, ha, hb, hc', Except.bind]
  generalize hL : [("stat", Val.sc false 16 x), ("nature", Val.sc false 8 y), ("index", Val.sc false 8 z)] = L
  have e1 : eval E (.call "np.float32" (.cons (.var "stat") .nil)) ⟨L, w.fields, w.arrays⟩ = (.ok (.f32 (Fp.rnd 24 (x.toNat : ℚ))), ⟨L, w.fields, w.arrays⟩) := by
    have hs : eval E (.var "stat") ⟨L, w.fields, w.arrays⟩ = (.ok (.sc false 16 x), ⟨L, w.fields, w.arrays⟩) := Area3.var_eval (by rw [← hL]; rfl)
    refine call_eval (by decide) (by decide) (cons_eval hs nil_eval) ?_
    rw [hc, toF32_int (show toInt (.sc false 16 x) = some (x.toNat : Int) from rfl)]
    simp only [M.pure, Int.cast_natCast]
  have e2 : eval E (.var "NATURE_MODIFIERS") ⟨L, w.fields, w.arrays⟩ = (.ok natureTable, ⟨L, w.fields, w.arrays⟩) := by
    have : get "NATURE_MODIFIERS" L = none := by rw [← hL]; rfl
    simp only [eval, this, hg]
  have e3 : eval E (.bin .sub (.var "index") (.num 1)) ⟨L, w.fields, w.arrays⟩ = (.ok v, ⟨L, w.fields, w.arrays⟩) :=
    Area3.bin_eval (Area3.var_eval (by rw [← hL]; rfl)) (Area3.num_eval hm 1) (by rw [hm]; exact v1)
  have e4 : eval E (.var "nature") ⟨L, w.fields, w.arrays⟩ = (.ok (.sc false 8 y), ⟨L, w.fields, w.arrays⟩) := Area3.var_eval (by rw [← hL]; rfl)
  have body : exec E [] fuel Source.compute_stat.body ⟨L, w.fields, w.arrays⟩
      = ((Stat.computeStat x y.toNat z.toNat).map fun r => .ret (.sc false 16 r), ⟨L, w.fields, w.arrays⟩) := by
    simp only [Source.compute_stat, exec]
    rw [eval, eval]
    simp only [M.bind, e1]
    rw [eval, eval]
    have py : position 25 (.sc false 8 y) = if y.toNat < 25 then .ok y.toNat else .error .indexError := by
      rw [position, show toInt (.sc false 8 y) = some (y.toNat : Int) from rfl]
      simp only [Int.natCast_nonneg, Int.toNat_natCast, if_true]
    have pz : position 5 v = if z.toNat < 6 then .ok ((z.toNat + 4) % 5) else .error .indexError := by
      rw [position, v2]
      simp only
      by_cases h0 : z.toNat = 0
      · rw [h0]; rfl
      · rw [if_pos (by omega)]
        by_cases h6 : z.toNat < 6
        · rw [if_pos (by omega), if_pos h6]
          congr 1
          omega
        · rw [if_neg (by omega), if_neg h6]
    simp only [M.bind, e2, e4, natureTable, loadItem, List.length_map, List.length_range, py]
    by_cases hy : y.toNat < 25
    · simp only [hy, if_true, Except.bind, List.getElem?_map, List.getElem?_range hy, Option.map_some, e3, List.length_map, List.length_range, pz]
      by_cases hz : z.toNat < 6
      · rw [if_pos hz]
        have h5 : (z.toNat + 4) % 5 < 5 := Nat.mod_lt _ (by omega)
        simp only [List.getElem?_range h5, Option.map_some, hm, binop, float32Bin, M.lift, cast]
        have hcs : Stat.computeStat x y.toNat z.toNat = _ := if_pos ⟨hy, hz⟩
        rw [hcs]
        clear hcs
        have hq : 0 ≤ Fp.rnd 24 (Fp.rnd 24 (x.toNat : ℚ) * Stat.natureModifier y.toNat ((z.toNat + 4) % 5)) :=
          Fp.rnd_nonneg (mul_nonneg (Fp.rnd_nonneg (Nat.cast_nonneg _)) (modifier_nonneg _ _))
        generalize Fp.rnd 24 (Fp.rnd 24 (x.toNat : ℚ) * Stat.natureModifier y.toNat ((z.toNat + 4) % 5)) = q at hq ⊢
        have h16 : ((2 : ℚ) ^ (16 - Bool.toNat false)) = 65536 := by norm_num
        by_cases hlt : q < 65536
        · rw [if_pos ⟨hq, by rw [h16]; exact hlt⟩]
          simp only [hlt, if_true]
          rfl
        · rw [if_neg (fun h => hlt (by rw [← h16]; exact h.2))]
          simp only [hlt, if_false]
          rfl
      · rw [if_neg hz, Stat.computeStat, if_neg (fun h => hz h.2)]
        rfl
    · simp only [hy, if_false, Except.bind]
      rw [Stat.computeStat, if_neg (fun h => hy h.1)]
      rfl
  rw [invoke, hm]
  simp only [show Source.compute_stat.args = some [u16, u8, u8] from rfl, hargs]
  rw [show Source.compute_stat.params.zip [Val.sc false 16 x, .sc false 8 y, .sc false 8 z] = L from hL, show Source.compute_stat.locals = [] from rfl, body]
  cases Stat.computeStat x y.toNat z.toNat with
  | error e => rfl
  | ok r =>
    simp [Source.compute_stat, Except.map, castResult, cast, conv, castTuple, Except.bind]

end Verif.Py.ComputeStat
