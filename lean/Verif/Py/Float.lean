import Verif.Py.Semantics
/-
`float32` operations that are calls in the syntax trees: `np.float32(v)` and `a / b`.
-/
namespace Verif.Py

/-- `np.float32(v)`: the nearest `float32` -/
def toF32 : List Val → M Val
  | [v] =>
    match toInt v with
    | some i => M.pure (.f32 (Fp.rnd 24 (i : ℚ)))
    | .none =>
      match v with
      | .f32 q => M.pure (.f32 q)
      | .flt q => M.pure (.f32 (Fp.rnd 24 q))
      | _ => M.fail .typeError
  | _ => M.fail .typeError

theorem toF32_int {v : Val} {i : Int} (h : toInt v = some i) : toF32 [v] = M.pure (.f32 (Fp.rnd 24 (i : ℚ))) := by
  unfold toF32
  simp only [h]

/-- `a / b` of two `float32`; division by 0 does not occur -/
def div32 : List Val → M Val
  | [.f32 x, .f32 y] => if y = 0 then M.fail .zeroDivision else M.pure (.f32 (Fp.rnd 24 (x / y)))
  | _ => M.fail .typeError

end Verif.Py
