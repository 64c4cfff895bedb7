import Verif.Model.Basic
import Verif.Model.Fp
/-
Model of `NATURE_MODIFIERS` and `compute_stat` (util.py:48-57). Floats as in Model/Fp.
-/
namespace Verif.Stat
open Fp

/-- the literal `0.1`, a 53-bit float -/
def lit01 : ℚ := rnd 53 (1 / 10)

/-- `util.py:48-51`: entry `[i][j]` of `NATURE_MODIFIERS`. In each iteration the `float32` entry is combined with the
Python float `0.1` in double precision (numpy 1.26 promotes two scalars) and stored as `float32`. -/
def natureModifier (i j : Nat) : ℚ :=
  let x : ℚ := if j = i % 5 then rnd 24 (rnd 53 (1 - lit01)) else 1
  if j = i / 5 then rnd 24 (rnd 53 (x + lit01)) else x

/-- `util.py:54-57` `compute_stat` for `index ≥ 1` or 0 (column `index - 1`; -1 wraps to column 4). The product is a
`float32` product; `np.uint16` truncates towards zero. A product of 65536 or more has no specified conversion to
`uint16` (`.overflowError` here). `nature ≥ 25` or `index ≥ 6` is an index error (unchecked under numba). -/
def computeStat (stat : BitVec 16) (nature index : Nat) : Except PyErr (BitVec 16) :=
  if nature < 25 ∧ index < 6 then
    let p := rnd 24 (rnd 24 (stat.toNat : ℚ) * natureModifier nature ((index + 4) % 5))
    if p < 65536 then .ok (BitVec.ofInt 16 ⌊p⌋) else .error .overflowError
  else .error .indexError

end Verif.Stat
