import Verif.Model.Basic
/-
Model of numba_pokemon_prngs/compatability.py
-/
namespace Verif.Compat

/-- `compatability.py:11-15` `extended_gcd`. Python integers are `Int`; Python's `%` and `//` are the floor
versions `Int.fmod` / `Int.fdiv`. -/
def extendedGcd (a b : Int) : Int × Int × Int :=
  if _h : a = 0 then (b, 0, 1)
  else
    let r := extendedGcd (b.fmod a) a
    (r.1, r.2.2 - (b.fdiv a) * r.2.1, r.2.1)
termination_by a.natAbs
decreasing_by
  have h0 : a < 0 ∨ a = 0 ∨ 0 < a := by omega
  rcases h0 with h' | h' | h'
  · have h1 : b.fmod a = _ := Int.fmod_eq_emod
    have h2 := Int.emod_nonneg b _h
    have h3 := Int.emod_lt b _h
    split at h1 <;> omega
  · exact absurd h' _h
  · have h1 := Int.fmod_nonneg_of_pos b h'
    have h2 := Int.fmod_lt_of_pos b h'
    omega

/-- `compatability.py:8-20` `mod_inv` (the branch for Python < 3.8; the other branch is `pow(value, -1, modulus)`,
`compatability.py:24-26`, whose documented result is the same inverse, see `C11_mod_inv`). -/
def modInv (value modulus : Int) : Except PyErr Int :=
  let r := extendedGcd value modulus
  if r.1 ≠ 1 then .error .valueError
  else .ok (r.2.1.fmod modulus)

end Verif.Compat
