import Verif.Lemmas.Compat
/-
C11: modular inverse (compatability.py).
-/
namespace Verif.Compat

/-- What `pow(value, -1, modulus)` documents: `x` is the inverse of `v` modulo `m`, reduced to `[0, m)`. -/
def IsInverse (v m x : Int) : Prop := 0 ≤ x ∧ x < m ∧ (v * x) % m = 1 % m

/-- an inverse in `[0, m)` is unique -/
theorem C11_inverse_unique (v m x y : Int) (hx : IsInverse v m x) (hy : IsInverse v m y) : x = y := by
  obtain ⟨hx0, hxm, hx⟩ := hx
  obtain ⟨hy0, hym, hy⟩ := hy
  have h1 : m ∣ v * x - v * y := Int.dvd_of_emod_eq_zero (by
    rw [Int.sub_emod, hx, hy]; simp)
  have h1' : m ∣ v * x - 1 := (Int.emod_emod_of_dvd _ (dvd_refl m) ▸ Int.emod_eq_emod_iff_emod_sub_eq_zero.1 hx
    |> Int.dvd_of_emod_eq_zero)
  have h2 : m ∣ x - y := by
    obtain ⟨k, hk⟩ := h1
    obtain ⟨l, hl⟩ := h1'
    refine ⟨x * k - l * (x - y), ?_⟩
    calc x - y = x * (v * x - v * y) - (v * x - 1) * (x - y) := by ring
      _ = x * (m * k) - (m * l) * (x - y) := by rw [hk, hl]
      _ = _ := by ring
  have h3 : (x - y).natAbs < m.natAbs := by omega
  have := Int.eq_zero_of_dvd_of_natAbs_lt_natAbs h2 h3
  omega

/-- C11, success: for a non-negative value coprime to the modulus, `mod_inv` returns the inverse. -/
theorem C11_mod_inv_ok (v m : Int) (hv : 0 ≤ v) (hm : 0 < m) (hc : Int.gcd v m = 1) :
    ∃ x, modInv v m = .ok x ∧ IsInverse v m x := by
  have hg : (extendedGcd v m).1 = 1 := by
    rw [extendedGcd_gcd v m hv hm.le, hc]; rfl
  refine ⟨(extendedGcd v m).2.1.fmod m, ?_, ?_, ?_, ?_⟩
  · simp [modInv, hg]
  · exact Int.fmod_nonneg_of_pos _ hm
  · exact Int.fmod_lt_of_pos _ hm
  · have hb := extendedGcd_bezout v m
    rw [hg] at hb
    rw [Int.fmod_eq_emod_of_nonneg _ hm.le, Int.mul_emod, Int.emod_emod, ← Int.mul_emod]
    conv_rhs => rw [hb]
    rw [Int.add_emod, Int.mul_emod_right, Int.add_zero, Int.emod_emod]

/-- C11, failure: for a non-negative value not coprime to the modulus, `mod_inv` raises `ValueError`, and indeed no
inverse exists (for a modulus above 1). -/
theorem C11_mod_inv_error (v m : Int) (hv : 0 ≤ v) (hm : 1 < m) (hc : Int.gcd v m ≠ 1) :
    modInv v m = .error .valueError ∧ ∀ x, ¬ IsInverse v m x := by
  constructor
  · have hg : (extendedGcd v m).1 ≠ 1 := by
      rw [extendedGcd_gcd v m hv (by omega)]
      exact_mod_cast hc
    simp [modInv, hg]
  · rintro x ⟨_, _, h⟩
    apply hc
    have h1 : m ∣ v * x - 1 := Int.dvd_of_emod_eq_zero (Int.emod_eq_emod_iff_emod_sub_eq_zero.1 h)
    obtain ⟨k, hk⟩ := h1
    have h2 : ((Int.gcd v m : Nat) : Int) ∣ 1 := by
      have e : (1 : Int) = v * x - m * k := by linarith
      rw [e]
      exact Int.dvd_sub (Dvd.dvd.mul_right (Int.gcd_dvd_left ..) _) (Dvd.dvd.mul_right (Int.gcd_dvd_right ..) _)
    have := Int.natAbs_dvd_natAbs.2 h2
    simpa using this

/-- C11 is false for negative values: the fallback for old Pythons raises although 4 is the inverse of -1 modulo 5
(`pow(-1, -1, 5) = 4`). -/
theorem C11_negative_value_rejected :
    modInv (-1) 5 = .error .valueError ∧ IsInverse (-1) 5 4 := by
  refine ⟨?_, by simp [IsInverse]⟩
  simp [modInv, extendedGcd]

/-- hypotheses of `C11_mod_inv_ok` are met by the constants of the library -/
example : (0 : Int) ≤ 0x41C64E6D ∧ (0 : Int) < 2 ^ 32 ∧ Int.gcd 0x41C64E6D (2 ^ 32) = 1 := by decide
/-- hypotheses of `C11_mod_inv_error` are satisfiable -/
example : (0 : Int) ≤ 6 ∧ (1 : Int) < 2 ^ 32 ∧ Int.gcd 6 (2 ^ 32) ≠ 1 := by decide

end Verif.Compat
