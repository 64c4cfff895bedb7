import Mathlib.NumberTheory.LucasPrimality
import Mathlib.NumberTheory.LucasLehmer
import Mathlib.Tactic.NormNum.Prime
import Mathlib.Tactic.NormNum.BigOperators
/-
The prime divisors of `2^128 - 1` and the primality of `2^127 - 1`.
-/
namespace Verif.Gf2

/-- `acc * b ^ e mod m`, `k` bits of `e` -/
def modPow (m : Nat) : Nat → Nat → Nat → Nat → Nat
  | 0, _, _, acc => acc
  | k + 1, b, e, acc => modPow m k (b * b % m) (e / 2) (if e % 2 = 1 then b * acc % m else acc)

theorem modPow_eq (m k : Nat) : ∀ b e acc : Nat, e < 2 ^ k →
    ((modPow m k b e acc : Nat) : ZMod m) = (b : ZMod m) ^ e * (acc : ZMod m) := by
  induction k with
  | zero => intro b e acc h
            obtain rfl : e = 0 := by simpa using h
            simp [modPow]
  | succ k ih =>
    intro b e acc h
    rw [modPow, ih _ _ _ (by rw [pow_succ] at h; omega), ZMod.natCast_mod, Nat.cast_mul, ← pow_two, ← pow_mul]
    split <;> rename_i he
    · rw [ZMod.natCast_mod, Nat.cast_mul, ← mul_assoc, ← pow_succ]
      congr 2; omega
    · congr 2; omega

theorem prime_67280421310721 : Nat.Prime 67280421310721 := by
  have h0 : ∀ e < 2 ^ 64, ((modPow 67280421310721 64 3 e 1 : Nat) : ZMod 67280421310721) = 3 ^ e := by
    intro e he
    rw [modPow_eq _ _ _ _ _ he]; simp
  have hne : ∀ e < 2 ^ 64, (modPow 67280421310721 64 3 e 1) % 67280421310721 ≠ 1 →
      (3 : ZMod 67280421310721) ^ e ≠ 1 := by
    intro e he h h'
    rw [← h0 e he] at h'
    have h1 : ((modPow 67280421310721 64 3 e 1 : Nat) : ZMod 67280421310721) = (1 : Nat) := by simpa using h'
    exact h ((ZMod.natCast_eq_natCast_iff' _ _ _).1 h1)
  refine lucas_primality _ 3 ?_ ?_
  · rw [← h0 _ (by decide)]
    rw [show modPow 67280421310721 64 3 (67280421310721 - 1) 1 = 1 by decide +kernel]
    simp
  · intro q hq hd
    have hf : 67280421310721 - 1 = [2, 2, 2, 2, 2, 2, 2, 2, 5, 47, 373, 2998279].prod := by norm_num
    rw [hf] at hd
    obtain ⟨a, ha, hqa⟩ := (Prime.dvd_prod_iff hq.prime).1 hd
    have hmem : a = 2 ∨ a = 5 ∨ a = 47 ∨ a = 373 ∨ a = 2998279 := by simpa using ha
    have hqe : q = a := by
      have hap : a.Prime := by rcases hmem with rfl | rfl | rfl | rfl | rfl <;> norm_num
      exact (Nat.prime_dvd_prime_iff_eq hq hap).1 hqa
    rw [hqe]
    rcases hmem with h | h | h | h | h <;> rw [h] <;> exact hne _ (by decide) (by decide +kernel)

/-- the prime divisors of `2^128 - 1` -/
def primes128 : List Nat := [3, 5, 17, 257, 641, 65537, 274177, 6700417, 67280421310721]

theorem mem_primes128 (p : Nat) (hp : p.Prime) (hd : p ∣ 2 ^ 128 - 1) : p ∈ primes128 := by
  have hf : 2 ^ 128 - 1 = primes128.prod := by decide +kernel
  rw [hf] at hd
  obtain ⟨a, ha, hpa⟩ := (Prime.dvd_prod_iff hp.prime).1 hd
  have hap : a.Prime := by
    have hmem : a = 3 ∨ a = 5 ∨ a = 17 ∨ a = 257 ∨ a = 641 ∨ a = 65537 ∨ a = 274177 ∨ a = 6700417 ∨
        a = 67280421310721 := by simpa [primes128] using ha
    rcases hmem with rfl | rfl | rfl | rfl | rfl | rfl | rfl | rfl | rfl
    all_goals first | exact prime_67280421310721 | norm_num
  rwa [(Nat.prime_dvd_prime_iff_eq hp hap).1 hpa]

theorem prime_2_127 : Nat.Prime (2 ^ 127 - 1) :=
  lucas_lehmer_sufficiency _ (by norm_num) (by norm_num)

end Verif.Gf2
