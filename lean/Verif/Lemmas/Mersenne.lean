import Mathlib.NumberTheory.LucasLehmer
import Mathlib.Data.ZMod.Basic
import Verif.Lemmas.PackedDefs
/-
2^19937 - 1 is prime (Lucas-Lehmer test, evaluated by the kernel).
-/
namespace Verif.Mersenne
open Verif.Gf2

theorem force_eq (a : Nat) (f : Nat → Nat) : force a f = f a := by cases a <;> rfl

/-- `n` steps of the Lucas-Lehmer sequence modulo `q` -/
def steps (q q2 : Nat) (n : Nat) : Nat → Nat :=
  Nat.rec (fun s => s) (fun _ ih s => force (Nat.mod (Nat.add (Nat.mul s s) q2) q) ih) n

/-- `m` times `n` steps -/
def blocks (q q2 n : Nat) (m : Nat) : Nat → Nat :=
  Nat.rec (fun s => s) (fun _ ih s => force (steps q q2 n s) ih) m

theorem steps_succ (q q2 n s : Nat) : steps q q2 (n + 1) s = steps q q2 n ((s * s + q2) % q) := by
  change force ((s * s + q2) % q) (steps q q2 n) = _
  rw [force_eq]

theorem blocks_succ (q q2 n m s : Nat) : blocks q q2 n (m + 1) s = blocks q q2 n m (steps q q2 n s) := by
  change force (steps q q2 n s) (blocks q q2 n m) = _
  rw [force_eq]

open LucasLehmer in
theorem steps_cast (p : Nat) (hp : 2 ≤ p) (n : Nat) : ∀ (i s : Nat), (s : ZMod (2 ^ p - 1)) = sZMod p i →
    (steps (2 ^ p - 1) (2 ^ p - 1 - 2) n s : ZMod (2 ^ p - 1)) = sZMod p (i + n) := by
  induction n with
  | zero => intro i s h; exact h
  | succ n ih =>
    intro i s h
    have hq : 2 ≤ 2 ^ p - 1 := by
      have : 2 ^ 2 ≤ 2 ^ p := Nat.pow_le_pow_right (by omega) hp
      omega
    rw [steps_succ, show i + (n + 1) = i + 1 + n by omega]
    apply ih (i + 1)
    rw [ZMod.natCast_mod, sZMod, Nat.cast_add, Nat.cast_mul, h, Nat.cast_sub hq, ZMod.natCast_self]
    push_cast
    ring

open LucasLehmer in
theorem blocks_cast (p : Nat) (hp : 2 ≤ p) (n m : Nat) : ∀ (i s : Nat), (s : ZMod (2 ^ p - 1)) = sZMod p i →
    (blocks (2 ^ p - 1) (2 ^ p - 1 - 2) n m s : ZMod (2 ^ p - 1)) = sZMod p (i + n * m) := by
  induction m with
  | zero => intro i s h; exact h
  | succ m ih =>
    intro i s h
    rw [blocks_succ, show i + n * (m + 1) = i + n + n * m by ring]
    exact ih (i + n) _ (steps_cast p hp n i s h)

/-- the test for `2^p - 1` in `k + n * m` steps -/
def test (p k n m : Nat) : Bool :=
  Nat.beq (force (Nat.sub (Nat.pow 2 p) 1) fun q => force (Nat.sub q 2) fun q2 => blocks q q2 n m (steps q q2 k 4)) 0

theorem prime_of_test (p k n m : Nat) (hp : 2 ≤ p) (hk : k + n * m = p - 2) (h : test p k n m = true) :
    Nat.Prime (2 ^ p - 1) := by
  apply lucas_lehmer_sufficiency p (by omega)
  have h := Nat.eq_of_beq_eq_true h
  rw [force_eq, force_eq] at h
  change LucasLehmer.lucasLehmerResidue p = 0
  have h1 := blocks_cast p hp n m (0 + k) _ (steps_cast p hp k 0 4 rfl)
  rw [Nat.zero_add, hk] at h1
  rw [LucasLehmer.lucasLehmerResidue, ← h1]
  exact (congrArg Nat.cast h).trans Nat.cast_zero

/-- 19935 = 135 + 100 * 198 steps end at 0. -/
theorem test_19937 : test 19937 135 100 198 = true := by decide +kernel

theorem prime : Nat.Prime (2 ^ 19937 - 1) := prime_of_test 19937 135 100 198 (by norm_num) (by norm_num) test_19937

end Verif.Mersenne
