import Verif.Model.Gen3Util
import Mathlib.Tactic.IntervalCases
import Mathlib.Data.Nat.Count
import Mathlib.Tactic.Ring
/-
C48 - C50.
-/
namespace Verif.Gen3

/-! ### C48 -/

/-- gender of a personality value as the games define it, on numbers: the low byte is compared with the ratio -/
def specGender (pid ratio : Nat) : Nat :=
  if ratio = 255 then 2 else if ratio = 254 then 1 else if ratio = 0 then 0 else if pid % 256 < ratio then 1 else 0

/-- C48 -/
theorem C48_gender (pid : BitVec 32) (ratio : BitVec 8) :
    (getGender pid ratio).toNat = specGender pid.toNat ratio.toNat := by
  have e : (pid &&& 0xFF < ratio.setWidth 32) ↔ pid.toNat % 256 < ratio.toNat := by
    rw [BitVec.lt_def, BitVec.toNat_and, BitVec.toNat_setWidth, show (0xFF : BitVec 32).toNat = 2 ^ 8 - 1 by rfl,
      Nat.and_two_pow_sub_one_eq_mod, Nat.mod_eq_of_lt (a := ratio.toNat) (by have := ratio.isLt; omega)]
  have e0 : (ratio = 0) ↔ ratio.toNat = 0 := by rw [← BitVec.toNat_inj]; rfl
  have e1 : (ratio = 254) ↔ ratio.toNat = 254 := by rw [← BitVec.toNat_inj]; rfl
  have e2 : (ratio = 255) ↔ ratio.toNat = 255 := by rw [← BitVec.toNat_inj]; rfl
  simp only [getGender, specGender, e, e0, e1, e2]
  split
  · rfl
  split
  · rfl
  split
  · rfl
  split <;> rfl

/-- C48: fixed ratios ignore the PID. -/
theorem C48_fixed (pid : BitVec 32) : getGender pid 255 = 2 ∧ getGender pid 254 = 1 ∧ getGender pid 0 = 0 :=
  ⟨rfl, rfl, rfl⟩

theorem count_mod (r m : Nat) (hr : r ≤ 256) : Nat.count (fun pid => pid % 256 < r) (256 * m) = r * m := by
  induction m with
  | zero => simp
  | succ m ih =>
    rw [show 256 * (m + 1) = 256 * m + 256 by ring, Nat.count_add, ih]
    have : Nat.count (fun k => (256 * m + k) % 256 < r) 256 = r := by
      have e : ∀ k, (256 * m + k) % 256 = k % 256 := by intro k; omega
      simp only [e]
      have h1 : ∀ n ≤ 256, Nat.count (fun k => k % 256 < r) n = min n r := by
        intro n
        induction n with
        | zero => intro _; simp
        | succ n ih =>
          intro hn
          rw [Nat.count_succ, ih (by omega)]
          split <;> omega
      rw [h1 256 le_rfl]; omega
    rw [this]; ring

/-- C48: for a ratio in 1..253 exactly `ratio/256` of the 2^32 PIDs are female. -/
theorem C48_proportion (ratio : BitVec 8) (h0 : ratio ≠ 0) (h1 : ratio.toNat < 254) :
    Nat.count (fun pid => getGender (BitVec.ofNat 32 pid) ratio = 1) (2 ^ 32) = ratio.toNat * 2 ^ 24 := by
  have e : ∀ pid, pid < 2 ^ 32 → (getGender (BitVec.ofNat 32 pid) ratio = 1 ↔ pid % 256 < ratio.toNat) := by
    intro pid hp
    have n0 : ratio.toNat ≠ 0 := fun h => h0 (BitVec.eq_of_toNat_eq h)
    rw [← BitVec.toNat_inj, C48_gender, specGender, if_neg (by omega), if_neg (by omega), if_neg n0, BitVec.toNat_ofNat,
      Nat.mod_eq_of_lt hp]
    split <;> simp_all
  have h := count_mod ratio.toNat (2 ^ 24) (by omega)
  rw [show (2 : Nat) ^ 32 = 256 * 2 ^ 24 by norm_num] at e ⊢
  rw [← h]
  have congr : ∀ n ≤ 256 * 2 ^ 24, Nat.count (fun pid => getGender (BitVec.ofNat 32 pid) ratio = 1) n =
      Nat.count (fun pid => pid % 256 < ratio.toNat) n := by
    intro n
    induction n with
    | zero => intro _; rfl
    | succ n ih =>
      intro hn
      rw [Nat.count_succ, Nat.count_succ, ih (by omega)]
      simp only [e n (by omega)]
  exact congr _ le_rfl

example : getGender 0x12345630 31 = 0 ∧ getGender 0x12345610 31 = 1 ∧ (31 : BitVec 8).toNat < 254 := by decide

/-! ### C49 -/

/-- C49: with x = PID high xor PID low xor trainer value: square shiny for 0, star shiny for 1..7. -/
theorem C49_shiny (pid : BitVec 32) (tsv : BitVec 16) :
    let x := (pid.toNat / 2 ^ 16) ^^^ (pid.toNat % 2 ^ 16) ^^^ tsv.toNat
    getShiny pid tsv = if x = 0 then 2 else if x < 8 then 1 else 0 := by
  intro x
  have ht := tsv.isLt
  have hp := pid.isLt
  have ep : ((pid >>> 16) ^^^ (pid &&& 0xFFFF)).toNat = (pid.toNat / 2 ^ 16) ^^^ (pid.toNat % 2 ^ 16) := by
    rw [BitVec.toNat_xor, BitVec.toNat_and, BitVec.toNat_ushiftRight, show (0xFFFF : BitVec 32).toNat = 2 ^ 16 - 1 by rfl,
      Nat.and_two_pow_sub_one_eq_mod, Nat.shiftRight_eq_div_pow]
  have et : (tsv.setWidth 32).toNat = tsv.toNat := by rw [BitVec.toNat_setWidth, Nat.mod_eq_of_lt (by omega)]
  have h1 : (tsv.setWidth 32 = (pid >>> 16) ^^^ (pid &&& 0xFFFF)) ↔ x = 0 := by
    rw [← BitVec.toNat_inj, ep, et]
    constructor
    · intro h; show _ ^^^ _ ^^^ _ = 0; rw [← h, Nat.xor_self]
    · intro h
      have h' := congrArg (· ^^^ tsv.toNat) h
      simp only [x, Nat.xor_assoc, Nat.xor_self, Nat.xor_zero, Nat.zero_xor] at h'
      exact h'.symm
  have h2 : (tsv.setWidth 32 ^^^ ((pid >>> 16) ^^^ (pid &&& 0xFFFF)) < 8) ↔ x < 8 := by
    rw [BitVec.lt_def, BitVec.toNat_xor, ep, et, Nat.xor_comm]; rfl
  simp only [getShiny, h1, h2]

example : getShiny 0x12341234 0 = 2 ∧ getShiny 0x12341234 7 = 1 ∧ getShiny 0x12341234 8 = 0 := by decide

/-! ### C50 -/

/-- C50: for every PID exactly one form in 0..27 passes, and no other 8-bit form does. -/
theorem C50_unique (pid : BitVec 32) : ∃! form : BitVec 8, unownCheck pid form = true := by
  have hl : (unownLetter pid).toNat < 28 := by
    unfold unownLetter
    rw [BitVec.toNat_umod]
    exact Nat.mod_lt _ (by decide)
  refine ⟨(unownLetter pid).setWidth 8, ?_, ?_⟩
  · simp only [unownCheck, decide_eq_true_eq]
    apply BitVec.eq_of_toNat_eq
    rw [BitVec.toNat_setWidth, BitVec.toNat_setWidth]
    omega
  · intro f hf
    simp only [unownCheck, decide_eq_true_eq] at hf
    rw [hf]
    apply BitVec.eq_of_toNat_eq
    have := f.isLt
    rw [BitVec.toNat_setWidth, BitVec.toNat_setWidth]
    omega

/-- C50: the form is below 28 and is formed from the two lowest bits of each PID byte. -/
theorem C50_letter (pid : BitVec 32) (form : BitVec 8) (h : unownCheck pid form = true) :
    form.toNat = (64 * (pid.toNat / 2 ^ 24 % 4) + 16 * (pid.toNat / 2 ^ 16 % 4) + 4 * (pid.toNat / 2 ^ 8 % 4) +
      pid.toNat % 4) % 28 := by
  simp only [unownCheck, decide_eq_true_eq] at h
  have hf : form.toNat = (unownLetter pid).toNat := by
    rw [h, BitVec.toNat_setWidth]; have := form.isLt; omega
  rw [hf, unownLetter, BitVec.toNat_umod]
  have e : (((pid &&& 0x3000000) >>> 18) ||| ((pid &&& 0x30000) >>> 12) ||| ((pid &&& 0x300) >>> 6) ||| (pid &&& 0x3)) =
      (0#24 ++ (pid.extractLsb' 24 2 ++ pid.extractLsb' 16 2 ++ pid.extractLsb' 8 2 ++ pid.extractLsb' 0 2) : BitVec 32) := by
    apply BitVec.eq_of_getLsbD_eq
    intro i hi
    simp only [BitVec.getLsbD_or, BitVec.getLsbD_and, BitVec.getLsbD_ushiftRight, BitVec.getLsbD_append,
      BitVec.getLsbD_extractLsb']
    interval_cases i <;> simp
  have app : ∀ {n m : Nat} (x : BitVec n) (y : BitVec m), (x ++ y).toNat = 2 ^ m * x.toNat + y.toNat := by
    intro n m x y
    rw [BitVec.toNat_append, ← Nat.shiftLeft_add_eq_or_of_lt y.isLt, Nat.shiftLeft_eq, Nat.mul_comm]
  rw [e, app, app, app, app]
  simp only [BitVec.extractLsb'_toNat, Nat.shiftRight_eq_div_pow, BitVec.toNat_ofNat]
  norm_num
  ring_nf
  rfl

example : unownCheck 0x03020100 (BitVec.ofNat 8 ((64 * 3 + 16 * 2 + 4 * 1 + 0) % 28)) = true := by decide

end Verif.Gen3
