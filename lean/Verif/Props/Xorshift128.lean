import Verif.Model.Xorshift128
import Verif.Lemmas.Fp
import Mathlib.Tactic.IntervalCases
/-
C27, C28, C29 and the Xorshift128 part of C12; C73: the two execution modes agree.
-/
namespace Verif.Xorshift128

theorem c32_setWidth (x : BitVec 64) : (c32 x).setWidth 32 = x.setWidth 32 := by
  unfold c32; rw [BitVec.setWidth_setWidth_of_le _ (by omega)]; simp

theorem c32_shr (x : BitVec 64) (n : Nat) : (c32 x >>> n).setWidth 32 = x.setWidth 32 >>> n := by
  apply BitVec.eq_of_getLsbD_eq
  intro i hi
  simp only [c32, BitVec.getLsbD_setWidth, BitVec.getLsbD_ushiftRight, hi, decide_true, Bool.true_and]
  by_cases h : n + i < 32
  · simp [h, show n + i < 64 by omega]
  · simp [h]

theorem c32_shl (x : BitVec 64) (n : Nat) : (c32 x <<< n).setWidth 32 = x.setWidth 32 <<< n := by
  apply BitVec.eq_of_getLsbD_eq
  intro i hi
  simp only [c32, BitVec.getLsbD_setWidth, BitVec.getLsbD_shiftLeft, hi, decide_true, Bool.true_and]
  simp [show i < 64 by omega, show i - n < 64 by omega, show i - n < 32 by omega]

theorem set_set (x : BitVec 32) : (x.setWidth 64).setWidth 32 = x := by
  rw [BitVec.setWidth_setWidth_of_le _ (by omega)]; simp

theorem nextWord_mode (s : State) : nextWord .numba s = nextWord .numpy s := by
  simp only [nextWord, BitVec.setWidth_xor, c32_shr, c32_shl, c32_setWidth, set_set]

theorem prevWord_mode (s : State) : prevWord .numba s = prevWord .numpy s := by
  simp only [prevWord, BitVec.setWidth_xor, c32_shr, c32_shl, c32_setWidth, set_set]

/-- C73 (Xorshift128): `next` and `previous` behave the same with and without numba. -/
theorem C73_xorshift_modes (s : State) : next .numba s = next .numpy s ∧ previous .numba s = previous .numpy s := by
  simp only [next, previous, nextWord_mode, prevWord_mode, and_self]

theorem nextWord_any (mode : Mode) (s : State) : nextWord mode s = nextWord .numpy s := by
  cases mode
  · exact nextWord_mode s
  · rfl

theorem prevWord_any (mode : Mode) (s : State) : prevWord mode s = prevWord .numpy s := by
  cases mode
  · exact prevWord_mode s
  · rfl

/-- the three invertible pieces of a step -/
def fA (x : BitVec 32) : BitVec 32 := x ^^^ (x <<< 11)
def fAinv (x : BitVec 32) : BitVec 32 := (x ^^^ (x <<< 11)) ^^^ ((x ^^^ (x <<< 11)) <<< 22)
def fB (x : BitVec 32) : BitVec 32 := x ^^^ (x >>> 8)
def fBinv (x : BitVec 32) : BitVec 32 := (x ^^^ (x >>> 8)) ^^^ ((x ^^^ (x >>> 8)) >>> 16)
def fT (x : BitVec 32) : BitVec 32 := x ^^^ (x >>> 19)

theorem nextWord_eq (mode : Mode) (s : State) : nextWord mode s = fB (fA s.s0) ^^^ fT s.s3 := by
  rw [nextWord_any]; rfl

theorem prevWord_eq (mode : Mode) (s : State) : prevWord mode s = fAinv (fBinv (s.s3 ^^^ fT s.s2)) := by
  rw [prevWord_any]; rfl

theorem fBinv_fB (x : BitVec 32) : fBinv (fB x) = x := by
  apply BitVec.eq_of_getLsbD_eq
  intro i hi
  simp only [fB, fBinv, BitVec.getLsbD_xor, BitVec.getLsbD_ushiftRight]
  interval_cases i <;> simp

theorem fB_fBinv (x : BitVec 32) : fB (fBinv x) = x := by
  apply BitVec.eq_of_getLsbD_eq
  intro i hi
  simp only [fB, fBinv, BitVec.getLsbD_xor, BitVec.getLsbD_ushiftRight]
  interval_cases i <;> simp

theorem fAinv_fA (x : BitVec 32) : fAinv (fA x) = x := by
  apply BitVec.eq_of_getLsbD_eq
  intro i hi
  simp only [fA, fAinv, BitVec.getLsbD_xor, BitVec.getLsbD_shiftLeft]
  interval_cases i <;> simp

theorem fA_fAinv (x : BitVec 32) : fA (fAinv x) = x := by
  apply BitVec.eq_of_getLsbD_eq
  intro i hi
  simp only [fA, fAinv, BitVec.getLsbD_xor, BitVec.getLsbD_shiftLeft]
  interval_cases i <;> simp

theorem xor_cancel (a b : BitVec w) : (a ^^^ b) ^^^ b = a := by simp [BitVec.xor_assoc]

theorem previous_next (mode : Mode) (s : State) : previous mode (next mode s).1 = (s, (next mode s).2) := by
  have h : prevWord mode (next mode s).1 = s.s0 := by
    rw [prevWord_eq]
    simp only [next, nextWord_eq]
    rw [xor_cancel, fBinv_fB, fAinv_fA]
  simp only [previous, h]
  rfl

theorem next_previous (mode : Mode) (s : State) : next mode (previous mode s).1 = (s, (previous mode s).2) := by
  have h : nextWord mode (previous mode s).1 = s.s3 := by
    rw [nextWord_eq]
    simp only [previous, prevWord_eq]
    rw [fA_fAinv, fB_fBinv, xor_cancel]
  simp only [next, h]
  rfl

/-- the values returned by `n` successive calls of `f`, and the final state -/
def runN (f : State → State × BitVec 32) : Nat → State → State × List (BitVec 32)
  | 0, s => (s, [])
  | n + 1, s => ((runN f n (f s).1).1, (f s).2 :: (runN f n (f s).1).2)

theorem runN_snoc (f : State → State × BitVec 32) (n : Nat) (s : State) :
    runN f (n + 1) s = ((f (runN f n s).1).1, (runN f n s).2 ++ [(f (runN f n s).1).2]) := by
  induction n generalizing s with
  | zero => rfl
  | succ n ih =>
    rw [runN, ih]
    rfl

theorem walk (f g : State → State × BitVec 32) (h : ∀ s, g (f s).1 = (s, (f s).2)) (n : Nat) (s : State) :
    runN g n (runN f n s).1 = (s, (runN f n s).2.reverse) := by
  induction n generalizing s with
  | zero => rfl
  | succ n ih =>
    rw [runN_snoc f, runN]
    simp only [h, ih, List.reverse_append, List.reverse_cons, List.reverse_nil, List.nil_append, List.cons_append]

/-- C27: `n` calls of `next()` and then `n` of `previous()` restore the state and replay the outputs backwards. -/
theorem C27_next_previous (mode : Mode) (n : Nat) (s : State) :
    runN (previous mode) n (runN (next mode) n s).1 = (s, (runN (next mode) n s).2.reverse) :=
  walk _ _ (previous_next mode) n s

/-- C27: the same with the roles exchanged. -/
theorem C27_previous_next (mode : Mode) (n : Nat) (s : State) :
    runN (next mode) n (runN (previous mode) n s).1 = (s, (runN (previous mode) n s).2.reverse) :=
  walk _ _ (next_previous mode) n s

example : (runN (next .numba) 3 { s0 := 1, s1 := 2, s2 := 3, s3 := 4 }).2 = [2061, 6175, 4] := by decide

/-- C27: `advance(n)` is `n` discarded calls of `next()`. -/
theorem C27_advance (mode : Mode) (n : Nat) (s : State) : advance mode s n = (runN (next mode) n s).1 := by
  induction n generalizing s with
  | zero => rfl
  | succ n ih => rw [advance, Function.iterate_succ_apply]; exact ih _

/-- The reference Xorshift128 recurrence (Marsaglia 2003, shifts 11, 8, 19) on the output sequence:
`x(k+4) = (x(k) ^ x(k) << 11) ^ ((x(k) ^ x(k) << 11) >> 8) ^ x(k+3) ^ x(k+3) >> 19`. -/
def IsXorshift (x : Nat → BitVec 32) : Prop := ∀ k,
  let t := x k ^^^ (x k <<< 11)
  x (k + 4) = x (k + 3) ^^^ (x (k + 3) >>> 19) ^^^ t ^^^ (t >>> 8)

/-- C74: the outputs are the Xorshift128 sequence started from the four seed words. -/
theorem C74_xorshift (mode : Mode) (x : Nat → BitVec 32) (hx : IsXorshift x) (junk : State) (n : Nat) :
    (next mode (advance mode (new junk (x 0) (x 1) (x 2) (x 3)) n)).2 = x (n + 4) := by
  have h : ∀ n, advance mode (new junk (x 0) (x 1) (x 2) (x 3)) n =
      { s0 := x n, s1 := x (n + 1), s2 := x (n + 2), s3 := x (n + 3) } := by
    intro n
    induction n with
    | zero => rfl
    | succ n ih =>
      rw [advance] at ih ⊢
      rw [Function.iterate_succ_apply', ih]
      simp only [next, nextWord_eq, State.mk.injEq, true_and]
      rw [hx n, fA, fB, fT]
      ac_rfl
  rw [h n]
  simp only [next, nextWord_eq]
  rw [hx n, fA, fB, fT]
  ac_rfl

/-! ### C28 -/

theorem pyMod_pos (mode : Mode) (a b : BitVec w) (h : b ≠ 0) : pyMod mode a b = .ok (a % b) := by
  unfold pyMod; rw [if_neg h]

/-- C28: `next_rand(maximum)` is the draw modulo `maximum`, below `maximum`, one draw consumed. -/
theorem C28_next_rand (mode : Mode) (s : State) (maximum : BitVec 32) (h : maximum ≠ 0) :
    ∃ v, nextRand mode s maximum = ((next mode s).1, .ok v) ∧ v.toNat = (next mode s).2.toNat % maximum.toNat ∧
      v.toNat < maximum.toNat := by
  refine ⟨_, by rw [nextRand, pyMod_pos _ _ _ h], BitVec.toNat_umod, ?_⟩
  rw [BitVec.toNat_umod]
  apply Nat.mod_lt
  have : maximum.toNat ≠ 0 := fun h' => h (BitVec.eq_of_toNat_eq (by simpa using h'))
  omega

theorem sext_set (x : BitVec 32) : (x.signExtend 64).setWidth 32 = x := by
  apply BitVec.eq_of_getLsbD_eq
  intro i hi
  rw [BitVec.getLsbD_setWidth, BitVec.getLsbD_signExtend]
  simp [hi, show i < 64 by omega]

theorem sext_sub (a b : BitVec 32) : (a.signExtend 64 - b.signExtend 64).setWidth 32 = a - b := by
  rw [BitVec.sub_eq_add_neg, BitVec.setWidth_add _ _ (by omega), BitVec.setWidth_neg_of_le (by omega), sext_set, sext_set,
    BitVec.sub_eq_add_neg]

theorem add_sext (a b : BitVec 32) : (a.setWidth 64 + b.signExtend 64).setWidth 32 = a + b := by
  rw [BitVec.setWidth_add _ _ (by omega), sext_set, set_set]

/-- C28: `next_randrange(minimum, maximum)` with bounds read as signed 32-bit numbers: the result, read as a signed number,
is `minimum + draw mod (maximum - minimum)`, hence in `[minimum, maximum)`; one draw consumed. -/
theorem C28_next_randrange (mode : Mode) (s : State) (minimum maximum : BitVec 32) (h : minimum.toInt < maximum.toInt) :
    ∃ v, nextRandrange mode s minimum maximum = ((next mode s).1, .ok v) ∧
      v.toInt = minimum.toInt + ((next mode s).2.toNat : Int) % (maximum.toInt - minimum.toInt) ∧
      minimum.toInt ≤ v.toInt ∧ v.toInt < maximum.toInt := by
  have hr := (next mode s).2.isLt
  have l1 := minimum.isLt
  have l2 := maximum.isLt
  have hd : ((maximum - minimum).toNat : Int) = maximum.toInt - minimum.toInt := by
    rw [BitVec.toInt_eq_toNat_cond, BitVec.toInt_eq_toNat_cond] at h ⊢
    rw [BitVec.toNat_sub]
    split at h <;> split at h <;> omega
  have hne : maximum - minimum ≠ 0 := by
    intro h'
    rw [h'] at hd
    simp only [BitVec.ofNat_eq_ofNat, BitVec.toNat_ofNat, Nat.zero_mod] at hd
    omega
  have hm : ((next mode s).2 % (maximum - minimum)).toNat < (maximum - minimum).toNat := by
    rw [BitVec.toNat_umod]
    exact Nat.mod_lt _ (by omega)
  have hv : ((next mode s).2 % (maximum - minimum) + minimum).toInt =
      minimum.toInt + (((next mode s).2 % (maximum - minimum)).toNat : Int) := by
    generalize hq : (next mode s).2 % (maximum - minimum) = q at hm ⊢
    rw [BitVec.toInt_eq_toNat_cond minimum, BitVec.toInt_eq_toNat_cond maximum] at h hd
    rw [BitVec.toInt_eq_toNat_cond minimum, BitVec.toInt_eq_toNat_cond (q + minimum)]
    rw [BitVec.toNat_add]
    split at h <;> split at h <;> split <;> omega
  refine ⟨(next mode s).2 % (maximum - minimum) + minimum, ?_, ?_, ?_, ?_⟩
  · simp only [nextRandrange, sext_sub, pyMod_pos _ _ _ hne, Except.map, add_sext]
  · rw [hv, BitVec.toNat_umod, Int.natCast_emod, hd]
  · omega
  · omega

/-- C28: an empty range (`minimum = maximum`) is a division by zero. -/
theorem C28_next_randrange_empty (s : State) (m : BitVec 32) :
    (nextRandrange .numba s m m).2 = .error .zeroDivision ∧ (nextRandrange .numpy s m m).2 = .ok m := by
  have e : ∀ mode, pyMod mode (next mode s).2 (m - m) = (match mode with | .numba => .error .zeroDivision | .numpy => .ok 0) := by
    intro mode
    rw [BitVec.sub_self]
    unfold pyMod
    exact if_pos rfl
  simp only [nextRandrange, sext_sub, e]
  refine ⟨rfl, ?_⟩
  simp only [Except.map, add_sext, BitVec.ofNat_eq_ofNat, BitVec.zero_add]

/-- C28: `next_alternate_rand(maximum)` in terms of one draw: `draw mod (2^32 - 1)` shifted by 2^31 (mod 2^32), then
reduced modulo `maximum`; below `maximum`. -/
theorem C28_next_alternate_rand (mode : Mode) (s : State) (maximum : BitVec 32) (h : maximum ≠ 0) :
    ∃ v, nextAlternateRand mode s maximum = ((next mode s).1, .ok v) ∧
      v.toNat = ((next mode s).2.toNat % (2 ^ 32 - 1) + 2 ^ 31) % 2 ^ 32 % maximum.toNat ∧ v.toNat < maximum.toNat := by
  have hmax : maximum.toNat ≠ 0 := fun h' => h (BitVec.eq_of_toNat_eq (by simpa using h'))
  have e : (nextRandrange mode s 0x80000000 0x7FFFFFFF) =
      ((next mode s).1, .ok ((next mode s).2 % 0xFFFFFFFF + 0x80000000)) := by
    simp only [nextRandrange, sext_sub]
    rw [show ((0x7FFFFFFF : BitVec 32) - 0x80000000) = 0xFFFFFFFF by decide, pyMod_pos _ _ _ (by decide)]
    simp only [Except.map, add_sext]
  have e2 : ((-0x7FFFFFFF#32).signExtend 64 - (1#32).setWidth 64).setWidth 32 = (0x80000000 : BitVec 32) := by decide
  refine ⟨((next mode s).2 % 0xFFFFFFFF + 0x80000000) % maximum, ?_, ?_, ?_⟩
  · simp only [nextAlternateRand, e2, e, Except.bind, pyMod_pos _ _ _ h]
  · rw [BitVec.toNat_umod, BitVec.toNat_add, BitVec.toNat_umod]
    rfl
  · rw [BitVec.toNat_umod]
    exact Nat.mod_lt _ (by omega)

example : (BitVec.ofInt 32 (-5)).toInt < (BitVec.ofInt 32 7).toInt := by decide
-- across zero and over the full span
example : (nextRandrange .numba { s0 := 1, s1 := 2, s2 := 3, s3 := 4 } (BitVec.ofInt 32 (-5)) 7).2 =
    .ok (BitVec.ofInt 32 4) := by decide

/-! ### C29 -/

/-- Full C29: every draw lies in `[minimum, maximum)`. False: a draw with 23 zero low bits gives `maximum`. -/
def C29_full : Prop := ∀ (mode : Mode) (s : State) (lo hi : ℚ), Fp.IsFp 24 lo → Fp.IsFp 24 hi → lo < hi →
  lo ≤ (nextFloatRandrange mode s lo hi).2 ∧ (nextFloatRandrange mode s lo hi).2 < hi

theorem isFp_one (p : ℕ) : Fp.IsFp p 1 := ⟨1, 0, by simp; exact one_le_pow₀ (by norm_num), by simp⟩

/-- C29: whenever the low 23 bits of the draw are zero, the value returned is `maximum` itself. -/
theorem C29_maximum_reached (mode : Mode) (s : State) (lo hi : ℚ) (hhi : Fp.IsFp 24 hi)
    (h : (next mode s).2 &&& 0x7FFFFF = 0) : (nextFloatRandrange mode s lo hi).2 = hi := by
  have h1 : Fp.rnd 53 1 = 1 := Fp.rnd_fix (by omega) (isFp_one _)
  have h2 : Fp.rnd 53 hi = hi := Fp.rnd_fix (by omega) (Fp.isFp_mono (by omega) hhi)
  simp only [nextFloatRandrange, h]
  simp [Fp.rnd_zero, h1, h2]

/-- C29: whenever the low 23 bits are all ones, the value returned is `minimum`. -/
theorem C29_minimum_reached (mode : Mode) (s : State) (lo hi : ℚ) (hlo : Fp.IsFp 24 lo)
    (h : (next mode s).2 &&& 0x7FFFFF = 0x7FFFFF) : (nextFloatRandrange mode s lo hi).2 = lo := by
  have h1 : Fp.rnd 24 1 = 1 := Fp.rnd_fix (by omega) (isFp_one _)
  have h2 : Fp.rnd 24 lo = lo := Fp.rnd_fix (by omega) hlo
  have h3 : Fp.rnd 53 lo = lo := Fp.rnd_fix (by omega) (Fp.isFp_mono (by omega) hlo)
  simp only [nextFloatRandrange, h]
  have e : (((0x7FFFFF : BitVec 32).toNat : ℚ) / 0x7FFFFF) = 1 := by
    rw [show (0x7FFFFF : BitVec 32).toNat = 0x7FFFFF by decide]; norm_num
  rw [e, h1]
  simp [Fp.rnd_zero, h2, h3]

/-- the state `(0, 0, 0, 0)` draws 0 -/
theorem C29_full_false : ¬ C29_full := by
  intro h
  have h1 := (h .numba { s0 := 0, s1 := 0, s2 := 0, s3 := 0 } 0 1 ⟨0, 0, by simp, by simp⟩ (isFp_one _) (by norm_num)).2
  rw [C29_maximum_reached .numba _ 0 1 (isFp_one _) (by decide)] at h1
  exact lt_irrefl _ h1

/-- the `float32` fraction computed from draw bits `k`, and its distance from `0` and `1` -/
theorem frac_bounds (k : ℕ) (hk : k ≤ 0x7FFFFF) : 0 ≤ Fp.rnd 24 ((k : ℚ) / 0x7FFFFF) ∧ Fp.rnd 24 ((k : ℚ) / 0x7FFFFF) ≤ 1 ∧
    (k ≠ 0 → (1 / 2 ^ 23 : ℚ) ≤ Fp.rnd 24 ((k : ℚ) / 0x7FFFFF)) := by
  have hk' : (k : ℚ) ≤ 0x7FFFFF := by exact_mod_cast hk
  refine ⟨Fp.rnd_nonneg (by positivity), ?_, ?_⟩
  · have := Fp.rnd_mono (p := 24) (by omega) (x := (k : ℚ) / 0x7FFFFF) (y := 1) (by rw [div_le_one (by norm_num)]; exact hk')
    rwa [Fp.rnd_fix (by omega) (isFp_one _)] at this
  · intro h
    have h1 : (1 : ℚ) ≤ k := by exact_mod_cast Nat.one_le_iff_ne_zero.mpr h
    have hf : Fp.IsFp 24 (1 / 2 ^ 23) := ⟨1, -23, by norm_num, by norm_num⟩
    have := Fp.rnd_mono (p := 24) (by omega) (x := (1 / 2 ^ 23 : ℚ)) (y := (k : ℚ) / 0x7FFFFF)
      (by rw [le_div_iff₀ (by norm_num)]; norm_num; linarith)
    rwa [Fp.rnd_fix (by omega) hf] at this

/-- C29 for `minimum = 0` (the usual call) and every draw whose low 23 bits are not all zero: the value lies in
`[0, maximum)`. Missing from the full statement: the draws with zero low bits (false there), and the exact bounds for
`minimum ≠ 0`, where rounding of the `float32` product can leave the interval by an amount bounded in `C29_error_partial`. -/
theorem C29_zero_minimum_partial (mode : Mode) (s : State) (hi : ℚ) (hhi : Fp.IsFp 24 hi) (hpos : 0 < hi)
    (h : (next mode s).2 &&& 0x7FFFFF ≠ 0) :
    0 ≤ (nextFloatRandrange mode s 0 hi).2 ∧ (nextFloatRandrange mode s 0 hi).2 < hi := by
  simp only [nextFloatRandrange]
  generalize hk : (next mode s).2 &&& 0x7FFFFF = k at h ⊢
  have hk1 : k.toNat ≤ 0x7FFFFF := by
    rw [← hk, BitVec.toNat_and]; exact Nat.and_le_right
  have hk0 : k.toNat ≠ 0 := fun h' => h (BitVec.eq_of_toNat_eq (by simpa using h'))
  obtain ⟨f0, f1, f2⟩ := frac_bounds k.toNat hk1
  have f2 := f2 hk0
  generalize Fp.rnd 24 ((k.toNat : ℚ) / 0x7FFFFF) = f at f0 f1 f2 ⊢
  rw [mul_zero, Fp.rnd_zero, zero_add]
  have g0 : 0 ≤ Fp.rnd 53 (1 - f) := Fp.rnd_nonneg (by linarith)
  have hfix : Fp.IsFp 53 ((1 : ℚ) - 1 / 2 ^ 23) := ⟨2 ^ 23 - 1, -23, by norm_num, by norm_num⟩
  have g1 : Fp.rnd 53 (1 - f) ≤ 1 - 1 / 2 ^ 23 := by
    have := Fp.rnd_mono (p := 53) (by omega) (x := 1 - f) (y := 1 - 1 / 2 ^ 23) (by linarith)
    rwa [Fp.rnd_fix (by omega) hfix] at this
  -- (1 - 2^-23) * hi has at most 47 significant bits
  have hfix2 : Fp.IsFp 53 (((1 : ℚ) - 1 / 2 ^ 23) * hi) := by
    obtain ⟨m, e, hm, rfl⟩ := hhi
    refine ⟨(2 ^ 23 - 1) * m, e - 23, ?_, ?_⟩
    · rw [abs_mul]
      calc |(2 ^ 23 - 1 : ℤ)| * |m| ≤ |(2 ^ 23 - 1 : ℤ)| * 2 ^ 24 := by gcongr
        _ ≤ 2 ^ 53 := by norm_num
    · push_cast
      rw [zpow_sub₀ (by norm_num)]
      norm_num
      ring
  have g2 : Fp.rnd 53 (Fp.rnd 53 (1 - f) * hi) ≤ (1 - 1 / 2 ^ 23) * hi := by
    have := Fp.rnd_mono (p := 53) (by omega) (x := Fp.rnd 53 (1 - f) * hi) (y := (1 - 1 / 2 ^ 23) * hi) (by gcongr)
    rwa [Fp.rnd_fix (by omega) hfix2] at this
  have g3 : 0 ≤ Fp.rnd 53 (Fp.rnd 53 (1 - f) * hi) := Fp.rnd_nonneg (by positivity)
  have g4 : Fp.rnd 53 (Fp.rnd 53 (Fp.rnd 53 (1 - f) * hi)) = Fp.rnd 53 (Fp.rnd 53 (1 - f) * hi) :=
    Fp.rnd_fix (by omega) (Fp.rnd_isFp (by omega) _)
  rw [g4]
  refine ⟨g3, lt_of_le_of_lt g2 ?_⟩
  nlinarith

/-- C29, general bounds, with the rounding errors accounted for: for some fraction `f` in `[0, 1]`, positive unless the low
23 bits are zero, the value differs from the point `f * minimum + (1 - f) * maximum` of the interval by at most
`2^-22 * max(|minimum|, |maximum|)`. -/
theorem C29_error_partial (mode : Mode) (s : State) (lo hi M : ℚ) (hlo : |lo| ≤ M) (hhi : |hi| ≤ M) :
    ∃ f, 0 ≤ f ∧ f ≤ 1 ∧ ((next mode s).2 &&& 0x7FFFFF ≠ 0 → 1 / 2 ^ 23 ≤ f) ∧
      |(nextFloatRandrange mode s lo hi).2 - (f * lo + (1 - f) * hi)| ≤ M / 2 ^ 22 := by
  simp only [nextFloatRandrange]
  generalize hk : (next mode s).2 &&& 0x7FFFFF = k
  have hk1 : k.toNat ≤ 0x7FFFFF := by
    rw [← hk, BitVec.toNat_and]; exact Nat.and_le_right
  obtain ⟨f0, f1, f2⟩ := frac_bounds k.toNat hk1
  refine ⟨Fp.rnd 24 ((k.toNat : ℚ) / 0x7FFFFF), f0, f1, ?_, ?_⟩
  · intro h
    exact f2 (fun h' => h (BitVec.eq_of_toNat_eq (by simpa using h')))
  generalize Fp.rnd 24 ((k.toNat : ℚ) / 0x7FFFFF) = f at f0 f1 ⊢
  have hM : 0 ≤ M := le_trans (abs_nonneg _) hlo
  have a1 := Fp.rnd_err 24 (f * lo)
  have a2 := Fp.rnd_err 53 (1 - f)
  have a3 := Fp.rnd_err 53 (Fp.rnd 53 (1 - f) * hi)
  have a4 := Fp.rnd_err 53 (Fp.rnd 24 (f * lo) + Fp.rnd 53 (Fp.rnd 53 (1 - f) * hi))
  have b1 : |f * lo| ≤ M := by
    rw [abs_mul, abs_of_nonneg f0]; nlinarith [abs_nonneg lo]
  have b2 : |1 - f| ≤ 1 := by rw [abs_of_nonneg (by linarith)]; linarith
  generalize Fp.rnd 53 (1 - f) = g at a2 a3 a4 ⊢
  generalize hA : Fp.rnd 24 (f * lo) = A at a1 a4 ⊢
  generalize hB : Fp.rnd 53 (g * hi) = B at a3 a4 ⊢
  generalize hC : Fp.rnd 53 (A + B) = C at a4 ⊢
  have g1 : |g| ≤ 1 + 1 / 2 ^ 53 := by
    have := abs_add_le (g - (1 - f)) (1 - f)
    rw [sub_add_cancel] at this
    have h3 : |1 - f| / 2 ^ 53 ≤ 1 / 2 ^ 53 := by gcongr
    linarith
  have c1 : |A - f * lo| ≤ M / 2 ^ 24 := a1.trans (by gcongr)
  have gh : |g * hi| ≤ (1 + 1 / 2 ^ 53) * M := by rw [abs_mul]; gcongr
  have c3 : |B - g * hi| ≤ (1 + 1 / 2 ^ 53) * M / 2 ^ 53 := a3.trans (by gcongr)
  have c2 : |g * hi - (1 - f) * hi| ≤ M / 2 ^ 53 := by
    rw [← sub_mul, abs_mul]
    have h3 : |1 - f| / 2 ^ 53 ≤ 1 / 2 ^ 53 := by gcongr
    calc _ ≤ (1 / 2 ^ 53) * M := by gcongr; exact a2.trans h3
      _ = _ := by ring
  have d1 : |A| ≤ M + M / 2 ^ 24 := by
    have := abs_add_le (A - f * lo) (f * lo)
    rw [sub_add_cancel] at this
    linarith
  have d2 : |B| ≤ (1 + 1 / 2 ^ 53) * M + (1 + 1 / 2 ^ 53) * M / 2 ^ 53 := by
    have := abs_add_le (B - g * hi) (g * hi)
    rw [sub_add_cancel] at this
    linarith
  have c4 : |C - (A + B)| ≤ 4 * M / 2 ^ 53 := by
    refine a4.trans ?_
    gcongr
    have := abs_add_le A B
    refine this.trans ?_
    refine (add_le_add d1 d2).trans ?_
    linarith
  have tot : C - (f * lo + (1 - f) * hi) = (C - (A + B)) + (A - f * lo) + (B - g * hi) + (g * hi - (1 - f) * hi) := by ring
  rw [tot]
  have t1 := abs_add_le ((C - (A + B)) + (A - f * lo) + (B - g * hi)) (g * hi - (1 - f) * hi)
  have t2 := abs_add_le ((C - (A + B)) + (A - f * lo)) (B - g * hi)
  have t3 := abs_add_le (C - (A + B)) (A - f * lo)
  linarith

example : (next .numba { s0 := 1, s1 := 2, s2 := 3, s3 := 4 }).2 &&& 0x7FFFFF ≠ 0 := by decide
example : Fp.IsFp 24 (25 / 2) ∧ (0 : ℚ) < 25 / 2 := ⟨⟨25, -1, by norm_num, by norm_num⟩, by norm_num⟩

/-! ### C12 -/

/-- C12 (Xorshift128) -/
theorem C12_xorshift_re_init (s junk : State) (a b c d : BitVec 32) : reInit s a b c d = new junk a b c d := rfl

end Verif.Xorshift128
