import Verif.Model.Util
import Mathlib.Tactic.IntervalCases
import Mathlib.Data.BitVec
import Mathlib.Tactic.Ring
/-
C42, C43, C44, C47: util.py integer helpers and fnv.py.
-/
namespace Verif.Util

/-! ### C42 -/

/-- byte `k` (0 = least significant) -/
def byte (v : BitVec 32) (k : Nat) : BitVec 8 := v.extractLsb' (8 * k) 8

/-- C42: the result consists of the same four bytes in reverse order. -/
theorem C42_endian_reverses (v : BitVec 32) : ∀ k, k < 4 → byte (changeEndian v) k = byte v (3 - k) := by
  intro k hk
  apply BitVec.eq_of_getLsbD_eq
  intro i hi
  simp only [byte, changeEndian, BitVec.getLsbD_extractLsb', BitVec.getLsbD_or, BitVec.getLsbD_shiftLeft,
    BitVec.getLsbD_ushiftRight, BitVec.getLsbD_and]
  interval_cases k <;> interval_cases i <;> simp

/-- C42: swapping twice gives the value back. -/
theorem C42_endian_involutive (v : BitVec 32) : changeEndian (changeEndian v) = v := by
  have ext : ∀ a b : BitVec 32, (∀ k, k < 4 → byte a k = byte b k) → a = b := by
    intro a b h
    apply BitVec.eq_of_getLsbD_eq
    intro i hi
    have := congrArg (fun x => x.getLsbD (i % 8)) (h (i / 8) (by omega))
    simp only [byte, BitVec.getLsbD_extractLsb'] at this
    rw [show 8 * (i / 8) + i % 8 = i by omega] at this
    simpa [Nat.mod_lt] using this
  apply ext
  intro k hk
  rw [C42_endian_reverses _ k hk, C42_endian_reverses _ (3 - k) (by omega), show 3 - (3 - k) = k by omega]

example : changeEndian 0x12345678 = 0x78563412 := by decide

/-! ### C43 -/

/-- `r` is `v` rotated left by `c`: bit `i` of `v` is bit `(i + c) mod w` of `r` -/
def IsRotL (v : BitVec w) (c : Nat) (r : BitVec w) : Prop := ∀ i, i < w → r.getLsbD ((i + c) % w) = v.getLsbD i

theorem isRotL_unique {v r r' : BitVec w} {c : Nat} (h : IsRotL v c r) (h' : IsRotL v c r') : r = r' := by
  apply BitVec.eq_of_getLsbD_eq
  intro j hj
  have hw : 0 < w := by omega
  have hi : (j + (w - c % w)) % w < w := Nat.mod_lt _ hw
  have e : ((j + (w - c % w)) % w + c) % w = j := by
    have hc : c % w < w := Nat.mod_lt _ hw
    rw [Nat.mod_add_mod]
    have : j + (w - c % w) + c = j + w * (c / w) + w := by
      have := Nat.mod_add_div c w
      omega
    rw [this, Nat.add_mod_right, Nat.add_mul_mod_self_left, Nat.mod_eq_of_lt hj]
  have h1 := h _ hi
  have h2 := h' _ hi
  rw [e] at h1 h2
  rw [h1, h2]

theorem rot_isRotL (v : BitVec w) (c : Nat) (hc : c ≤ w) : IsRotL v c ((v <<< c) ||| (v >>> (w - c))) := by
  intro i hi
  rw [BitVec.getLsbD_or, BitVec.getLsbD_shiftLeft, BitVec.getLsbD_ushiftRight]
  by_cases h : i + c < w
  · rw [Nat.mod_eq_of_lt h]
    simp only [h, decide_true, Bool.true_and, show ¬ (i + c < c) by omega, decide_false, Bool.not_false,
      Nat.add_sub_cancel]
    rw [show w - c + (i + c) = w + i by omega]
    simp
  · have e : (i + c) % w = i + c - w := by
      rw [Nat.mod_eq_sub_mod (by omega), Nat.mod_eq_of_lt (by omega)]
    rw [e, show w - c + (i + c - w) = i by omega]
    by_cases hcw : c = w
    · subst hcw; simp [show i < c by omega]
    · simp [show i + c - w < c by omega]

theorem rotR_isRotL (v : BitVec w) (c : Nat) (hc : c ≤ w) : IsRotL ((v <<< (w - c)) ||| (v >>> c)) c v := by
  have h := rot_isRotL v (w - c) (by omega)
  rw [show w - (w - c) = c by omega] at h
  intro i hi
  have h1 := h ((i + c) % w) (Nat.mod_lt _ (by omega))
  rw [Nat.mod_add_mod, show i + c + (w - c) = i + w by omega, Nat.add_mod_right, Nat.mod_eq_of_lt hi] at h1
  exact h1.symm

theorem subCount_eq (mode : Mode) (width c : Nat) (hw : width < 256) (hc : c ≤ width) :
    subCount mode width c = width - c := by
  cases mode <;> simp only [subCount] <;> omega

theorem shl_numpy (v : BitVec w) (c : Nat) : shl .numpy v c = some (v <<< c) := by
  unfold shl
  split
  · rfl
  · simp only [Option.some.injEq]; exact (BitVec.shiftLeft_eq_zero (by omega)).symm

theorem shr_numpy (v : BitVec w) (c : Nat) : shr .numpy v c = some (v >>> c) := by
  unfold shr
  split
  · rfl
  · simp only [Option.some.injEq]; exact (BitVec.ushiftRight_eq_zero (by omega)).symm

theorem trunc_rot (v : BitVec 32) (a b : Nat) :
    ((v.setWidth 64 <<< a) ||| (v.setWidth 64 >>> b)).setWidth 32 = (v <<< a) ||| (v >>> b) := by
  apply BitVec.eq_of_getLsbD_eq
  intro i hi
  simp only [BitVec.getLsbD_setWidth, BitVec.getLsbD_or, BitVec.getLsbD_shiftLeft, BitVec.getLsbD_ushiftRight, hi,
    decide_true, Bool.true_and]
  congr 1
  · by_cases h : i < a
    · simp [h]
    · simp [h, show i < 64 by omega, show i - a < 64 by omega]
  · by_cases h : b + i < 64
    · simp [h]
    · simp only [h, decide_false, Bool.false_and]
      exact (BitVec.getLsbD_of_ge v _ (by omega)).symm

theorem rotateLeft32_eq (mode : Mode) (v : BitVec 32) (c : Nat) (hc : c ≤ 32) :
    rotateLeft32 mode v c = some ((v <<< c) ||| (v >>> (32 - c))) := by
  have h1 : c % 256 = c := Nat.mod_eq_of_lt (by omega)
  cases mode with
  | numba =>
    simp only [rotateLeft32, h1, subCount_eq _ 32 c (by omega) hc, shl, shr, if_pos (show c < 64 by omega),
      if_pos (show 32 - c < 64 by omega), orOpt, Option.map_some, trunc_rot]
  | numpy =>
    simp only [rotateLeft32, h1, subCount_eq _ 32 c (by omega) hc, shl_numpy, shr_numpy, orOpt]

theorem rotateRight32_eq (mode : Mode) (v : BitVec 32) (c : Nat) (hc : c ≤ 32) :
    rotateRight32 mode v c = some ((v <<< (32 - c)) ||| (v >>> c)) := by
  have h1 : c % 256 = c := Nat.mod_eq_of_lt (by omega)
  cases mode with
  | numba =>
    simp only [rotateRight32, h1, subCount_eq _ 32 c (by omega) hc, shl, shr, if_pos (show c < 64 by omega),
      if_pos (show 32 - c < 64 by omega), orOpt, Option.map_some, trunc_rot]
  | numpy =>
    simp only [rotateRight32, h1, subCount_eq _ 32 c (by omega) hc, shl_numpy, shr_numpy, orOpt]

theorem rotateLeft64_eq (mode : Mode) (v : BitVec 64) (c : Nat) (hc : c ≤ 64) (h : mode = .numpy ∨ (0 < c ∧ c < 64)) :
    rotateLeft64 mode v c = some ((v <<< c) ||| (v >>> (64 - c))) := by
  have h1 : c % 256 = c := Nat.mod_eq_of_lt (by omega)
  cases mode with
  | numba =>
    rcases h with h | h
    · cases h
    · simp only [rotateLeft64, h1, subCount_eq _ 64 c (by omega) hc, shl, shr, if_pos h.2,
        if_pos (show 64 - c < 64 by omega), orOpt]
  | numpy => simp only [rotateLeft64, h1, subCount_eq _ 64 c (by omega) hc, shl_numpy, shr_numpy, orOpt]

theorem rotateRight64_eq (mode : Mode) (v : BitVec 64) (c : Nat) (hc : c ≤ 64) (h : mode = .numpy ∨ (0 < c ∧ c < 64)) :
    rotateRight64 mode v c = some ((v <<< (64 - c)) ||| (v >>> c)) := by
  have h1 : c % 256 = c := Nat.mod_eq_of_lt (by omega)
  cases mode with
  | numba =>
    rcases h with h | h
    · cases h
    · simp only [rotateRight64, h1, subCount_eq _ 64 c (by omega) hc, shl, shr, if_pos h.2,
        if_pos (show 64 - c < 64 by omega), orOpt]
  | numpy => simp only [rotateRight64, h1, subCount_eq _ 64 c (by omega) hc, shl_numpy, shr_numpy, orOpt]

/-- C43 (32-bit): both functions are rotations for every count 0..32, in both modes, and inverse to each other. -/
theorem C43_rotate32 (mode : Mode) (v : BitVec 32) (c : Nat) (hc : c ≤ 32) :
    ∃ l r, rotateLeft32 mode v c = some l ∧ rotateRight32 mode v c = some r ∧ IsRotL v c l ∧ IsRotL r c v ∧
      rotateRight32 mode l c = some v ∧ rotateLeft32 mode r c = some v := by
  refine ⟨_, _, rotateLeft32_eq mode v c hc, rotateRight32_eq mode v c hc, rot_isRotL v c hc, rotR_isRotL v c hc, ?_, ?_⟩
  · rw [rotateRight32_eq mode _ c hc]
    congr 1
    -- rotating right then left gives the left rotation of v; invert
    have h := rotR_isRotL ((v <<< c) ||| (v >>> (32 - c))) c hc
    have h2 := rot_isRotL v c hc
    apply BitVec.eq_of_getLsbD_eq
    intro i hi
    rw [← h i hi, h2 i hi]
  · rw [rotateLeft32_eq mode _ c hc]
    congr 1
    exact isRotL_unique (rot_isRotL _ c hc) (rotR_isRotL v c hc)

/-- Full C43 for the 64-bit functions, including the end points 0 and 64. False under numba, see below. -/
def C43_rotate64_full : Prop := ∀ (mode : Mode) (v : BitVec 64) (c : Nat), c ≤ 64 →
  ∃ l r, rotateLeft64 mode v c = some l ∧ rotateRight64 mode v c = some r ∧ IsRotL v c l ∧ IsRotL r c v

/-- C43 (64-bit): rotations, inverse to each other, for 0 < count < 64; with numpy scalars also for 0 and 64.
Missing: counts 0 and 64 under numba, where the code shifts a 64-bit value by 64. -/
theorem C43_rotate64_partial (mode : Mode) (v : BitVec 64) (c : Nat) (hc : c ≤ 64)
    (h : mode = .numpy ∨ (0 < c ∧ c < 64)) :
    ∃ l r, rotateLeft64 mode v c = some l ∧ rotateRight64 mode v c = some r ∧ IsRotL v c l ∧ IsRotL r c v ∧
      rotateRight64 mode l c = some v ∧ rotateLeft64 mode r c = some v := by
  refine ⟨_, _, rotateLeft64_eq mode v c hc h, rotateRight64_eq mode v c hc h, rot_isRotL v c hc, rotR_isRotL v c hc,
    ?_, ?_⟩
  · rw [rotateRight64_eq mode _ c hc h]
    congr 1
    have h := rotR_isRotL ((v <<< c) ||| (v >>> (64 - c))) c hc
    have h2 := rot_isRotL v c hc
    apply BitVec.eq_of_getLsbD_eq
    intro i hi
    rw [← h i hi, h2 i hi]
  · rw [rotateLeft64_eq mode _ c hc h]
    congr 1
    exact isRotL_unique (rot_isRotL _ c hc) (rotR_isRotL v c hc)

/-- C43, 64-bit end points under numba: the result is not defined (LLVM shift by the full width). -/
theorem C43_rotate64_undefined (v : BitVec 64) : rotateLeft64 .numba v 0 = none ∧ rotateLeft64 .numba v 64 = none ∧
    rotateRight64 .numba v 0 = none ∧ rotateRight64 .numba v 64 = none := by
  refine ⟨?_, ?_, ?_, ?_⟩ <;> rfl

theorem C43_rotate64_full_false : ¬ C43_rotate64_full := by
  intro h
  obtain ⟨l, r, h1, -⟩ := h .numba 0 0 (by omega)
  rw [(C43_rotate64_undefined 0).1] at h1
  cases h1

example : (Mode.numba = .numpy ∨ (0 < 24 ∧ 24 < 64)) := .inr (by omega)
example : rotateLeft32 .numba 0x80000001 4 = some 0x18 := by decide

/-! ### C44 -/

/-- value of an upper-case hexadecimal digit -/
def hexVal (c : Char) : Option Nat :=
  if '0' ≤ c ∧ c ≤ '9' then some (c.toNat - '0'.toNat) else if 'A' ≤ c ∧ c ≤ 'F' then some (c.toNat - 'A'.toNat + 10)
  else none

/-- value of a string of hexadecimal digits, most significant first; `none` if some character is no upper-case digit -/
def parseHex (l : List Char) : Option Nat := l.foldlM (fun acc c => (hexVal c).map (acc * 16 + ·)) 0

theorem parse_lookup : ∀ i, i < 256 → ∃ a b x y, hexLookup i = [a, b] ∧ hexVal a = some x ∧ hexVal b = some y ∧
    x * 16 + y = i := by
  intro i hi
  have key : ∀ d, d < 16 → hexVal (if d < 10 then Char.ofNat (48 + d) else Char.ofNat (55 + d)) = some d := by decide
  refine ⟨_, _, i / 16, i % 16, rfl, key _ (by omega), key _ (by omega), by omega⟩

/-- C44: always eight upper-case hexadecimal digits, which denote the number. -/
theorem C44_hex_roundtrip (n : BitVec 32) :
    (hex32 n).length = 8 ∧ (∀ c ∈ hex32 n, (hexVal c).isSome) ∧ parseHex (hex32 n) = some n.toNat := by
  have h3 : (n >>> 24).toNat = n.toNat / 2 ^ 24 := by rw [BitVec.toNat_ushiftRight, Nat.shiftRight_eq_div_pow]
  have hm : ∀ v : BitVec 32, (v &&& 0xFF).toNat = v.toNat % 256 := by
    intro v
    rw [BitVec.toNat_and]
    exact Nat.and_two_pow_sub_one_eq_mod v.toNat 8
  have h2 : ((n >>> 16) &&& 0xFF).toNat = n.toNat / 2 ^ 16 % 256 := by
    rw [hm, BitVec.toNat_ushiftRight, Nat.shiftRight_eq_div_pow]
  have h1 : ((n >>> 8) &&& 0xFF).toNat = n.toNat / 2 ^ 8 % 256 := by
    rw [hm, BitVec.toNat_ushiftRight, Nat.shiftRight_eq_div_pow]
  have hlt := n.isLt
  obtain ⟨a1, b1, x1, y1, e1, p1, q1, s1⟩ := parse_lookup (n.toNat / 2 ^ 24) (by omega)
  obtain ⟨a2, b2, x2, y2, e2, p2, q2, s2⟩ := parse_lookup (n.toNat / 2 ^ 16 % 256) (by omega)
  obtain ⟨a3, b3, x3, y3, e3, p3, q3, s3⟩ := parse_lookup (n.toNat / 2 ^ 8 % 256) (by omega)
  obtain ⟨a4, b4, x4, y4, e4, p4, q4, s4⟩ := parse_lookup (n.toNat % 256) (by omega)
  have e : hex32 n = [a1, b1, a2, b2, a3, b3, a4, b4] := by
    rw [hex32, h3, h2, h1, hm, e1, e2, e3, e4]; rfl
  refine ⟨by rw [e]; rfl, ?_, ?_⟩
  · rw [e]
    intro c hc
    simp only [List.mem_cons, List.not_mem_nil, or_false] at hc
    rcases hc with rfl | rfl | rfl | rfl | rfl | rfl | rfl | rfl <;> simp [*]
  · rw [e]
    simp only [parseHex, List.foldlM, p1, q1, p2, q2, p3, q3, p4, q4, Option.map_some, Option.bind_eq_bind,
      Option.bind_some, Option.pure_def]
    congr 1
    omega

example : hex32 0x00C0FFEE = "00C0FFEE".toList := by decide

/-! ### C47 -/

/-- C47: the FNV-1 recurrence over the code points, from the offset basis of the code. -/
theorem C47_fnv1_rec (s : List (BitVec 64)) (c : BitVec 64) :
    fnv1 [] = 0xCBF29CE484222645 ∧ fnv1 (s ++ [c]) = (fnv1 s * BitVec.ofNat 64 (2 ^ 40 + 435)) ^^^ c := by
  refine ⟨rfl, ?_⟩
  rw [fnv1, List.foldl_append]; rfl

/-- C47: the FNV-1a recurrence. -/
theorem C47_fnv1a_rec (s : List (BitVec 64)) (c : BitVec 64) :
    fnv1a [] = 0xCBF29CE484222645 ∧ fnv1a (s ++ [c]) = (fnv1a s ^^^ c) * BitVec.ofNat 64 (2 ^ 40 + 435) := by
  refine ⟨rfl, ?_⟩
  rw [fnv1a, List.foldl_append]; rfl

theorem prime_inj (a b : BitVec 64) (h : a * 0x00000100000001B3 = b * 0x00000100000001B3) : a = b := by
  have h2 := congrArg (· * (0xCE965057AFF6957B : BitVec 64)) h
  have e : (0x00000100000001B3 : BitVec 64) * 0xCE965057AFF6957B = 1 := by decide
  simp only [mul_assoc, e, mul_one] at h2
  exact h2

theorem xor_inj_left (a b c : BitVec 64) (h : a ^^^ c = b ^^^ c) : a = b := by
  have := congrArg (· ^^^ c) h
  simpa [BitVec.xor_assoc] using this

theorem xor_inj_right (a b c : BitVec 64) (h : c ^^^ a = c ^^^ b) : a = b := by
  rw [BitVec.xor_comm c a, BitVec.xor_comm c b] at h
  exact xor_inj_left _ _ _ h

theorem foldl_inj {f : BitVec 64 → BitVec 64 → BitVec 64} (hf : ∀ a b c, f a c = f b c → a = b) (l : List (BitVec 64)) :
    ∀ a b, l.foldl f a = l.foldl f b → a = b := by
  induction l with
  | nil => intro a b h; exact h
  | cons c l ih => intro a b h; exact hf a b c (ih _ _ h)

/-- C47: strings that differ in exactly one position have different FNV-1 hashes. -/
theorem C47_fnv1_one_position (s t : List (BitVec 64)) (c d : BitVec 64) (h : c ≠ d) :
    fnv1 (s ++ c :: t) ≠ fnv1 (s ++ d :: t) := by
  intro h'
  simp only [fnv1, List.foldl_append, List.foldl_cons] at h'
  have := foldl_inj (f := fun h c => (h * 0x00000100000001B3) ^^^ c)
    (fun a b c h => prime_inj a b (xor_inj_left _ _ c h)) t _ _ h'
  exact h (xor_inj_right _ _ _ this)

/-- C47: strings that differ in exactly one position have different FNV-1a hashes. -/
theorem C47_fnv1a_one_position (s t : List (BitVec 64)) (c d : BitVec 64) (h : c ≠ d) :
    fnv1a (s ++ c :: t) ≠ fnv1a (s ++ d :: t) := by
  intro h'
  simp only [fnv1a, List.foldl_append, List.foldl_cons] at h'
  have := foldl_inj (f := fun h c => (h ^^^ c) * 0x00000100000001B3)
    (fun a b c h => xor_inj_left _ _ c (prime_inj _ _ h)) t _ _ h'
  exact h (xor_inj_right _ _ _ (prime_inj _ _ this))

example : (97 : BitVec 64) ≠ 98 := by decide

end Verif.Util
