import Verif.Lemmas.Lcrng
import Verif.Lemmas.MulShift
import Verif.Props.Compat
/-
C01–C10 (and the LCRNG part of C12): linear congruential generators (lcrng/*.py).
`w = 32` is lcrng32.py, `w = 64` is lcrng64.py.
-/
namespace Verif.Lcrng
open Verif.Spec

/-! ### C01 jump -/

/-- C01: `jump n` sets the seed to, and returns, the value after `n` steps `x ↦ mult*x + add (mod 2^w)`. -/
theorem C01_jump (p : Params w) (n : Nat) (seed : BitVec w) (hn : n < 2 ^ w) :
    jump p n seed = (lcgAfter w p.mult.toNat p.add.toNat n seed, .ok (lcgAfter w p.mult.toNat p.add.toNat n seed)) := by
  have h := jumpLoop_ok p (jumpTable p) w (fun i hi => jumpTable_get p i hi) n 0 seed (by simpa using hn)
  simp only [pow_zero, Nat.mul_one] at h
  rw [jump, h, lcgAfter, next_eq_lcg]

/-- C01: `next` is one such step. -/
theorem C01_next (p : Params w) (seed : BitVec w) :
    next p seed = lcgAfter w p.mult.toNat p.add.toNat 1 seed := by
  rw [lcgAfter, ← next_eq_lcg]; rfl

/-- C01: a distance that does not fit the table raises `IndexError`. -/
theorem C01_jump_too_far (p : Params w) (n : Nat) (seed : BitVec w) (hw : 0 < w) (hn : 2 ^ w ≤ n) :
    (jump p n seed).2 = .error .indexError := by
  apply jumpLoop_err _ _ _ _ (Nat.zero_le _)
  rw [jumpTable_length p hw]; simpa using hn

example : (0 : Nat) < 32 ∧ 0xFFFFFFFF < 2 ^ 32 ∧ (2 : Nat) ^ 32 ≤ 2 ^ 32 := by decide
example : jump pokeRNGParams 3 (1 : BitVec 32) = (0x67795501, .ok 0x67795501) ↔
    lcgAfter 32 0x41C64E6D 0x6073 3 (1 : BitVec 32) = 0x67795501 := by
  rw [C01_jump _ _ _ (by decide)]
  simp [pokeRNGParams]

/-! ### C02 const_jump -/

/-- C02: in range, `const_jump n` builds a function that has the effect and result of `jump n` on every seed. -/
theorem C02_const_jump (p : Params w) (n : Nat) (hn : n < 2 ^ w) :
    ∃ f, constJump p n = .ok f ∧ ∀ seed, jump p n seed = (f seed, .ok (f seed)) := by
  have hr : Reps p (0, 1) 0 := by intro x; simp
  obtain ⟨m, a, h1, h2⟩ := constJumpLoop_ok p (jumpTable p) w (fun i hi => jumpTable_get p i hi) n 0 0 1 0
    (by simpa using hn) hr
  refine ⟨fun seed => seed * m + a, by simp only [constJump, h1], fun seed => ?_⟩
  show jump p n seed = (seed * m + a, .ok (seed * m + a))
  have h3 := h2 seed
  simp only [pow_zero, Nat.mul_one, Nat.zero_add] at h3
  rw [h3, C01_jump p n seed hn, lcgAfter, ← next_eq_lcg]

/-- C02: out of range both raise (`const_jump` when building, `jump` when called). -/
theorem C02_const_jump_too_far (p : Params w) (n : Nat) (hw : 0 < w) (hn : 2 ^ w ≤ n) (seed : BitVec w) :
    constJump p n = .error .indexError ∧ (jump p n seed).2 = .error .indexError := by
  refine ⟨?_, C01_jump_too_far p n seed hw hn⟩
  have := constJumpLoop_err (jumpTable p) n 0 1 0 (Nat.zero_le _) (by
    rw [jumpTable_length p hw]; simpa using hn)
  simp only [constJump, this]

example : (0 : Nat) < 64 ∧ 0xFFFFFFFFFFFFFFFF < 2 ^ 64 := by decide

/-! ### C03 histories -/

/-- the ways a client can move a generator -/
inductive Op where | next | advance (n : Nat) | jump (n : Nat)

/-- effect of one call (a raising `jump` leaves the partially updated seed) -/
def Op.run (p : Params w) : Op → BitVec w → BitVec w
  | .next, s => Lcrng.next p s
  | .advance n, s => Lcrng.advance p n s
  | .jump n, s => (Lcrng.jump p n s).1

/-- distance moved by a call -/
def Op.dist : Op → Nat
  | .next => 1
  | .advance n => n
  | .jump n => n

/-- the argument fits the parameter type `np.uint32` / `np.uint64` -/
def Op.Fits (w : Nat) : Op → Prop
  | .next => True
  | .advance n => n < 2 ^ w
  | .jump n => n < 2 ^ w

/-- C03: `advance n` is `n` steps. -/
theorem C03_advance (p : Params w) (n : Nat) (seed : BitVec w) (hn : n < 2 ^ w) :
    advance p n seed = lcgAfter w p.mult.toNat p.add.toNat n seed := by
  rw [advance, advanceLoop_eq, BitVec.toNat_ofNat, Nat.mod_eq_of_lt hn, lcgAfter, next_eq_lcg]

theorem Op.run_eq (p : Params w) (o : Op) (ho : o.Fits w) (s : BitVec w) :
    o.run p s = lcgAfter w p.mult.toNat p.add.toNat o.dist s := by
  cases o with
  | next => exact C01_next p s
  | advance n => exact C03_advance p n s ho
  | jump n => simp only [run, dist, C01_jump p n s ho]

/-- C03: any history of `next`, `advance` and `jump` calls moves the seed by the sum of the distances. -/
theorem C03_history (p : Params w) (ops : List Op) (hops : ∀ o ∈ ops, o.Fits w) (seed : BitVec w) :
    ops.foldl (fun s o => o.run p s) seed
      = lcgAfter w p.mult.toNat p.add.toNat (ops.map Op.dist).sum seed := by
  induction ops generalizing seed with
  | nil => rfl
  | cons o os ih =>
    rw [List.foldl_cons, ih (fun o' h => hops o' (List.mem_cons_of_mem _ h)),
      Op.run_eq p o (hops o List.mem_cons_self), List.map_cons, List.sum_cons]
    simp only [lcgAfter]
    rw [← Function.iterate_add_apply, Nat.add_comm]

/-- an odd multiplier, as an equation in the ring of `w`-bit words -/
theorem odd_form (m : BitVec w) (h : m.toNat % 2 = 1) : ∃ k : BitVec w, m = 1 + 2 * k := by
  refine ⟨BitVec.ofNat w (m.toNat / 2), ?_⟩
  have h1 : m = BitVec.ofNat w m.toNat := by simp
  have h2 : m.toNat = 1 + 2 * (m.toNat / 2) := by omega
  conv_lhs => rw [h1, h2]
  rw [← BitVec.natCast_eq_ofNat, ← BitVec.natCast_eq_ofNat]; push_cast; ring

/-- C03: for an odd multiplier (all shipped classes) the same effect is obtained by one `jump` of the total distance
modulo `2^w`. -/
theorem C03_history_is_one_jump (p : Params w) (hodd : p.mult.toNat % 2 = 1) (ops : List Op)
    (hops : ∀ o ∈ ops, o.Fits w) (seed : BitVec w) :
    jump p ((ops.map Op.dist).sum % 2 ^ w) seed
      = (ops.foldl (fun s o => o.run p s) seed, .ok (ops.foldl (fun s o => o.run p s) seed)) := by
  obtain ⟨k, hk⟩ := odd_form p.mult hodd
  rw [C03_history p ops hops, C01_jump p _ seed (Nat.mod_lt _ (Nat.two_pow_pos _))]
  have : ∀ n, lcgAfter w p.mult.toNat p.add.toNat (n % 2 ^ w) seed = lcgAfter w p.mult.toNat p.add.toNat n seed := by
    intro n
    simp only [lcgAfter, ← next_eq_lcg]
    exact iterate_mod p k hk n seed
  rw [this]

example : (∀ o ∈ [Op.jump 0xFFFFFFFF, .next, .advance 7], o.Fits 32) ∧
    (([Op.jump 0xFFFFFFFF, .next, .advance 7].map Op.dist).sum % 2 ^ 32 = 7) ∧
    pokeRNGParams.mult.toNat % 2 = 1 := by
  simp [Op.Fits, Op.dist, pokeRNGParams]

/-! ### C04 reversed classes -/

theorem modInv_odd (mult : BitVec w) (hodd : mult.toNat % 2 = 1) :
    ∃ m, Compat.modInv mult.toNat (2 ^ w) = .ok m ∧ mult * BitVec.ofInt w m = 1 := by
  have hcop : Int.gcd (mult.toNat : Int) ((2 : Int) ^ w) = 1 := by
    have : Int.gcd (mult.toNat : Int) ((2 : Int) ^ w) = Nat.gcd mult.toNat (2 ^ w) := by
      rw [show ((2 : Int) ^ w) = ((2 ^ w : Nat) : Int) by push_cast; rfl, Int.gcd_natCast_natCast]
    rw [this]
    apply Nat.Coprime.pow_right w
    rw [Nat.coprime_comm, Nat.Coprime, Nat.gcd_rec, hodd]; rfl
  have hpos : (0 : Int) < 2 ^ w := Int.pow_pos (by decide)
  obtain ⟨m, hm, hm0, hm1, hm2⟩ := Compat.C11_mod_inv_ok mult.toNat (2 ^ w) (by omega) hpos hcop
  refine ⟨m, hm, ?_⟩
  obtain ⟨k, rfl⟩ := Int.eq_ofNat_of_zero_le hm0
  have h3 : (mult.toNat * k) % 2 ^ w = 1 % 2 ^ w := by exact_mod_cast hm2
  rw [BitVec.ofInt_natCast]
  apply BitVec.eq_of_toNat_eq
  rw [BitVec.toNat_mul, BitVec.toNat_ofNat, Nat.mul_mod_mod, h3]
  simp

/-- C04: for every odd multiplier a class built with `reverse=True` exists and its step is the inverse of the forward
step `x ↦ mult*x + add`. -/
theorem C04_reverse_next (add mult : BitVec w) (hodd : mult.toNat % 2 = 1) :
    ∃ q, init add mult true = .ok q ∧ (∀ x, next q (lcg w mult.toNat add.toNat x) = x) ∧
      ∀ x, lcg w mult.toNat add.toNat (next q x) = x := by
  obtain ⟨m, hm, hmul⟩ := modInv_odd mult hodd
  refine ⟨{ add := -add * BitVec.ofInt w m, mult := BitVec.ofInt w m }, by simp only [init, hm, if_true], ?_, ?_⟩
  · intro x
    have := congrFun (next_eq_lcg (w := w) { add := add, mult := mult }) x
    rw [← this]
    simp only [next]
    calc _ = x * (mult * BitVec.ofInt w m) := by ring
      _ = x := by rw [hmul]; ring
  · intro x
    have := fun x => congrFun (next_eq_lcg (w := w) { add := add, mult := mult }) x
    rw [← this]
    simp only [next]
    calc _ = (x - add) * (mult * BitVec.ofInt w m) + add := by ring
      _ = x := by rw [hmul]; ring

/-- C04: an even multiplier cannot be reversed: the class definition raises `ValueError`. -/
theorem C04_reverse_even (add mult : BitVec w) (hw : 0 < w) (heven : mult.toNat % 2 = 0) :
    init add mult true = .error .valueError := by
  have hpow : (1 : Int) < 2 ^ w := by
    have : 1 < 2 ^ w := Nat.one_lt_two_pow (by omega)
    exact_mod_cast this
  have hne : Int.gcd (mult.toNat : Int) ((2 : Int) ^ w) ≠ 1 := by
    have e : Int.gcd (mult.toNat : Int) ((2 : Int) ^ w) = Nat.gcd mult.toNat (2 ^ w) := by
      rw [show ((2 : Int) ^ w) = ((2 ^ w : Nat) : Int) by push_cast; rfl, Int.gcd_natCast_natCast]
    rw [e]
    intro h
    have : 2 ∣ Nat.gcd mult.toNat (2 ^ w) :=
      Nat.dvd_gcd (Nat.dvd_of_mod_eq_zero heven) (dvd_pow_self 2 (by omega))
    rw [h] at this; omega
  have := (Compat.C11_mod_inv_error mult.toNat (2 ^ w) (by omega) hpow hne).1
  simp only [init, if_true, this]

/-- C04, any number of steps: after `n` forward steps, `k ≤ n` reverse steps give back the `(n-k)`-th forward seed, and
after `n` reverse steps, `k ≤ n` forward steps give the `(n-k)`-th reverse seed. -/
theorem C04_reverse_walk (add mult : BitVec w) (hodd : mult.toNat % 2 = 1) :
    ∃ q, init add mult true = .ok q ∧ ∀ (n k : Nat) (x : BitVec w), k ≤ n →
      (next q)^[k] (lcgAfter w mult.toNat add.toNat n x) = lcgAfter w mult.toNat add.toNat (n - k) x ∧
      lcgAfter w mult.toNat add.toNat k ((next q)^[n] x) = (next q)^[n - k] x := by
  obtain ⟨q, hq, h1, h2⟩ := C04_reverse_next add mult hodd
  refine ⟨q, hq, fun n k x hk => ⟨?_, ?_⟩⟩
  · have hn : n = k + (n - k) := by omega
    conv_lhs => rw [lcgAfter, hn, Function.iterate_add_apply]
    exact (Function.LeftInverse.iterate h1 k) _
  · have hn : n = k + (n - k) := by omega
    conv_lhs => rw [lcgAfter, hn, Function.iterate_add_apply]
    exact (Function.LeftInverse.iterate h2 k) _

/-- C04: the shipped reversed classes have the constants of the forward ones with `reverse=True`, and odd multipliers,
so the theorems above apply to all of them. -/
theorem C04_shipped :
    (pokeRNGR = { pokeRNG with reverse := true } ∧ arngR = { arng with reverse := true } ∧
      xdrngR = { xdrng with reverse := true } ∧ bwrngR = { bwrng with reverse := true }) ∧
    pokeRNG.mult.toNat % 2 = 1 ∧ arng.mult.toNat % 2 = 1 ∧ xdrng.mult.toNat % 2 = 1 ∧ bwrng.mult.toNat % 2 = 1 := by
  refine ⟨⟨rfl, rfl, rfl, rfl⟩, ?_⟩
  decide

example : (0x41C64E6D#32).toNat % 2 = 1 := by decide

/-! ### C05 full period -/

/-- The Hull–Dobell conditions for modulus `2^w` on the constants of a class declaration. -/
def HullDobell (c : ClassDecl w) : Prop := c.mult.toNat % 4 = 1 ∧ c.add.toNat % 2 = 1

theorem mod4_form (m : BitVec w) (h : m.toNat % 4 = 1) : ∃ k : BitVec w, m = 1 + 4 * k := by
  refine ⟨BitVec.ofNat w (m.toNat / 4), ?_⟩
  have h1 : m = BitVec.ofNat w m.toNat := by simp
  have h2 : m.toNat = 1 + 4 * (m.toNat / 4) := by omega
  conv_lhs => rw [h1, h2]
  rw [← BitVec.natCast_eq_ofNat, ← BitVec.natCast_eq_ofNat]; push_cast; ring

/-- C05, return times: for a class satisfying Hull–Dobell, forward or reversed, `n` calls of `next` return to the
starting seed exactly when `2^w` divides `n`. -/
theorem C05_period (c : ClassDecl w) (hc : HullDobell c) :
    ∃ p, c.params = .ok p ∧ ∀ (n : Nat) (x : BitVec w), (next p)^[n] x = x ↔ 2 ^ w ∣ n := by
  obtain ⟨k, hk⟩ := mod4_form c.mult hc.1
  obtain ⟨a, ha⟩ := odd_form c.add hc.2
  have hfwd := period_of_hd (w := w) { add := c.add, mult := c.mult } k a hk ha
  cases hr : c.reverse with
  | false => exact ⟨_, by simp [ClassDecl.params, init, hr], hfwd⟩
  | true =>
    obtain ⟨q, hq, h1, h2⟩ := C04_reverse_next c.add c.mult (by have := hc.1; omega)
    refine ⟨q, by rw [ClassDecl.params, hr, hq], fun n x => ?_⟩
    rw [← hfwd n x]
    rw [next_eq_lcg { add := c.add, mult := c.mult }]
    constructor
    · intro h
      have := (Function.LeftInverse.iterate h2 n) x
      rwa [h] at this
    · intro h
      have := (Function.LeftInverse.iterate h1 n) x
      rwa [h] at this

/-- C05, reachability: from any seed every seed is reached at exactly one distance below `2^w`. -/
theorem C05_reach (c : ClassDecl w) (hc : HullDobell c) :
    ∃ p, c.params = .ok p ∧ ∀ x y : BitVec w, ∃! n : Nat, n < 2 ^ w ∧ (next p)^[n] x = y := by
  obtain ⟨p, hp, h⟩ := C05_period c hc
  exact ⟨p, hp, reach_of_period (next p) h⟩

/-- C05: all shipped classes satisfy the hypotheses. -/
theorem C05_shipped :
    HullDobell pokeRNG ∧ HullDobell pokeRNGR ∧ HullDobell arng ∧ HullDobell arngR ∧
    HullDobell xdrng ∧ HullDobell xdrngR ∧ HullDobell bwrng ∧ HullDobell bwrngR := by
  unfold HullDobell; decide

/-! ### C06, C07: 16-bit bounded draws -/

/-- the 16-bit draw that follows `seed` -/
def draw16 (p : Params 32) (seed : BitVec 32) : Nat := (lcg 32 p.mult.toNat p.add.toNat seed).toNat / 2 ^ 16

theorem nextU16_eq (p : Params 32) (seed : BitVec 32) :
    (nextU16 p seed).1 = lcg 32 p.mult.toNat p.add.toNat seed ∧ (nextU16 p seed).2.toNat = draw16 p seed := by
  have h := congrFun (next_eq_lcg p) seed
  constructor
  · simp only [nextU16]; rw [h]
  · simp only [nextU16, draw16, ← h]
    have := (next p seed).isLt
    rw [BitVec.toNat_setWidth, BitVec.toNat_ushiftRight, Nat.shiftRight_eq_div_pow, Nat.mod_eq_of_lt]
    omega

/-- C06: MODULO advances once and returns the draw modulo `maximum`, below `maximum`. -/
theorem C06_modulo (mode : Mode) (p : Params 32) (maximum : BitVec 16) (seed : BitVec 32) (hm : maximum ≠ 0) :
    ∃ r, nextRand32 mode p .modulo maximum seed = (lcg 32 p.mult.toNat p.add.toNat seed, .ok r) ∧
      r.toNat = draw16 p seed % maximum.toNat ∧ r.toNat < maximum.toNat := by
  obtain ⟨h1, h2⟩ := nextU16_eq p seed
  have hpos : 0 < maximum.toNat := by
    rcases Nat.eq_zero_or_pos maximum.toNat with h | h
    · exact absurd (BitVec.eq_of_toNat_eq h) hm
    · exact h
  refine ⟨(nextU16 p seed).2 % maximum, ?_, ?_, ?_⟩
  · simp only [nextRand32, pyMod, if_neg hm, h1]
  · rw [BitVec.toNat_umod, h2]
  · rw [BitVec.toNat_umod]; exact Nat.mod_lt _ hpos

/-- C06: `maximum = 0` divides by zero: an exception under numba, 0 (with a warning) under numpy. -/
theorem C06_modulo_zero (p : Params 32) (seed : BitVec 32) :
    nextRand32 .numba p .modulo 0 seed = (lcg 32 p.mult.toNat p.add.toNat seed, .error .zeroDivision) ∧
    nextRand32 .numpy p .modulo 0 seed = (lcg 32 p.mult.toNat p.add.toNat seed, .ok 0) := by
  obtain ⟨h1, _⟩ := nextU16_eq p seed
  simp only [nextRand32, pyMod, h1]
  exact ⟨rfl, rfl⟩

example : (100 : BitVec 16) ≠ 0 := by decide

/-- The full C07: every `maximum ≥ 1` gives a value below `maximum`, in both modes. False, see below. -/
def C07_full : Prop := ∀ (mode : Mode) (p : Params 32) (maximum : BitVec 16) (seed : BitVec 32), maximum ≠ 0 →
    ∃ r, (nextRand32 mode p .reciprocalDivision maximum seed).2 = .ok r ∧ r.toNat < maximum.toNat

/-- C07 for `maximum ≥ 2`: RECIPROCAL_DIVISION advances once and returns `draw / (65535 / maximum + 1)`, below
`maximum`. Missing: `maximum = 1`, where the claim is false under numba (`C07_maximum_one`). -/
theorem C07_reciprocal_partial (mode : Mode) (p : Params 32) (maximum : BitVec 16) (seed : BitVec 32)
    (hm : 2 ≤ maximum.toNat) :
    ∃ r, nextRand32 mode p .reciprocalDivision maximum seed = (lcg 32 p.mult.toNat p.add.toNat seed, .ok r) ∧
      r.toNat = draw16 p seed / (65535 / maximum.toNat + 1) ∧ r.toNat < maximum.toNat := by
  obtain ⟨h1, h2⟩ := nextU16_eq p seed
  have hne : maximum ≠ 0 := by rintro rfl; simp at hm
  have hq : (0xFFFF#16 / maximum).toNat = 65535 / maximum.toNat := by
    rw [BitVec.toNat_udiv]; rfl
  have hqlt : 65535 / maximum.toNat ≤ 65535 / 2 := Nat.div_le_div_left hm (by decide)
  have hd : (0xFFFF#16 / maximum + 1).toNat = 65535 / maximum.toNat + 1 := by
    rw [BitVec.toNat_add, hq, show (1 : BitVec 16).toNat = 1 from rfl, Nat.mod_eq_of_lt]; omega
  have hd0 : 0xFFFF#16 / maximum + 1 ≠ 0 := by
    intro h; rw [h] at hd; simp at hd
  have hu := (nextU16 p seed).2.isLt
  refine ⟨(nextU16 p seed).2 / (0xFFFF#16 / maximum + 1), ?_, ?_, ?_⟩
  · simp only [nextRand32, pyDiv, if_neg hne, if_neg hd0, h1]
  · rw [BitVec.toNat_udiv, h2, hd]
  · rw [BitVec.toNat_udiv, hd, Nat.div_lt_iff_lt_mul (by omega)]
    have := Nat.div_add_mod 65535 maximum.toNat
    have := Nat.mod_lt 65535 (show 0 < maximum.toNat by omega)
    rw [Nat.mul_add]; omega

/-- C07 is false for `maximum = 1` in compiled mode: the divisor `65536` is truncated to 16 bits, so every call divides
by zero. In numpy mode the same call gives 0. -/
theorem C07_maximum_one (p : Params 32) (seed : BitVec 32) :
    nextRand32 .numba p .reciprocalDivision 1 seed
      = (lcg 32 p.mult.toNat p.add.toNat seed, .error .zeroDivision) ∧
    nextRand32 .numpy p .reciprocalDivision 1 seed = (lcg 32 p.mult.toNat p.add.toNat seed, .ok 0) := by
  obtain ⟨h1, _⟩ := nextU16_eq p seed
  simp only [nextRand32, h1]
  exact ⟨rfl, rfl⟩

theorem C07_full_false : ¬ C07_full := by
  intro h
  obtain ⟨r, hr, _⟩ := h .numba pokeRNGParams 1 0 (by decide)
  rw [(C07_maximum_one _ _).1] at hr
  cases hr

example : 2 ≤ (25 : BitVec 16).toNat := by decide

/-! ### C08, C09: multiplication-shift -/

/-- the 32-bit draw that follows `seed` -/
def draw32 (p : Params 64) (seed : BitVec 64) : Nat := (lcg 64 p.mult.toNat p.add.toNat seed).toNat / 2 ^ 32

/-- C08: advances once, returns `⌊draw * maximum / 2^32⌋`, which is below `maximum`. -/
theorem C08_mul_shift (p : Params 64) (maximum : BitVec 32) (seed : BitVec 64) :
    ∃ r, nextRand64 p .multiplicationShift maximum seed = (lcg 64 p.mult.toNat p.add.toNat seed, .ok r) ∧
      r.toNat = draw32 p seed * maximum.toNat / 2 ^ 32 ∧ (maximum ≠ 0 → r.toNat < maximum.toNat) := by
  have h := congrFun (next_eq_lcg p) seed
  have h2 : (nextU32 p seed).2.toNat = draw32 p seed := by
    simp only [nextU32, draw32, ← h]
    have := (next p seed).isLt
    rw [BitVec.toNat_setWidth, BitVec.toNat_ushiftRight, Nat.shiftRight_eq_div_pow, Nat.mod_eq_of_lt]
    omega
  have hu := (nextU32 p seed).2.isLt
  refine ⟨mulShift (nextU32 p seed).2 maximum, ?_, ?_, fun hm => ?_⟩
  · simp only [nextRand64, nextU32, h]
  · rw [mulShift_toNat, h2]
  · rw [mulShift_toNat, Nat.div_lt_iff_lt_mul (by norm_num), Nat.mul_comm]
    apply Nat.mul_lt_mul_of_pos_left hu
    rcases Nat.eq_zero_or_pos maximum.toNat with h | h
    · exact absurd (BitVec.eq_of_toNat_eq h) hm
    · exact h

/-- C08: monotone in the raw draw. -/
theorem C08_monotone (p q : Params 64) (maximum : BitVec 32) (s t : BitVec 64) (h : draw32 p s ≤ draw32 q t) :
    ∃ a b, (nextRand64 p .multiplicationShift maximum s).2 = .ok a ∧
      (nextRand64 q .multiplicationShift maximum t).2 = .ok b ∧ a.toNat ≤ b.toNat := by
  obtain ⟨a, ha, ha', _⟩ := C08_mul_shift p maximum s
  obtain ⟨b, hb, hb', _⟩ := C08_mul_shift q maximum t
  refine ⟨a, b, by rw [ha], by rw [hb], ?_⟩
  rw [ha', hb']
  exact Nat.div_le_div_right (Nat.mul_le_mul_right _ h)

/-- C09: over all `2^32` raw draws each value below `maximum` occurs `⌊2^32/maximum⌋` or `⌈2^32/maximum⌉` times. -/
theorem C09_balanced (maximum : BitVec 32) (v : Nat) (hv : v < maximum.toNat) :
    let count := ((Finset.range (2 ^ 32)).filter
      (fun u => (mulShift (BitVec.ofNat 32 u) maximum).toNat = v)).card
    count = 2 ^ 32 / maximum.toNat ∨ count = (2 ^ 32 + maximum.toNat - 1) / maximum.toNat := by
  intro count
  have he : count = ((Finset.range (2 ^ 32)).filter (fun u => u * maximum.toNat / 2 ^ 32 = v)).card := by
    refine congrArg Finset.card (Finset.filter_congr ?_)
    intro u hu
    rw [mulShift_toNat, BitVec.toNat_ofNat, Nat.mod_eq_of_lt (Finset.mem_range.1 hu)]
  have h := card_mul_div (2 ^ 32) maximum.toNat v (by norm_num) (by omega) hv
  rw [← he] at h
  have hc : cdiv (2 ^ 32) maximum.toNat ≤ 2 ^ 32 / maximum.toNat + 1 := by
    unfold cdiv
    have h0 : 0 < maximum.toNat := by omega
    calc _ ≤ (2 ^ 32 + maximum.toNat) / maximum.toNat := Nat.div_le_div_right (by omega)
      _ = _ := Nat.add_div_right _ h0
  have hd : cdiv (2 ^ 32) maximum.toNat = (2 ^ 32 + maximum.toNat - 1) / maximum.toNat := rfl
  rw [← hd]
  omega

example : 7 < (25 : BitVec 32).toNat := by decide

/-! ### C10 const_rand -/

/-- C10 (32-bit): when `const_rand(maximum)` builds a function, it has the effect and result of `next_rand(maximum)` on
every generator; when it raises, `next_rand` raises the same exception and does not touch the seed. -/
theorem C10_const_rand32 (mode : Mode) (d : Dist32) (maximum : BitVec 16) :
    (∃ f, constRand32 mode d maximum = .ok f ∧ ∀ p seed, f p seed = nextRand32 mode p d maximum seed) ∨
    (∃ e, constRand32 mode d maximum = .error e ∧ ∀ p seed, nextRand32 mode p d maximum seed = (seed, .error e)) := by
  cases d with
  | none => exact .inr ⟨_, rfl, fun _ _ => rfl⟩
  | modulo => exact .inl ⟨_, rfl, fun _ _ => rfl⟩
  | reciprocalDivision => exact .inl ⟨_, rfl, fun _ _ => rfl⟩

/-- C10 (64-bit). -/
theorem C10_const_rand64 (d : Dist64) (maximum : BitVec 32) :
    (∃ f, constRand64 d maximum = .ok f ∧ ∀ p seed, f p seed = nextRand64 p d maximum seed) ∨
    (∃ e, constRand64 d maximum = .error e ∧ ∀ p seed, nextRand64 p d maximum seed = (seed, .error e)) := by
  cases d with
  | none => exact .inr ⟨_, rfl, fun _ _ => rfl⟩
  | multiplicationShift => exact .inl ⟨_, rfl, fun _ _ => rfl⟩

/-- C10: the raising case is exactly "no distribution". -/
theorem C10_raises_iff (mode : Mode) (d : Dist32) (d' : Dist64) (m : BitVec 16) (m' : BitVec 32) :
    (constRand32 mode d m = .error .notImplemented ↔ d = .none) ∧
    (constRand64 d' m' = .error .notImplemented ↔ d' = .none) := by
  constructor
  · cases d <;> simp [constRand32]
  · cases d' <;> simp [constRand64]

/-- C12 (LCRNG): `re_init` after any history gives the state of a new object (whose state is its seed). -/
theorem C12_lcrng_re_init (old seed : BitVec w) : reInit old seed = seed := rfl

end Verif.Lcrng
