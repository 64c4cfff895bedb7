import Verif.Props.Lcrng
import Verif.Model.Gen3Util
import Mathlib.Data.Nat.Factorization.Basic
/-
C113: the low bits of the states of a linear congruential generator have short periods.
-/
namespace Verif.Lcrng
open Spec

/-- the constants modulo `2^k` -/
private def cut (k : Nat) (p : Params w) : Params k := { add := p.add.setWidth k, mult := p.mult.setWidth k }

private theorem next_cut {k : Nat} (hk : k ≤ w) (p : Params w) (x : BitVec w) :
    (next p x).setWidth k = next (cut k p) (x.setWidth k) := by
  simp only [next, cut]
  rw [BitVec.setWidth_add _ _ hk, BitVec.setWidth_mul _ _ hk]

private theorem iterate_cut {k : Nat} (hk : k ≤ w) (p : Params w) (n : Nat) (x : BitVec w) :
    ((next p)^[n] x).setWidth k = (next (cut k p))^[n] (x.setWidth k) := by
  induction n generalizing x with
  | zero => rfl
  | succ n ih => rw [Function.iterate_succ_apply, ih, next_cut hk, Function.iterate_succ_apply]

private theorem setWidth_inj {k : Nat} (x y : BitVec w) : x.setWidth k = y.setWidth k ↔ x.toNat % 2 ^ k = y.toNat % 2 ^ k := by
  rw [← BitVec.toNat_inj, BitVec.toNat_setWidth, BitVec.toNat_setWidth]

private theorem low_forward {k : Nat} (hk : k ≤ w) (p : Params w) (hm : p.mult.toNat % 4 = 1) (ha : p.add.toNat % 2 = 1)
    (n : Nat) (x : BitVec w) : ((next p)^[n] x).toNat % 2 ^ k = x.toNat % 2 ^ k ↔ 2 ^ k ∣ n := by
  rw [← setWidth_inj, iterate_cut hk]
  refine period_of_hd (cut k p) (BitVec.ofNat k (p.mult.toNat / 4)) (BitVec.ofNat k (p.add.toNat / 2)) ?_ ?_ n _
  · have h : p.mult.toNat = 1 + 4 * (p.mult.toNat / 4) := by omega
    show BitVec.setWidth k _ = _
    rw [← BitVec.ofNat_toNat]
    conv_lhs => rw [h]
    rw [← BitVec.natCast_eq_ofNat, ← BitVec.natCast_eq_ofNat]; push_cast; ring
  · have h : p.add.toNat = 1 + 2 * (p.add.toNat / 2) := by omega
    show BitVec.setWidth k _ = _
    rw [← BitVec.ofNat_toNat]
    conv_lhs => rw [h]
    rw [← BitVec.natCast_eq_ofNat, ← BitVec.natCast_eq_ofNat]; push_cast; ring

/-- **C113**: the low `k` bits of the state return exactly after the multiples of `2^k` calls of `next`. -/
theorem C113_low_bits (c : ClassDecl w) (hc : HullDobell c) : ∃ p, c.params = .ok p ∧
    ∀ (k : Nat), k ≤ w → ∀ (n : Nat) (x : BitVec w), ((next p)^[n] x).toNat % 2 ^ k = x.toNat % 2 ^ k ↔ 2 ^ k ∣ n := by
  have hfwd := fun k hk => low_forward (w := w) (k := k) hk { add := c.add, mult := c.mult } hc.1 hc.2
  cases hr : c.reverse with
  | false => exact ⟨_, by simp [ClassDecl.params, init, hr], hfwd⟩
  | true =>
    obtain ⟨q, hq, h1, h2⟩ := C04_reverse_next c.add c.mult (by have := hc.1; omega)
    refine ⟨q, by rw [ClassDecl.params, hr, hq], fun k hk n x => ?_⟩
    rw [← hfwd k hk n x]
    rw [← next_eq_lcg { add := c.add, mult := c.mult }] at h1 h2
    rw [← setWidth_inj, ← setWidth_inj]
    constructor
    · intro h
      have := congrArg (next (cut k { add := c.add, mult := c.mult }))^[n] h
      rw [← iterate_cut hk, ← iterate_cut hk, (Function.LeftInverse.iterate h2 n) x] at this
      exact this.symm
    · intro h
      have := congrArg (next (cut k q))^[n] h
      rw [← iterate_cut hk, ← iterate_cut hk, (Function.LeftInverse.iterate h1 n) x] at this
      exact this.symm

/-- `n` is a period of a sequence -/
def IsPeriod (n : Nat) (f : Nat → α) : Prop := ∀ m, f (m + n) = f m

theorem IsPeriod.mul {n : Nat} {f : Nat → α} (h : IsPeriod n f) (t : Nat) : IsPeriod (n * t) f := by
  induction t with
  | zero => intro m; rfl
  | succ t ih =>
    intro m
    rw [Nat.mul_succ, ← Nat.add_assoc, h, ih]

/-- a sequence with period `2^(j+1)` and without period `2^j` has just the multiples of `2^(j+1)` as periods -/
theorem isPeriod_iff {f : Nat → α} {j : Nat} (h1 : IsPeriod (2 ^ (j + 1)) f) (h2 : ¬ IsPeriod (2 ^ j) f) (n : Nat) :
    IsPeriod n f ↔ 2 ^ (j + 1) ∣ n := by
  constructor
  · intro h
    by_contra hn
    have hn0 : n ≠ 0 := by rintro rfl; exact hn (dvd_zero _)
    obtain ⟨a, b, hb, rfl⟩ := Nat.exists_eq_two_pow_mul_odd hn0
    obtain ⟨t, rfl⟩ := hb
    have ha : a ≤ j := by
      by_contra ha
      exact hn (Dvd.dvd.mul_right (pow_dvd_pow 2 (by omega)) _)
    apply h2
    intro m
    have e1 := h.mul (2 ^ (j - a)) m
    have e2 := h1.mul t (m + 2 ^ j)
    have e : m + 2 ^ a * (2 * t + 1) * 2 ^ (j - a) = m + 2 ^ j + 2 ^ (j + 1) * t := by
      have : 2 ^ a * 2 ^ (j - a) = 2 ^ j := by rw [← pow_add]; congr 1; omega
      rw [pow_succ, ← this]
      ring
    rw [e] at e1
    rw [← e2, e1]
  · rintro ⟨t, rfl⟩
    exact h1.mul t

private theorem testBit_low {a b j : Nat} (h : a % 2 ^ (j + 1) = b % 2 ^ (j + 1)) : a.testBit j = b.testBit j := by
  have := congrArg (fun x => Nat.testBit x j) h
  simpa [Nat.testBit_mod_two_pow] using this

private theorem testBit_flip {a b j : Nat} (h : a % 2 ^ j = b % 2 ^ j) (h' : ¬ a % 2 ^ (j + 1) = b % 2 ^ (j + 1)) :
    a.testBit j ≠ b.testBit j := by
  intro e
  apply h'
  rw [Nat.testBit_eq_decide_div_mod_eq, Nat.testBit_eq_decide_div_mod_eq, decide_eq_decide] at e
  rw [Nat.mod_pow_succ, Nat.mod_pow_succ, h]
  congr 2
  omega

/-- C113: bit `j` of the state, as a sequence, has exactly the multiples of `2^(j+1)` as periods. -/
theorem C113_state_bit (c : ClassDecl w) (hc : HullDobell c) : ∃ p, c.params = .ok p ∧
    ∀ (j : Nat), j < w → ∀ (x : BitVec w) (n : Nat),
      IsPeriod n (fun m => ((next p)^[m] x).toNat.testBit j) ↔ 2 ^ (j + 1) ∣ n := by
  obtain ⟨p, hp, h⟩ := C113_low_bits c hc
  refine ⟨p, hp, fun j hj x n => isPeriod_iff (fun m => ?_) (fun hf => ?_) n⟩
  · have := (h (j + 1) hj (2 ^ (j + 1)) ((next p)^[m] x)).2 dvd_rfl
    rw [← Function.iterate_add_apply, Nat.add_comm] at this
    exact testBit_low this
  · have h1 := (h j hj.le (2 ^ j) x).2 dvd_rfl
    have h2 : ¬ ((next p)^[2 ^ j] x).toNat % 2 ^ (j + 1) = x.toNat % 2 ^ (j + 1) := by
      rw [h (j + 1) hj]
      intro hd
      have := Nat.le_of_dvd (Nat.two_pow_pos j) hd
      have := Nat.two_pow_pos j
      rw [pow_succ] at *
      omega
    have := hf 0
    rw [Nat.zero_add] at this
    exact testBit_flip h1 h2 this

/-- the `m`-th value `next_u16` returns -/
def u16At (p : Params 32) (x : BitVec 32) (m : Nat) : BitVec 16 := (nextU16 p ((next p)^[m] x)).2

/-- the `m`-th value `next_u32` returns -/
def u32At (p : Params 64) (x : BitVec 64) (m : Nat) : BitVec 32 := (nextU32 p ((next p)^[m] x)).2

/-- C113: bit `i` of the 16-bit values has exactly the multiples of `2^(17+i)` as periods. -/
theorem C113_u16 (c : ClassDecl 32) (hc : HullDobell c) : ∃ p, c.params = .ok p ∧
    ∀ (i : Nat), i < 16 → ∀ (x : BitVec 32) (n : Nat), IsPeriod n (fun m => (u16At p x m).getLsbD i) ↔ 2 ^ (17 + i) ∣ n := by
  obtain ⟨p, hp, h⟩ := C113_state_bit c hc
  refine ⟨p, hp, fun i hi x n => ?_⟩
  have e : (fun m => (u16At p x m).getLsbD i) = fun m => ((next p)^[m] (next p x)).toNat.testBit (16 + i) := by
    funext m
    rw [← Function.iterate_succ_apply, Function.iterate_succ_apply', u16At, nextU16]
    simp only [BitVec.getLsbD_setWidth, BitVec.getLsbD_ushiftRight, hi, decide_true, Bool.true_and]
    rfl
  rw [e, h (16 + i) (by omega)]
  rw [show 16 + i + 1 = 17 + i by omega]

/-- C113: bit `i` of the 32-bit values has exactly the multiples of `2^(33+i)` as periods. -/
theorem C113_u32 (c : ClassDecl 64) (hc : HullDobell c) : ∃ p, c.params = .ok p ∧
    ∀ (i : Nat), i < 32 → ∀ (x : BitVec 64) (n : Nat), IsPeriod n (fun m => (u32At p x m).getLsbD i) ↔ 2 ^ (33 + i) ∣ n := by
  obtain ⟨p, hp, h⟩ := C113_state_bit c hc
  refine ⟨p, hp, fun i hi x n => ?_⟩
  have e : (fun m => (u32At p x m).getLsbD i) = fun m => ((next p)^[m] (next p x)).toNat.testBit (32 + i) := by
    funext m
    rw [← Function.iterate_succ_apply, Function.iterate_succ_apply', u32At, nextU32]
    simp only [BitVec.getLsbD_setWidth, BitVec.getLsbD_ushiftRight, hi, decide_true, Bool.true_and]
    rfl
  rw [e, h (32 + i) (by omega)]
  rw [show 32 + i + 1 = 33 + i by omega]

/-- C113: two states agree in the low `k` bits after `n` calls of `next` exactly when they did before. -/
theorem C113_agree (c : ClassDecl w) (hc : HullDobell c) : ∃ p, c.params = .ok p ∧
    ∀ (k : Nat), k ≤ w → ∀ (n : Nat) (x y : BitVec w),
      ((next p)^[n] x).toNat % 2 ^ k = ((next p)^[n] y).toNat % 2 ^ k ↔ x.toNat % 2 ^ k = y.toNat % 2 ^ k := by
  obtain ⟨p, hp, h⟩ := C113_low_bits c hc
  refine ⟨p, hp, fun k hk n x y => ?_⟩
  rw [← setWidth_inj, ← setWidth_inj]
  constructor
  · intro e
    rw [iterate_cut hk, iterate_cut hk] at e
    have e := congrArg (next (cut k p))^[2 ^ k * n - n] e
    have hn : 2 ^ k * n - n + n = 2 ^ k * n := Nat.sub_add_cancel (Nat.le_mul_of_pos_left n (Nat.two_pow_pos k))
    rw [← Function.iterate_add_apply, ← Function.iterate_add_apply, hn, ← iterate_cut hk, ← iterate_cut hk,
      (setWidth_inj _ x).2 ((h k hk _ x).2 (dvd_mul_right _ _)), (setWidth_inj _ y).2 ((h k hk _ y).2 (dvd_mul_right _ _))] at e
    exact e
  · intro e
    rw [iterate_cut hk, iterate_cut hk, e]

/-- C113: from two seeds that differ in the top bit only, all 16-bit values differ in the top bit only. -/
theorem C113_twins (c : ClassDecl 32) (hc : HullDobell c) : ∃ p, c.params = .ok p ∧
    ∀ (x : BitVec 32) (m : Nat), u16At p (x ^^^ 0x80000000) m = u16At p x m ^^^ 0x8000 := by
  obtain ⟨p, hp, h⟩ := C113_agree c hc
  refine ⟨p, hp, fun x m => ?_⟩
  have hb : ∀ i, (x ^^^ 0x80000000#32).toNat.testBit i = (x.toNat.testBit i ^^ decide (i = 31)) := by
    intro i
    rw [BitVec.toNat_xor, Nat.testBit_xor, show (0x80000000#32).toNat = 2 ^ 31 from rfl, Nat.testBit_two_pow]
    simp [eq_comm]
  have hlow : (x ^^^ 0x80000000#32).toNat % 2 ^ 31 = x.toNat % 2 ^ 31 := by
    apply Nat.eq_of_testBit_eq
    intro i
    rw [Nat.testBit_mod_two_pow, Nat.testBit_mod_two_pow, hb]
    by_cases hi : i < 31
    · simp [show i ≠ 31 by omega]
    · simp [hi]
  have hne : ¬ (x ^^^ 0x80000000#32).toNat % 2 ^ 32 = x.toNat % 2 ^ 32 := by
    intro e
    have := testBit_low e
    rw [hb] at this
    simp at this
  have h1 := (h 31 (by omega) (m + 1) _ _).2 hlow
  have h2 := mt (h 32 le_rfl (m + 1) _ _).1 hne
  rw [Function.iterate_succ_apply', Function.iterate_succ_apply'] at h1 h2
  have h3 := testBit_flip h1 h2
  apply BitVec.eq_of_getLsbD_eq
  intro i hi
  rw [BitVec.getLsbD_xor, u16At, u16At, nextU16, nextU16]
  simp only [BitVec.getLsbD_setWidth, BitVec.getLsbD_ushiftRight, hi, decide_true, Bool.true_and]
  by_cases h15 : i = 15
  · subst h15
    have : ((0x8000 : BitVec 16).getLsbD 15) = true := rfl
    rw [this, Bool.xor_true]
    exact Bool.eq_not_of_ne h3
  · have hz : ((0x8000 : BitVec 16).getLsbD i) = false := by
      show (0x8000 : Nat).testBit i = false
      rw [show (0x8000 : Nat) = 2 ^ 15 from rfl, Nat.testBit_two_pow]
      simp [eq_comm, h15]
    rw [hz, Bool.xor_false]
    have := congrArg (fun t => Nat.testBit t (16 + i)) h1
    simp only [Nat.testBit_mod_two_pow, show 16 + i < 31 by omega, decide_true, Bool.true_and] at this
    exact this

/-- C113: PIDs made of such values have the same shininess for every trainer. -/
theorem C113_shiny (pid : BitVec 32) (tsv : BitVec 16) :
    Gen3.getShiny (pid ^^^ 0x80008000) tsv = Gen3.getShiny pid tsv := by
  have e : ((pid ^^^ 0x80008000#32) >>> 16) ^^^ ((pid ^^^ 0x80008000#32) &&& 0xFFFF#32) = (pid >>> 16) ^^^ (pid &&& 0xFFFF#32) := by
    apply BitVec.eq_of_getLsbD_eq
    intro i hi
    simp only [BitVec.getLsbD_xor, BitVec.getLsbD_and, BitVec.getLsbD_ushiftRight]
    have hk : ∀ i < 32, ((0x80008000#32).getLsbD (16 + i) ^^ ((0x80008000#32).getLsbD i && (0xFFFF#32).getLsbD i)) = false := by
      decide
    have := hk i hi
    revert this
    cases pid.getLsbD (16 + i) <;> cases pid.getLsbD i <;> cases (0x80008000#32).getLsbD (16 + i) <;>
      cases (0x80008000#32).getLsbD i <;> cases (0xFFFF#32).getLsbD i <;> simp
  simp only [Gen3.getShiny]
  rw [show (0x80008000 : BitVec 32) = 0x80008000#32 from rfl, show (0xFFFF : BitVec 32) = 0xFFFF#32 from rfl, e]

example : HullDobell pokeRNG ∧ HullDobell arngR ∧ HullDobell bwrng := by unfold HullDobell; decide

/-- the lowest bit of the 16-bit values of PokeRNG repeats after 131072 values and not earlier -/
example (x : BitVec 32) : ∃ p, pokeRNG.params = .ok p ∧ IsPeriod 131072 (fun m => (u16At p x m).getLsbD 0) ∧
    ¬ IsPeriod 65536 (fun m => (u16At p x m).getLsbD 0) := by
  obtain ⟨p, hp, h⟩ := C113_u16 pokeRNG C05_shipped.1
  exact ⟨p, hp, (h 0 (by omega) x _).2 (by norm_num), fun h' => absurd ((h 0 (by omega) x _).1 h') (by norm_num)⟩

end Verif.Lcrng
