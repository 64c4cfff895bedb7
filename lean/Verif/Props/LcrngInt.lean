import Verif.Model.LcrngInt
import Verif.Props.Lcrng
/-
C130: `jump`, `const_jump` and `advance` of the LCRNG classes for distances of either sign. A `jump` that raises has
already moved the generator, and it has moved it by exactly the requested distance.
-/
namespace Verif.Lcrng
open Verif.Spec

/-- two's complement: the low `m + 1` bits of `a` from those of `a >> 1` -/
theorem emod_double (a : Int) (m : Nat) : a % 2 ^ (m + 1) = 2 * (a / 2 % 2 ^ m) + a % 2 := by
  rw [pow_succ, Int.mul_comm (2 ^ m) 2, Int.emod_def a, Int.emod_def (a / 2), Int.emod_def a 2,
    ← Int.ediv_ediv_of_nonneg (by omega : (0 : Int) ≤ 2)]
  ring

theorem jumpLoopInt_eq (p : Params w) (tbl : List (BitVec w × BitVec w))
    (ht : ∀ i, i < tbl.length → ∃ e, tbl[i]? = some e ∧ Reps p e (2 ^ i)) (adv : Int) (i : Nat) (seed : BitVec w) :
    jumpLoopInt tbl adv i seed =
      ((next p)^[(adv % 2 ^ (tbl.length - i)).toNat * 2 ^ i] seed,
        if 0 ≤ adv ∧ adv < 2 ^ (tbl.length - i)
        then .ok ((next p)^[(adv % 2 ^ (tbl.length - i)).toNat * 2 ^ i] seed) else .error .indexError) := by
  fun_induction jumpLoopInt tbl adv i seed with
  | case1 i seed =>
    have : (0 : Int) < 2 ^ (tbl.length - i) := by positivity
    simp [this]
  | case2 adv i seed h0 h1 h2 =>
    have hi : tbl.length - i = 0 := by
      have := List.getElem?_eq_none_iff.1 h2; omega
    rw [hi]
    simp only [pow_zero, Int.emod_one, Int.toNat_zero, Nat.zero_mul, Function.iterate_zero, id]
    rw [if_neg (by omega)]
  | case3 adv i seed h0 h1 e h2 ih =>
    have hi : i < tbl.length := by
      rcases Nat.lt_or_ge i tbl.length with h | h
      · exact h
      · rw [List.getElem?_eq_none h] at h2; cases h2
    obtain ⟨e', he', hr⟩ := ht i hi
    rw [h2] at he'; cases he'
    obtain ⟨m, hm⟩ : ∃ m, tbl.length - i = m + 1 := ⟨tbl.length - i - 1, by omega⟩
    have hm' : tbl.length - (i + 1) = m := by omega
    rw [ih, hm', hm, hr, ← Function.iterate_add_apply]
    have hn : 0 ≤ adv / 2 % 2 ^ m := Int.emod_nonneg _ (by positivity)
    have hx : (adv % 2 ^ (m + 1)).toNat * 2 ^ i = (adv / 2 % 2 ^ m).toNat * 2 ^ (i + 1) + 2 ^ i := by
      rw [emod_double, h1]
      have : (2 * (adv / 2 % 2 ^ m) + 1).toNat = 2 * (adv / 2 % 2 ^ m).toNat + 1 := by omega
      rw [this]; ring
    have hc : (0 ≤ adv / 2 ∧ adv / 2 < 2 ^ m) ↔ (0 ≤ adv ∧ adv < 2 ^ (m + 1)) := by
      rw [pow_succ]; omega
    rw [hx]
    simp only [hc]
  | case4 adv i seed h0 h1 ih =>
    rcases Nat.lt_or_ge i tbl.length with hi | hi
    · obtain ⟨m, hm⟩ : ∃ m, tbl.length - i = m + 1 := ⟨tbl.length - i - 1, by omega⟩
      have hm' : tbl.length - (i + 1) = m := by omega
      rw [ih, hm', hm]
      have hn : 0 ≤ adv / 2 % 2 ^ m := Int.emod_nonneg _ (by positivity)
      have hx : (adv % 2 ^ (m + 1)).toNat * 2 ^ i = (adv / 2 % 2 ^ m).toNat * 2 ^ (i + 1) := by
        rw [emod_double, show adv % 2 = 0 by omega]
        have : (2 * (adv / 2 % 2 ^ m) + 0).toNat = 2 * (adv / 2 % 2 ^ m).toNat := by omega
        rw [this]; ring
      have hc : (0 ≤ adv / 2 ∧ adv / 2 < 2 ^ m) ↔ (0 ≤ adv ∧ adv < 2 ^ (m + 1)) := by
        rw [pow_succ]; omega
      rw [hx]
      simp only [hc]
    · have e1 : tbl.length - i = 0 := by omega
      have e2 : tbl.length - (i + 1) = 0 := by omega
      rw [ih, e1, e2]
      simp only [pow_zero, Int.emod_one, Int.toNat_zero, Nat.zero_mul, Function.iterate_zero, id]
      rw [if_neg (by omega), if_neg (by omega)]

/-- C130: for **every** integer distance, of either sign, `jump` leaves the seed `n mod 2^w` steps further, and it returns
that seed if `0 ≤ n < 2^w`; otherwise it raises `IndexError`, after having moved the seed. -/
theorem C130_jump (p : Params w) (hw : 0 < w) (n : Int) (seed : BitVec w) :
    jumpInt p n seed =
      (lcgAfter w p.mult.toNat p.add.toNat (n % 2 ^ w).toNat seed,
        if 0 ≤ n ∧ n < 2 ^ w then .ok (lcgAfter w p.mult.toNat p.add.toNat (n % 2 ^ w).toNat seed)
        else .error .indexError) := by
  have hl := jumpTable_length p hw
  have h := jumpLoopInt_eq p (jumpTable p) (fun i hi => jumpTable_get p i (by omega)) n 0 seed
  rw [hl] at h
  simp only [Nat.sub_zero, pow_zero, Nat.mul_one] at h
  rw [jumpInt, h, lcgAfter, next_eq_lcg]

/-- C130: `advance` accepts every such distance, and ends where `jump` ends, whether or not `jump` raises. -/
theorem C130_advance (p : Params w) (hw : 0 < w) (n : Int) (seed : BitVec w) :
    advanceInt p n seed = lcgAfter w p.mult.toNat p.add.toNat (n % 2 ^ w).toNat seed ∧
      (jumpInt p n seed).1 = advanceInt p n seed := by
  have h : advanceInt p n seed = lcgAfter w p.mult.toNat p.add.toNat (n % 2 ^ w).toNat seed := by
    rw [advanceInt, advanceLoop_eq, lcgAfter, next_eq_lcg, BitVec.toNat_ofInt]
    norm_cast
  exact ⟨h, by rw [h, C130_jump p hw]⟩

theorem constJumpLoopInt_nat (tbl : List (BitVec w × BitVec w)) (n i : Nat) (mult add : BitVec w) :
    constJumpLoopInt tbl n i mult add = constJumpLoop tbl n i mult add := by
  fun_induction constJumpLoop tbl n i mult add with
  | case1 => simp [constJumpLoopInt]
  | case2 adv i mult add h0 h2 =>
    rw [constJumpLoopInt, dif_neg (by omega)]
    split
    · rfl
    · rename_i e he; rw [h2] at he; cases he
  | case3 adv i mult add h0 e h2 h1 ih =>
    rw [constJumpLoopInt, dif_neg (by omega)]
    split
    · rename_i he; rw [h2] at he; cases he
    · rename_i e' he; rw [h2] at he; cases he
      rw [if_pos (by omega), show (adv : Int) / 2 = ((adv / 2 : Nat) : Int) by omega, ih]
  | case4 adv i mult add h0 e h2 h1 ih =>
    rw [constJumpLoopInt, dif_neg (by omega)]
    split
    · rename_i he; rw [h2] at he; cases he
    · rename_i e' he; rw [h2] at he; cases he
      rw [if_neg (by omega), show (adv : Int) / 2 = ((adv / 2 : Nat) : Int) by omega, ih]

theorem constJumpLoopInt_neg (tbl : List (BitVec w × BitVec w)) (n : Int) (i : Nat) (mult add : BitVec w) (hn : n < 0) :
    constJumpLoopInt tbl n i mult add = .error .indexError := by
  fun_induction constJumpLoopInt tbl n i mult add with
  | case1 => omega
  | case2 => rfl
  | case3 adv i mult add h0 e h2 h1 ih => exact ih (by omega)
  | case4 adv i mult add h0 e h2 h1 ih => exact ih (by omega)

/-- C130: `const_jump` builds a function for the distances `0 ≤ n < 2^w` and no others; the function has the effect of
`n` steps. (On the other distances it raises while building, so no generator is touched.) -/
theorem C130_const (p : Params w) (hw : 0 < w) (n : Int) :
    (0 ≤ n ∧ n < 2 ^ w → ∃ f, constJumpInt p n = .ok f ∧
        ∀ seed, f seed = lcgAfter w p.mult.toNat p.add.toNat n.toNat seed) ∧
      (¬ (0 ≤ n ∧ n < 2 ^ w) → constJumpInt p n = .error .indexError) := by
  constructor
  · rintro ⟨h0, h1⟩
    obtain ⟨k, rfl⟩ := Int.eq_ofNat_of_zero_le h0
    have hk : k < 2 ^ w := by exact_mod_cast h1
    obtain ⟨f, hf, hs⟩ := C02_const_jump p k hk
    refine ⟨f, ?_, fun seed => ?_⟩
    · rw [constJumpInt, constJumpLoopInt_nat]; exact hf
    · have := hs seed
      rw [C01_jump p k seed hk] at this
      simpa using (congrArg Prod.fst this).symm
  · intro h
    by_cases h0 : 0 ≤ n
    · obtain ⟨k, rfl⟩ := Int.eq_ofNat_of_zero_le h0
      have hk : 2 ^ w ≤ k := by
        by_contra hc
        exact h ⟨h0, by exact_mod_cast Nat.lt_of_not_le hc⟩
      rw [constJumpInt, constJumpLoopInt_nat]
      exact (C02_const_jump_too_far p k hw hk 0).1
    · rw [constJumpInt, constJumpLoopInt_neg _ _ _ _ _ (by omega)]

theorem lcgAfter_mod (p : Params w) (hodd : p.mult.toNat % 2 = 1) (n : Nat) (seed : BitVec w) :
    lcgAfter w p.mult.toNat p.add.toNat (n % 2 ^ w) seed = lcgAfter w p.mult.toNat p.add.toNat n seed := by
  obtain ⟨k, hk⟩ := odd_form p.mult hodd
  simp only [lcgAfter, ← next_eq_lcg]
  exact iterate_mod p k hk n seed

/-- C130: with an odd multiplier (every shipped class), a failed `jump(-k)` is an undo: `k` calls of `next` from the seed
it leaves give back the seed it started from. -/
theorem C130_undo (p : Params w) (hw : 0 < w) (hodd : p.mult.toNat % 2 = 1) (k : Nat) (hk : 0 < k) (seed : BitVec w) :
    (jumpInt p (-k) seed).2 = .error .indexError ∧
      lcgAfter w p.mult.toNat p.add.toNat k (jumpInt p (-k) seed).1 = seed := by
  rw [C130_jump p hw]
  refine ⟨by simp only; rw [if_neg (by omega)], ?_⟩
  simp only
  have hz : (k + (-(k : Int) % 2 ^ w).toNat) % 2 ^ w = 0 := by
    have h0 : 0 ≤ -(k : Int) % 2 ^ w := Int.emod_nonneg _ (by positivity)
    zify
    rw [Int.toNat_of_nonneg h0]
    simp
  have : lcgAfter w p.mult.toNat p.add.toNat (k + (-(k : Int) % 2 ^ w).toNat) seed = seed := by
    rw [← lcgAfter_mod p hodd, hz]; rfl
  simpa only [lcgAfter, Function.iterate_add_apply] using this

/-- C130: any history of `jump` calls with integer distances, the exceptions being caught, moves the seed by the sum of
the distances modulo `2^w` (odd multiplier). -/
theorem C130_history (p : Params w) (hw : 0 < w) (hodd : p.mult.toNat % 2 = 1) (ds : List Int) (seed : BitVec w) :
    ds.foldl (fun s d => (jumpInt p d s).1) seed =
      lcgAfter w p.mult.toNat p.add.toNat (ds.sum % 2 ^ w).toNat seed := by
  induction ds generalizing seed with
  | nil => simp [lcgAfter]
  | cons d ds ih =>
    rw [List.foldl_cons, ih, C130_jump p hw, List.sum_cons]
    simp only
    rw [show lcgAfter w p.mult.toNat p.add.toNat (ds.sum % 2 ^ w).toNat
        (lcgAfter w p.mult.toNat p.add.toNat (d % 2 ^ w).toNat seed)
        = lcgAfter w p.mult.toNat p.add.toNat ((ds.sum % 2 ^ w).toNat + (d % 2 ^ w).toNat) seed by
      simp only [lcgAfter, Function.iterate_add_apply], ← lcgAfter_mod p hodd]
    congr 1
    have h0 : 0 ≤ ds.sum % 2 ^ w := Int.emod_nonneg _ (by positivity)
    have h1 : 0 ≤ d % 2 ^ w := Int.emod_nonneg _ (by positivity)
    have h2 : 0 ≤ (d + ds.sum) % 2 ^ w := Int.emod_nonneg _ (by positivity)
    zify
    rw [Int.toNat_of_nonneg h0, Int.toNat_of_nonneg h1, Int.toNat_of_nonneg h2, ← Int.add_emod, Int.add_comm]

/-- a history with a failing call in it, and one failing call undoing a step -/
example : pokeRNGParams.mult.toNat % 2 = 1 ∧ (0 : Nat) < 32 ∧ ¬ (0 ≤ (-1 : Int) ∧ (-1 : Int) < 2 ^ 32) ∧
    ([5, -7, 2 ^ 32 + 1].sum : Int) % 2 ^ 32 = 2 ^ 32 - 1 := by decide
example : lcgAfter 32 0x41C64E6D 0x6073 1 (0x0A3561A1#32 : BitVec 32) = 0 := by decide

end Verif.Lcrng
