import Verif.Py.Eval
import Verif.Model.Lcrng
/-
Loops that halve a distance (`while adv: ...; adv >>= 1; i += 1`).
-/
namespace Verif.Py

theorem get_put (x y : String) (v : α) : ∀ l : List (String × α), get x (put y v l) = if y = x then some v else get x l
  | [] => by simp [put, get]
  | (z, u) :: l => by
    by_cases h : z = y
    · subst h
      by_cases h2 : z = x <;> simp [put, get, h2]
    · by_cases h2 : z = x
      · subst h2
        simp [put, get, h, Ne.symm h]
      · simp only [put, get, h, h2, if_false, get_put x y v l]

/-- the values of the loop variable of `for i in range(a, a + n)` -/
def counted (mode : Mode) (a n : Nat) : List Val := (List.range n).map fun (i : Nat) => literal mode ((a : Int) + i)

theorem counted_succ (mode : Mode) (a n : Nat) : counted mode a (n + 1) = literal mode a :: counted mode (a + 1) n := by
  rw [counted, List.range_succ_eq_map, List.map_cons, List.map_map, counted]
  simp only [Nat.cast_zero, add_zero, List.cons.injEq, true_and]
  refine List.map_congr_left fun i _ => ?_
  simp only [Function.comp_apply]
  congr 1
  push_cast
  omega

/-- a counted loop whose rounds all go on: an invariant of the world and of a state that each round changes -/
theorem loop_counted {body : Val → M Ctl} {mode : Mode} (R : World → τ → Prop) (g : τ → Nat → τ) :
    ∀ (n a : Nat), (∀ i, a ≤ i → i < a + n → ∀ w t, R w t → ∃ w', body (literal mode i) w = (.ok .next, w') ∧ R w' (g t i)) →
    ∀ (w : World) (t : τ), R w t →
      ∃ w', loop body (counted mode a n) w = (.ok .next, w') ∧ R w' ((List.range' a n).foldl g t)
  | 0, a, _, w, t, hR => ⟨w, rfl, hR⟩
  | n + 1, a, h, w, t, hR => by
    obtain ⟨w1, h1, h2⟩ := h a (le_refl a) (by omega) w t hR
    obtain ⟨w2, h3, h4⟩ := loop_counted R g n (a + 1) (fun i hi hj => h i (by omega) (by omega)) w1 (g t a) h2
    exact ⟨w2, by simp [counted_succ, loop, M.bind, h1, h3], by simpa [List.range'_succ] using h4⟩

theorem toInt_literal (mode : Mode) (k : Nat) (h : k < 2 ^ 63) : toInt (literal mode k) = some (k : Int) := by
  cases mode
  · have : (BitVec.ofInt 64 (k : Int)).toInt = k := by
      rw [BitVec.toInt_ofInt]; rw [Int.bmod_eq_of_le] <;> omega
    simp only [literal, toInt, if_true, this]
  · rfl

/-- an index that is a Python integer or an `int64` -/
theorem position_literal (mode : Mode) (n k : Nat) (h : k < 2 ^ 63) :
    position n (literal mode k) = if k < n then .ok k else .error .indexError := by
  rw [position, toInt_literal mode k h]
  simp

/-- `for x in range(a, b)` with constants -/
theorem for_counted {E : Env} {types : List (String × Ty)} {fuel : Nat} {x : String} {body : Stmt} {w : World} (a b : Nat)
    (ha : a < 2 ^ 63) (hb : b < 2 ^ 63) :
    exec E types fuel (.for x (.call "range" (.cons (.num a) (.cons (.num b) .nil))) body) w
      = loop (fun v => (storeLocal E types x v).bind fun _ => exec E types fuel body) (counted E.mode a (b - a)) w := by
  simp only [exec, eval, M.bind, M.pure, builtin, if_true, M.lift, range, toInt_literal _ _ ha, toInt_literal _ _ hb, counted]
  simp [show ((b : Int) - a).toNat = b - a by omega]

/-- `for x in range(b)` with a constant -/
theorem for_counted' {E : Env} {types : List (String × Ty)} {fuel : Nat} {x : String} {body : Stmt} {w : World} (b : Nat)
    (hb : b < 2 ^ 63) :
    exec E types fuel (.for x (.call "range" (.cons (.num b) .nil)) body) w
      = loop (fun v => (storeLocal E types x v).bind fun _ => exec E types fuel body) (counted E.mode 0 b) w := by
  simp only [exec, eval, M.bind, M.pure, builtin, if_true, M.lift, range, toInt_literal _ _ hb, counted]
  simp

/-- `for x in range(a, b)` with constants, an invariant of the world and of a state that each round changes -/
theorem for_fold {E : Env} {types : List (String × Ty)} {fuel : Nat} {x : String} {body : Stmt} (R : World → τ → Prop)
    (g : τ → Nat → τ) (a b : Nat) (ha : a < 2 ^ 63) (hb : b < 2 ^ 63)
    (step : ∀ i, a ≤ i → i < b → ∀ w t, R w t → ∃ w',
      ((storeLocal E types x (literal E.mode i)).bind fun _ => exec E types fuel body) w = (.ok .next, w') ∧ R w' (g t i))
    {w : World} {t : τ} (h : R w t) :
    ∃ w', exec E types fuel (.for x (.call "range" (.cons (.num (a : Int)) (.cons (.num (b : Int)) .nil))) body) w = (.ok .next, w')
      ∧ R w' ((List.range' a (b - a)).foldl g t) := by
  obtain ⟨w', h1, h2⟩ := loop_counted (mode := E.mode) R g (b - a) a
    (body := fun v => (storeLocal E types x v).bind fun _ => exec E types fuel body)
    (fun i hi hj w t hR => step i hi (by omega) w t hR) w t h
  exact ⟨w', by rw [for_counted a b ha hb]; exact h1, h2⟩

/-- `for x in range(b)` with a constant, likewise -/
theorem for_fold' {E : Env} {types : List (String × Ty)} {fuel : Nat} {x : String} {body : Stmt} (R : World → τ → Prop)
    (g : τ → Nat → τ) (b : Nat) (hb : b < 2 ^ 63)
    (step : ∀ i, i < b → ∀ w t, R w t → ∃ w',
      ((storeLocal E types x (literal E.mode i)).bind fun _ => exec E types fuel body) w = (.ok .next, w') ∧ R w' (g t i))
    {w : World} {t : τ} (h : R w t) :
    ∃ w', exec E types fuel (.for x (.call "range" (.cons (.num (b : Int)) .nil)) body) w = (.ok .next, w')
      ∧ R w' ((List.range' 0 b).foldl g t) := by
  obtain ⟨w', h1, h2⟩ := loop_counted (mode := E.mode) R g b 0
    (body := fun v => (storeLocal E types x v).bind fun _ => exec E types fuel body)
    (fun i _ hj w t hR => step i (by omega) w t hR) w t h
  exact ⟨w', by rw [for_counted' b hb]; exact h1, h2⟩

/-- the values of a distance for which the loop behaves: unsigned integers and non-negative signed integers in compiled code, Python
integers and unsigned integers of fewer than 64 bits otherwise, and what they become -/
inductive Dist : Mode → Val → Nat → Prop
  | numba (w : Nat) (x : BitVec w) (h : w ≤ 64) : Dist .numba (.sc false w x) x.toNat
  | int (n : Nat) : Dist .numpy (.int n) n
  | numpy (w : Nat) (x : BitVec w) (h : w < 64) : Dist .numpy (.sc false w x) x.toNat
  | long (mode : Mode) (x : BitVec 64) (h : x.toNat < 2 ^ 63) : Dist mode (.sc true 64 x) x.toNat

theorem ne_zero_bv (x : BitVec w) : (x != 0#w) = decide (x.toNat ≠ 0) := by
  rw [Bool.eq_iff_iff]
  simp [← BitVec.toNat_inj]

theorem low_bv (x : BitVec 64) : (x &&& 1#64 != 0#64) = decide (x.toNat % 2 = 1) := by
  rw [ne_zero_bv, Bool.eq_iff_iff]
  simp only [BitVec.toNat_and, decide_eq_true_iff]
  rw [show BitVec.toNat 1#64 = 1 from rfl, Nat.and_one_is_mod]
  omega

theorem toNat_setWidth64 (x : BitVec w) (h : w ≤ 64) : (x.setWidth 64).toNat = x.toNat := by
  rw [BitVec.toNat_setWidth, Nat.mod_eq_of_lt (lt_of_lt_of_le x.isLt (Nat.pow_le_pow_right (by omega) h))]

theorem Dist.truth (h : Dist mode v n) : truth v = .ok (decide (n ≠ 0)) := by
  cases h <;> simp [Py.truth, ne_zero_bv]
  rw [Bool.eq_iff_iff]; simp

theorem Dist.low (h : Dist mode v n) : (binop mode .and v (literal mode 1)).bind Py.truth = .ok (decide (n % 2 = 1)) := by
  cases h with
  | numba w x h => simp [py, low_bv, toNat_setWidth64 x h]
  | int n =>
    have : Int.land n 1 = ((n % 2 : Nat) : Int) := by rw [← Nat.and_one_is_mod]; rfl
    simp only [py, this]
    rcases Nat.mod_two_eq_zero_or_one n with h | h <;> simp [h]
  | numpy w x h => simp [py, h, low_bv, toNat_setWidth64 x h.le]
  | long _ x h => cases mode <;> simp [py, low_bv]

theorem Dist.half (h : Dist mode v n) : ∃ v', binop mode .shr v (literal mode 1) = .ok v' ∧ Dist mode v' (n / 2) := by
  cases h with
  | numba w x h =>
    refine ⟨.sc false 64 (x.setWidth 64 >>> 1), by simp [py], ?_⟩
    have := Dist.numba 64 (x.setWidth 64 >>> 1) (le_refl _)
    rwa [BitVec.toNat_ushiftRight, toNat_setWidth64 x h, Nat.shiftRight_eq_div_pow] at this
  | int n =>
    refine ⟨.int (n / 2 : Nat), ?_, .int _⟩
    simp [py, Int.fdiv_eq_ediv]
  | numpy w x h =>
    have hx := x.isLt
    have hw : 2 ^ w ≤ 2 ^ 63 := Nat.pow_le_pow_right (by omega) (by omega)
    have e : (x.setWidth 64).sshiftRight 1 = x.setWidth 64 >>> 1 := by
      rw [BitVec.sshiftRight_eq_of_msb_false]
      rw [BitVec.msb_eq_decide, toNat_setWidth64 x h.le]; simp; omega
    refine ⟨.sc true 64 (x.setWidth 64 >>> 1), by simp [py, h, e], ?_⟩
    have hn : (x.setWidth 64 >>> 1).toNat = x.toNat / 2 := by
      rw [BitVec.toNat_ushiftRight, toNat_setWidth64 x h.le, Nat.shiftRight_eq_div_pow]
    have := Dist.long .numpy (x.setWidth 64 >>> 1) (by omega)
    rwa [hn] at this
  | long _ x h =>
    have e : x.sshiftRight 1 = x >>> 1 := by
      rw [BitVec.sshiftRight_eq_of_msb_false]
      rw [BitVec.msb_eq_decide]; simp; omega
    refine ⟨.sc true 64 (x >>> 1), by cases mode <;> simp [py, e], ?_⟩
    have hn : (x >>> 1).toNat = x.toNat / 2 := by
      rw [BitVec.toNat_ushiftRight, Nat.shiftRight_eq_div_pow]
    have := Dist.long mode (x >>> 1) (by omega)
    rwa [hn] at this

/-- `jump` returns the new seed -/
theorem jumpLoop_ok (tbl : List (BitVec w × BitVec w)) : ∀ (n i : Nat) (s : BitVec w) {s' x : BitVec w},
    Lcrng.jumpLoop tbl n i s = (s', .ok x) → x = s' := by
  intro n
  induction n using Nat.strongRecOn with
  | ind n ih =>
  intro i s s' x h
  rw [Lcrng.jumpLoop] at h
  split at h
  · simp at h; rw [← h.1, ← h.2]
  · split at h
    · split at h
      · simp at h
      · exact ih _ (by omega) _ _ h
    · exact ih _ (by omega) _ _ h

end Verif.Py
