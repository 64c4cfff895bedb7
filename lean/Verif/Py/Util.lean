import Verif.Py.Count
import Verif.Model.Util
import Verif.Model.Gen3Util
/-
C133 for util.py and fnv.py: the source text computes what the model says.
-/
namespace Verif.Py.Util
open Verif Verif.Util

/-- a possibly undefined result -/
def undef (x : Option (BitVec w)) : Except PyErr Val := match x with | some x => .ok (.sc false w x) | .none => .error .other

theorem changeEndian_invoke (E : Env) (fuel : Nat) (v : BitVec 32) (w : World) :
    invoke E fuel Source.change_endian_u32 [.sc false 32 v] w = (.ok (.sc false 32 (changeEndian v)), w) := by
  have e : (v <<< 8).setWidth 64 &&& 4278255360#64 ||| v.setWidth 64 >>> 8 &&& 16711935#64
      = (v <<< 8 &&& 4278255360#32 ||| v >>> 8 &&& 16711935#32).setWidth 64 := by
    rw [← widen_shr]; simp
  cases hm : E.mode <;> simp [py, Source.change_endian_u32, hm, changeEndian, narrow_shr]
  rw [e, narrow_shr]

/-- the counts that occur -/
theorem counts (n : BitVec 8) (k : Nat) : n.toNat % 18446744073709551616 = n.toNat ∧ n.toNat % 256 = n.toNat
    ∧ 18446744073709551616 + k - n.toNat = 18446744073709551616 - n.toNat + k ∧ 256 + k - n.toNat = 256 - n.toNat + k
    ∧ (256 - n.toNat + k) % 256 % 18446744073709551616 = (256 - n.toNat + k) % 256
    ∧ (256 - n.toNat + k) % 256 % 4294967296 = (256 - n.toNat + k) % 256 ∧ n.toNat % 4294967296 = n.toNat := by
  have hn := n.isLt
  omega

theorem rotateLeft32_invoke (E : Env) (fuel : Nat) (v : BitVec 32) (n : BitVec 8) (w : World) :
    invoke E fuel Source.rotate_left_u32 [.sc false 32 v, .sc false 8 n] w = (undef (rotateLeft32 E.mode v n.toNat), w) := by
  obtain ⟨e1, e2, e3, e4, e5, e6, e7⟩ := counts n 32
  simp only [Nat.reduceAdd] at e3 e4
  cases hm : E.mode <;> by_cases h : n.toNat < 64 <;> by_cases h4 : n.toNat < 32 <;>
    by_cases h2 : (18446744073709551616 - n.toNat + 32) % 18446744073709551616 < 64 <;>
    by_cases h3 : (256 - n.toNat + 32) % 256 < 32 <;>
    simp [py, Source.rotate_left_u32, hm, rotateLeft32, undef, orOpt, Util.shl, Util.shr, subCount, e1, e2, e3, e4, e6, e7, h, h2, h3, h4]

theorem rotateRight32_invoke (E : Env) (fuel : Nat) (v : BitVec 32) (n : BitVec 8) (w : World) :
    invoke E fuel Source.rotate_right_u32 [.sc false 32 v, .sc false 8 n] w = (undef (rotateRight32 E.mode v n.toNat), w) := by
  obtain ⟨e1, e2, e3, e4, e5, e6, e7⟩ := counts n 32
  simp only [Nat.reduceAdd] at e3 e4
  cases hm : E.mode <;> by_cases h : n.toNat < 64 <;> by_cases h4 : n.toNat < 32 <;>
    by_cases h2 : (18446744073709551616 - n.toNat + 32) % 18446744073709551616 < 64 <;>
    by_cases h3 : (256 - n.toNat + 32) % 256 < 32 <;>
    simp [py, Source.rotate_right_u32, hm, rotateRight32, undef, orOpt, Util.shl, Util.shr, subCount, e1, e2, e3, e4, e6, e7, h, h2, h3, h4]

theorem rotateLeft64_invoke (E : Env) (fuel : Nat) (v : BitVec 64) (n : BitVec 8) (w : World) :
    invoke E fuel Source.rotate_left_u64 [.sc false 64 v, .sc false 8 n] w = (undef (rotateLeft64 E.mode v n.toNat), w) := by
  obtain ⟨e1, e2, e3, e4, e5, e6, e7⟩ := counts n 64
  simp only [Nat.reduceAdd] at e3 e4
  cases hm : E.mode <;> by_cases h : n.toNat < 64 <;>
    by_cases h2 : (18446744073709551616 - n.toNat + 64) % 18446744073709551616 < 64 <;>
    by_cases h3 : (256 - n.toNat + 64) % 256 < 64 <;>
    simp [py, Source.rotate_left_u64, hm, rotateLeft64, undef, orOpt, Util.shl, Util.shr, subCount, e1, e2, e3, e4, e5, h, h2, h3]

theorem rotateRight64_invoke (E : Env) (fuel : Nat) (v : BitVec 64) (n : BitVec 8) (w : World) :
    invoke E fuel Source.rotate_right_u64 [.sc false 64 v, .sc false 8 n] w = (undef (rotateRight64 E.mode v n.toNat), w) := by
  obtain ⟨e1, e2, e3, e4, e5, e6, e7⟩ := counts n 64
  simp only [Nat.reduceAdd] at e3 e4
  cases hm : E.mode <;> by_cases h : n.toNat < 64 <;>
    by_cases h2 : (18446744073709551616 - n.toNat + 64) % 18446744073709551616 < 64 <;>
    by_cases h3 : (256 - n.toNat + 64) % 256 < 64 <;>
    simp [py, Source.rotate_right_u64, hm, rotateRight64, undef, orOpt, Util.shl, Util.shr, subCount, e1, e2, e3, e4, e5, h, h2, h3]

/-- the same with a constant count -/
theorem rotateLeft64_literal (E : Env) (fuel : Nat) (v : BitVec 64) (k : Nat) (hk : k = 24 ∨ k = 37) (w : World) :
    invoke E fuel Source.rotate_left_u64 [.sc false 64 v, literal E.mode k] w = (undef (rotateLeft64 E.mode v k), w) := by
  rcases hk with rfl | rfl <;> cases hm : E.mode <;>
    simp [py, Source.rotate_left_u64, hm, rotateLeft64, undef, orOpt, Util.shl, Util.shr, subCount]

theorem rotateRight64_literal (E : Env) (fuel : Nat) (v : BitVec 64) (k : Nat) (hk : k = 24 ∨ k = 37) (w : World) :
    invoke E fuel Source.rotate_right_u64 [.sc false 64 v, literal E.mode k] w = (undef (rotateRight64 E.mode v k), w) := by
  rcases hk with rfl | rfl <;> cases hm : E.mode <;>
    simp [py, Source.rotate_right_u64, hm, rotateRight64, undef, orOpt, Util.shl, Util.shr, subCount]

/-! ### gen3/util.py -/

open Verif.Gen3

theorem bmod_small (n : Nat) (h : n < 2 ^ 63) : (n : Int).bmod 18446744073709551616 = n := by
  rw [Int.bmod_eq_of_le] <;> omega

theorem sshiftRight_small (x : BitVec 64) (n : Nat) (h : x.toNat < 2 ^ 63) : x.sshiftRight n = x >>> n :=
  BitVec.sshiftRight_eq_of_msb_false (by rw [BitVec.msb_eq_decide]; simpa using h)

theorem getGender_invoke (E : Env) (fuel : Nat) (pid : BitVec 32) (r : BitVec 8) (w : World) :
    ∃ v, invoke E fuel Source.get_gender [.sc false 32 pid, .sc false 8 r] w = (.ok v, w)
      ∧ toInt v = some ((getGender pid r).toNat : Int) ∧ (E.mode = .numba → v = .sc false 8 (getGender pid r)) := by
  have h (k : Nat) (hk : k < 256) : (r = BitVec.ofNat 8 k) = ((r.toNat : Int) = k) := by
    rw [← BitVec.toNat_inj, BitVec.toNat_ofNat, Nat.mod_eq_of_lt hk, Nat.cast_inj]
  have h1 : (r = 255#8) = ((r.toNat : Int) = 255) := h 255 (by decide)
  have h2 : (r = 254#8) = ((r.toNat : Int) = 254) := h 254 (by decide)
  have h3 : (r = 0#8) = ((r.toNat : Int) = 0) := h 0 (by decide)
  simp only [getGender, BitVec.ofNat_eq_ofNat, h1, h2, h3, BitVec.lt_def]
  by_cases c1 : (r.toNat : Int) = 255
  · cases hm : E.mode <;> simp [py, Source.get_gender, hm, c1]
  by_cases c2 : (r.toNat : Int) = 254
  · cases hm : E.mode <;> simp [py, Source.get_gender, hm, c2]
  by_cases c3 : (r.toNat : Int) = 0
  · cases hm : E.mode <;> simp [py, Source.get_gender, hm, c3]
  have c4 : ¬ r.toNat = 0 := by omega
  have e1 : pid.toNat % 18446744073709551616 = pid.toNat := Nat.mod_eq_of_lt (by omega)
  have e2 : r.toNat % 4294967296 = r.toNat := Nat.mod_eq_of_lt (by omega)
  have e3 : pid.toNat &&& 255 < 2 ^ 63 := lt_of_le_of_lt Nat.and_le_right (by decide)
  cases hm : E.mode <;> simp [py, Source.get_gender, hm, c1, c2, c4, e1, e2, bmod_small _ e3]
  split <;> rfl

theorem getShiny_invoke (E : Env) (fuel : Nat) (pid : BitVec 32) (t : BitVec 16) (w : World) :
    ∃ v, invoke E fuel Source.get_shiny [.sc false 32 pid, .sc false 16 t] w = (.ok v, w)
      ∧ toInt v = some ((getShiny pid t).toNat : Int) ∧ (E.mode = .numba → v = .sc false 8 (getShiny pid t)) := by
  have e1 : pid.toNat % 18446744073709551616 = pid.toNat := Nat.mod_eq_of_lt (by omega)
  have e2 : t.toNat % 18446744073709551616 = t.toNat := Nat.mod_eq_of_lt (by omega)
  have e3 : pid.toNat >>> 16 ^^^ pid.toNat &&& 65535 < 2 ^ 63 := by
    refine Nat.xor_lt_two_pow ?_ (lt_of_le_of_lt Nat.and_le_right (by decide))
    rw [Nat.shiftRight_eq_div_pow]; omega
  have e4 : t.toNat ^^^ (pid.toNat >>> 16 ^^^ pid.toNat &&& 65535) < 2 ^ 63 := Nat.xor_lt_two_pow (by omega) e3
  have e5 : t.toNat % 4294967296 = t.toNat := Nat.mod_eq_of_lt (by omega)
  have h1 : (t.setWidth 32 = pid >>> 16 ^^^ pid &&& 65535#32) = (t.toNat = pid.toNat >>> 16 ^^^ pid.toNat &&& 65535) := by
    rw [← BitVec.toNat_inj]; simp [e5]
  have h2 : (t.setWidth 32 ^^^ (pid >>> 16 ^^^ pid &&& 65535#32) < 8#32)
      = (t.toNat ^^^ (pid.toNat >>> 16 ^^^ pid.toNat &&& 65535) < 8) := by
    rw [BitVec.lt_def]; simp [e5]
  have e6 (n : Nat) : (pid.setWidth 64).sshiftRight n = pid.setWidth 64 >>> n := sshiftRight_small _ n (by simp; omega)
  simp only [getShiny, BitVec.ofNat_eq_ofNat, h1, h2]
  by_cases c1 : t.toNat = pid.toNat >>> 16 ^^^ pid.toNat &&& 65535
  · cases hm : E.mode <;> simp [py, Source.get_shiny, hm, e1, e6, bmod_small _ e3, c1]
  by_cases c2 : t.toNat ^^^ (pid.toNat >>> 16 ^^^ pid.toNat &&& 65535) < 8
  · have c2' : ((t.toNat ^^^ (pid.toNat >>> 16 ^^^ pid.toNat &&& 65535) : Nat) : Int) < 8 := by omega
    cases hm : E.mode <;> simp [py, Source.get_shiny, hm, e1, e6, e2, bmod_small _ e3, bmod_small _ e4, c1, c2, c2']
  · have c2' : ¬ ((t.toNat ^^^ (pid.toNat >>> 16 ^^^ pid.toNat &&& 65535) : Nat) : Int) < 8 := by omega
    cases hm : E.mode <;> simp [py, Source.get_shiny, hm, e1, e6, e2, bmod_small _ e3, bmod_small _ e4, c1, c2, c2']

theorem unownCheck_invoke (E : Env) (fuel : Nat) (pid : BitVec 32) (f : BitVec 8) (w : World) :
    invoke E fuel Source.unown_check [.sc false 32 pid, .sc false 8 f] w = (.ok (.bool (unownCheck pid f)), w) := by
  have e1 : pid.toNat % 18446744073709551616 = pid.toNat := Nat.mod_eq_of_lt (by omega)
  have e2 : f.toNat % 4294967296 = f.toNat := Nat.mod_eq_of_lt (by omega)
  have e3 (m : BitVec 64) (n : Nat) (h : m.toNat < 2 ^ 63) : (pid.setWidth 64 &&& m).sshiftRight n = (pid.setWidth 64 &&& m) >>> n :=
    sshiftRight_small _ n (by rw [BitVec.toNat_and]; exact lt_of_le_of_lt Nat.and_le_right h)
  generalize hX : (pid.toNat &&& 50331648) >>> 18 ||| (pid.toNat &&& 196608) >>> 12 ||| (pid.toNat &&& 768) >>> 6 ||| pid.toNat &&& 3 = X
  have e4 : X < 2 ^ 63 := by
    have hp := pid.isLt
    have b (m n : Nat) : (pid.toNat &&& m) >>> n < 2 ^ 63 := by
      rw [Nat.shiftRight_eq_div_pow]
      refine lt_of_le_of_lt (Nat.div_le_self _ _) (lt_of_le_of_lt Nat.and_le_left (by omega))
    have b0 := b 3 0
    rw [← hX]
    exact Nat.or_lt_two_pow (Nat.or_lt_two_pow (Nat.or_lt_two_pow (b _ _) (b _ _)) (b _ _)) b0
  have h1 : (unownLetter pid = f.setWidth 32) = (X % 28 = f.toNat) := by
    rw [← BitVec.toNat_inj]; simp [unownLetter, e2, hX]
  have e7 : X % 28 < 2 ^ 63 := by omega
  simp only [unownCheck, h1]
  have e8 : ((X : Int).fmod 28).bmod 18446744073709551616 = ((X % 28 : Nat) : Int) := by
    rw [Int.fmod_eq_emod_of_nonneg _ (by decide)]
    exact bmod_small _ e7
  cases hm : E.mode <;> simp [py, Source.unown_check, hm, e1, e3, hX, bmod_small _ e4, e8]
  all_goals omega

/-! ### fnv.py -/

/-- a loop over the characters of a string -/
theorem loop_chars {body : Val → M Ctl} (R : World → τ → Prop) (g : τ → Nat → τ)
    (step : ∀ c w t, R w t → ∃ w', body (.str [c]) w = (.ok .next, w') ∧ R w' (g t c)) :
    ∀ (cs : List Nat) (w : World) (t : τ), R w t →
      ∃ w', loop body (cs.map fun c => .str [c]) w = (.ok .next, w') ∧ R w' (cs.foldl g t)
  | [], w, t, hR => ⟨w, rfl, hR⟩
  | c :: cs, w, t, hR => by
    obtain ⟨w1, h1, h2⟩ := step c w t hR
    obtain ⟨w2, h3, h4⟩ := loop_chars R g step cs w1 (g t c) h2
    exact ⟨w2, by simp [loop, M.bind, h1, h3], h4⟩

/-- the loop variable and the hash after some rounds -/
def Hash (w0 w : World) (h : BitVec 64) : Prop :=
  get "hash_" w.locals = some (.sc false 64 h) ∧ w.fields = w0.fields ∧ w.arrays = w0.arrays

theorem fnv1_invoke (E : Env) (fuel : Nat) (cs : List Nat) (w : World) :
    invoke E fuel Source.fnv1_64 [.str cs] w = (.ok (.sc false 64 (fnv1 (cs.map (BitVec.ofNat 64)))), w) := by
  obtain ⟨w', h1, h2, h3, h4⟩ := loop_chars
    (body := fun v => (storeLocal E [] "char" v).bind fun _ => exec E [] fuel (.seq
      (.aug .mul (.var "hash_") (.cast u64 (.num 0x100000001B3)))
      (.aug .xor (.var "hash_") (.cast u64 (.call "ord" (.cons (.var "char") .nil))))))
    (Hash w) (fun h c => (h * 0x00000100000001B3) ^^^ BitVec.ofNat 64 c) (fun c w' t ⟨h1, h2, h3⟩ => by
      cases hm : E.mode <;>
        exact ⟨⟨put "hash_" (.sc false 64 ((t * 0x00000100000001B3) ^^^ BitVec.ofNat 64 c)) (put "hash_" (.sc false 64 (t * 0x00000100000001B3))
            (put "char" (.str [c]) w'.locals)), w.fields, w.arrays⟩,
          by simp [py, hm, get_put, h1, h2, h3], by simp [Hash, get_put]⟩)
    cs ⟨[("inp", .str cs), ("hash_", .sc false 64 0xCBF29CE484222645)], w.fields, w.arrays⟩ 0xCBF29CE484222645 ⟨rfl, rfl, rfl⟩
  have e : cs.foldl (fun h c => (h * 0x00000100000001B3) ^^^ BitVec.ofNat 64 c) 0xCBF29CE484222645 = fnv1 (cs.map (BitVec.ofNat 64)) := by
    rw [fnv1, List.foldl_map]
  rw [e] at h2
  refine (invoke_ret' (args' := [.str cs]) (v := .sc false 64 (fnv1 (cs.map (BitVec.ofNat 64)))) (v' := .sc false 64 (fnv1 (cs.map (BitVec.ofNat 64)))) (w' := w') ?_ ?_ rfl ?_).trans ?_
  · cases E.mode <;> rfl
  · cases E.mode <;> simp [py, Source.fnv1_64]
  · refine Eq.trans (seq_next (w' := ⟨[("inp", .str cs), ("hash_", .sc false 64 0xCBF29CE484222645)], w.fields, w.arrays⟩) ?_) ?_
    · cases hm : E.mode <;> simp [py, hm, Source.fnv1_64]
    refine Eq.trans (seq_next (w' := w') ?_) ?_
    · refine Eq.trans ?_ h1
      simp only [exec, eval, M.bind, get, if_true]
      simp [Source.fnv1_64]
    · simp [py, h2]
  · simp [h3, h4]

theorem fnv1a_invoke (E : Env) (fuel : Nat) (cs : List Nat) (w : World) :
    invoke E fuel Source.fnv1a_64 [.str cs] w = (.ok (.sc false 64 (fnv1a (cs.map (BitVec.ofNat 64)))), w) := by
  obtain ⟨w', h1, h2, h3, h4⟩ := loop_chars
    (body := fun v => (storeLocal E [] "char" v).bind fun _ => exec E [] fuel (.seq
      (.aug .xor (.var "hash_") (.cast u64 (.call "ord" (.cons (.var "char") .nil))))
      (.aug .mul (.var "hash_") (.cast u64 (.num 0x100000001B3)))))
    (Hash w) (fun h c => (h ^^^ BitVec.ofNat 64 c) * 0x00000100000001B3) (fun c w' t ⟨h1, h2, h3⟩ => by
      cases hm : E.mode <;>
        exact ⟨⟨put "hash_" (.sc false 64 ((t ^^^ BitVec.ofNat 64 c) * 0x00000100000001B3)) (put "hash_" (.sc false 64 (t ^^^ BitVec.ofNat 64 c))
            (put "char" (.str [c]) w'.locals)), w.fields, w.arrays⟩,
          by simp [py, hm, get_put, h1, h2, h3], by simp [Hash, get_put]⟩)
    cs ⟨[("inp", .str cs), ("hash_", .sc false 64 0xCBF29CE484222645)], w.fields, w.arrays⟩ 0xCBF29CE484222645 ⟨rfl, rfl, rfl⟩
  have e : cs.foldl (fun h c => (h ^^^ BitVec.ofNat 64 c) * 0x00000100000001B3) 0xCBF29CE484222645 = fnv1a (cs.map (BitVec.ofNat 64)) := by
    rw [fnv1a, List.foldl_map]
  rw [e] at h2
  refine (invoke_ret' (args' := [.str cs]) (v := .sc false 64 (fnv1a (cs.map (BitVec.ofNat 64)))) (v' := .sc false 64 (fnv1a (cs.map (BitVec.ofNat 64)))) (w' := w') ?_ ?_ rfl ?_).trans ?_
  · cases E.mode <;> rfl
  · cases E.mode <;> simp [py, Source.fnv1a_64]
  · refine Eq.trans (seq_next (w' := ⟨[("inp", .str cs), ("hash_", .sc false 64 0xCBF29CE484222645)], w.fields, w.arrays⟩) ?_) ?_
    · cases hm : E.mode <;> simp [py, hm, Source.fnv1a_64]
    refine Eq.trans (seq_next (w' := w') ?_) ?_
    · refine Eq.trans ?_ h1
      simp only [exec, eval, M.bind, get, if_true]
      simp [Source.fnv1a_64]
    · simp [py, h2]
  · simp [h3, h4]

/-! ### calls -/

/-- the functions of the modules fnv.py, util.py and gen3/util.py -/
def prog : Prog where
  funs := [("fnv1_64", Source.fnv1_64), ("fnv1a_64", Source.fnv1a_64), ("change_endian_u32", Source.change_endian_u32),
    ("rotate_left_u32", Source.rotate_left_u32), ("rotate_right_u32", Source.rotate_right_u32),
    ("rotate_left_u64", Source.rotate_left_u64), ("rotate_right_u64", Source.rotate_right_u64),
    ("get_gender", Source.get_gender), ("get_shiny", Source.get_shiny), ("unown_check", Source.unown_check)]
  globals := []
  fieldTypes := []

variable (mode : Mode) (fuel depth : Nat) (w : World)

theorem fnv1_source (cs : List Nat) :
    run prog mode fuel (depth + 1) "fnv1_64" [.str cs] w = (.ok (.sc false 64 (fnv1 (cs.map (BitVec.ofNat 64)))), w) :=
  fnv1_invoke _ _ _ _

theorem fnv1a_source (cs : List Nat) :
    run prog mode fuel (depth + 1) "fnv1a_64" [.str cs] w = (.ok (.sc false 64 (fnv1a (cs.map (BitVec.ofNat 64)))), w) :=
  fnv1a_invoke _ _ _ _

theorem changeEndian_source (v : BitVec 32) :
    run prog mode fuel (depth + 1) "change_endian_u32" [.sc false 32 v] w = (.ok (.sc false 32 (changeEndian v)), w) :=
  changeEndian_invoke _ _ _ _

theorem rotateLeft32_source (v : BitVec 32) (n : BitVec 8) :
    run prog mode fuel (depth + 1) "rotate_left_u32" [.sc false 32 v, .sc false 8 n] w = (undef (rotateLeft32 mode v n.toNat), w) :=
  rotateLeft32_invoke _ _ _ _ _

theorem rotateRight32_source (v : BitVec 32) (n : BitVec 8) :
    run prog mode fuel (depth + 1) "rotate_right_u32" [.sc false 32 v, .sc false 8 n] w = (undef (rotateRight32 mode v n.toNat), w) :=
  rotateRight32_invoke _ _ _ _ _

theorem rotateLeft64_source (v : BitVec 64) (n : BitVec 8) :
    run prog mode fuel (depth + 1) "rotate_left_u64" [.sc false 64 v, .sc false 8 n] w = (undef (rotateLeft64 mode v n.toNat), w) :=
  rotateLeft64_invoke _ _ _ _ _

theorem rotateRight64_source (v : BitVec 64) (n : BitVec 8) :
    run prog mode fuel (depth + 1) "rotate_right_u64" [.sc false 64 v, .sc false 8 n] w = (undef (rotateRight64 mode v n.toNat), w) :=
  rotateRight64_invoke _ _ _ _ _

theorem getGender_source (pid : BitVec 32) (r : BitVec 8) :
    ∃ v, run prog mode fuel (depth + 1) "get_gender" [.sc false 32 pid, .sc false 8 r] w = (.ok v, w)
      ∧ toInt v = some ((getGender pid r).toNat : Int) ∧ (mode = .numba → v = .sc false 8 (getGender pid r)) :=
  getGender_invoke ⟨mode, prog.globals, prog.fieldTypes, run prog mode fuel depth⟩ fuel pid r w

theorem getShiny_source (pid : BitVec 32) (t : BitVec 16) :
    ∃ v, run prog mode fuel (depth + 1) "get_shiny" [.sc false 32 pid, .sc false 16 t] w = (.ok v, w)
      ∧ toInt v = some ((getShiny pid t).toNat : Int) ∧ (mode = .numba → v = .sc false 8 (getShiny pid t)) :=
  getShiny_invoke ⟨mode, prog.globals, prog.fieldTypes, run prog mode fuel depth⟩ fuel pid t w

theorem unownCheck_source (pid : BitVec 32) (f : BitVec 8) :
    run prog mode fuel (depth + 1) "unown_check" [.sc false 32 pid, .sc false 8 f] w = (.ok (.bool (unownCheck pid f)), w) :=
  unownCheck_invoke _ _ _ _ _

end Verif.Py.Util
