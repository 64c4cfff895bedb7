import Verif.Model.WildGen3
import Verif.Spec.Gen3
import Verif.Props.Lcrng
/-
Draws of the Gen 3 code as outputs of the specified generator; the slot table loop.
-/
namespace Verif.Gen3
open Spec.Gen3

theorem next_eq (seed : BitVec 32) : next seed = after 1 seed := by
  have := Lcrng.C01_next Lcrng.pokeRNGParams seed
  exact this

theorem after_after (m n : Nat) (seed : BitVec 32) : after m (after n seed) = after (m + n) seed := by
  simp only [after, Spec.lcgAfter, Function.iterate_add_apply]

theorem out_after (m n : Nat) (seed : BitVec 32) : out m (after n seed) = out (m + n) seed := by
  simp only [out, after_after]

theorem out_lt (n : Nat) (seed : BitVec 32) : out n seed < 65536 := by
  have := (after n seed).isLt
  simp only [out]; omega

theorem u16_eq (seed : BitVec 32) : u16 seed = (after 1 seed, BitVec.ofNat 16 (out 1 seed)) := by
  have h : (u16 seed).1 = next seed := rfl
  have h2 : (u16 seed).2 = ((next seed) >>> 16).setWidth 16 := rfl
  refine Prod.ext (by rw [h, next_eq]) ?_
  rw [h2, next_eq, out]
  apply BitVec.eq_of_toNat_eq
  simp [Nat.shiftRight_eq_div_pow]

theorem draw_eq (m : BitVec 16) (hm : m ≠ 0) (seed : BitVec 32) :
    draw m seed = .ok (after 1 seed, BitVec.ofNat 16 (out 1 seed % m.toNat)) := by
  have h := u16_eq seed
  have hd : draw m seed = .ok ((u16 seed).1, (u16 seed).2 % m) := by
    simp only [draw, Lcrng.nextRand32, pyMod, if_neg hm]; rfl
  rw [hd, h]
  congr 2
  apply BitVec.eq_of_toNat_eq
  have h1 := out_lt 1 seed
  have h2 : out 1 seed % m.toNat ≤ out 1 seed := Nat.mod_le _ _
  simp only [BitVec.toNat_umod, BitVec.toNat_ofNat]
  have e1 : out 1 seed % 2 ^ 16 = out 1 seed := Nat.mod_eq_of_lt (by omega)
  have e2 : out 1 seed % m.toNat % 2 ^ 16 = out 1 seed % m.toNat := Nat.mod_eq_of_lt (by omega)
  rw [e1, e2]

theorem draw_zero (seed : BitVec 32) : draw 0 seed = .err .zeroDivision := rfl

/-! ### the table loop -/

theorem fillLoop_get (v : BitVec 8) (n : Nat) : ∀ (r : Nat) (last : Int) (table : List (BitVec 8)),
    table.length = 100 → r + n ≤ 100 → ∃ t', fillLoop v 1 n r last table = .ok (if n = 0 then last else (r + n - 1 : Int), t') ∧
      t'.length = 100 ∧ ∀ k, t'[k]? = if r ≤ k ∧ k < r + n then some v else table[k]? := by
  induction n with
  | zero => intro r last table ht _; exact ⟨table, by simp [fillLoop], ht, fun k => by rw [if_neg (by omega)]⟩
  | succ n ih =>
    intro r last table ht hr
    have hset : pySet table (r : Int) v = .ok (table.set r v) := by
      rw [pySet, if_pos (by omega)]; simp
    obtain ⟨t', h1, h2, h3⟩ := ih (r + 1) r (table.set r v) (by simpa using ht) (by omega)
    refine ⟨t', ?_, h2, fun k => ?_⟩
    · rw [fillLoop, hset]
      show fillLoop v 1 n ((r : Int) + 1) r (table.set r v) = _
      have e : ((r : Int) + 1) = ((r + 1 : Nat) : Int) := by push_cast; rfl
      rw [e, h1]
      have e2 : (if n = 0 then (r : Int) else ((r + 1 : Nat) : Int) + (n : Int) - 1)
          = if n + 1 = 0 then last else ((r : Int) + ((n + 1 : Nat) : Int) - 1) := by
        by_cases hn : n = 0
        · simp [hn]
        · rw [if_neg hn, if_neg (by omega)]; push_cast; ring
      rw [e2]
    · rw [h3 k, List.getElem?_set]
      by_cases hk : r = k
      · subst hk
        rw [if_neg (by omega), if_pos rfl, if_pos (by omega), if_pos (by omega)]
      · rw [if_neg hk]
        by_cases h : r + 1 ≤ k ∧ k < r + 1 + n
        · rw [if_pos h, if_pos (by omega)]
        · rw [if_neg h, if_neg (by omega)]

theorem filter_le_eq_nil {l : List Nat} {r : Nat} (h : ∀ b ∈ l, r < b) : l.filter (· ≤ r) = [] := by
  rw [List.filter_eq_nil_iff]
  intro b hb
  have := h b hb
  simp; omega

theorem tableLoop_get (rest : List Nat) : ∀ (i a : Nat) (table : List (BitVec 8)), table.length = 100 → rest ≠ [] →
    (a :: rest).Pairwise (fun x y => x < y) → (∀ b ∈ rest, b ≤ 100) →
    ∃ t', tableLoop false i (rest.map Nat.cast) a table = .ok t' ∧ t'.length = 100 ∧
      ∀ k, t'[k]? = if a ≤ k ∧ k < rest.getLastD 0 then some (BitVec.ofNat 8 (i + (rest.dropLast.filter (· ≤ k + 1)).length))
        else table[k]? := by
  induction rest with
  | nil => intro _ _ _ _ h; exact absurd rfl h
  | cons b rest ih =>
    intro i a table ht _ hp hb
    have hab : a < b := by rw [List.pairwise_cons] at hp; exact hp.1 b (by simp)
    obtain ⟨t1, h1, h2, h3⟩ := fillLoop_get (BitVec.ofNat 8 i) (b - a) a a table ht (by have := hb b (by simp); omega)
    have hn : ((b : Int) - (a : Int)).toNat = b - a := by omega
    have hval : (if b - a = 0 then (a : Int) else ((a : Int) + ((b - a : Nat) : Int) - 1)) = ((b - 1 : Nat) : Int) := by
      rw [if_neg (by omega)]; omega
    rw [hval] at h1
    cases rest with
    | nil =>
      refine ⟨t1, ?_, h2, fun k => ?_⟩
      · simp [tableLoop, hn, h1]
      · rw [h3 k]
        have e : (a ≤ k ∧ k < a + (b - a)) ↔ (a ≤ k ∧ k < b) := by omega
        simp [e]
    | cons c rest =>
      have hp' := hp
      rw [List.pairwise_cons, List.pairwise_cons] at hp
      obtain ⟨t2, g1, g2, g3⟩ := ih (i + 1) (b - 1) t1 h2 (by simp)
        (by rw [List.pairwise_cons]; exact ⟨fun x hx => by have := hp.2.1 x hx; omega, hp.2.2⟩)
        (fun x hx => hb x (List.mem_cons_of_mem _ hx))
      refine ⟨t2, ?_, g2, fun k => ?_⟩
      · rw [List.map_cons, tableLoop]
        simp only [Bool.false_eq_true, if_false]
        rw [hn, h1]
        exact g1
      · have hlast : (b :: c :: rest).getLastD 0 = (c :: rest).getLastD 0 := by rfl
        have hcl : b < (c :: rest).getLastD 0 := by
          have : (c :: rest).getLastD 0 ∈ (c :: rest) := by
            rw [List.getLastD_eq_getLast?, List.getLast?_eq_some_getLast (by simp)]
            exact List.getLast_mem _
          exact hp.2.1 _ this
        have hdrop : (b :: c :: rest).dropLast = b :: (c :: rest).dropLast := rfl
        rw [g3 k, h3 k, hlast, hdrop, List.filter_cons]
        generalize (c :: rest).getLastD 0 = z at *
        by_cases hk : b - 1 ≤ k
        · have hbk : b ≤ k + 1 := by omega
          by_cases hk2 : k < z
          · rw [if_pos ⟨hk, hk2⟩, if_pos (by omega)]
            simp only [hbk, decide_true, if_true, List.length_cons]
            congr 2; omega
          · rw [if_neg (by omega), if_neg (by omega), if_neg (by omega)]
        · have hempty : (c :: rest).dropLast.filter (· ≤ k + 1) = [] := by
            apply filter_le_eq_nil
            intro x hx
            have := hp.2.1 x (List.dropLast_subset _ hx)
            omega
          have hbk : ¬ b ≤ k + 1 := by omega
          rw [if_neg (by omega)]
          by_cases ha : a ≤ k
          · rw [if_pos (by omega), if_pos (by omega)]
            simp [hbk, hempty]
          · rw [if_neg (by omega), if_neg (by omega)]

end Verif.Gen3
