import Verif.Lemmas.Cycle
import Verif.Props.Lcrng
/-
C103: how far consecutive outputs of an LCRNG determine its state.
-/
namespace Verif.Lcrng
open Verif.Cycle Verif.Spec

/-! ### differences of states with the same two outputs -/

/-- `x` and `y` have the same high half, and so have their successors -/
def Same (H W M C x y : Nat) : Prop := x / H = y / H ∧ (x * M + C) % W / H = (y * M + C) % W / H

theorem same_iff (H W M C x y : Nat) (h : Same H W M C x y) : ∃ q q' u v : Nat, x * M + C = W * q + u ∧ y * M + C = W * q' + v ∧
    x / H = y / H ∧ u / H = v / H ∧ u = (x * M + C) % W ∧ v = (y * M + C) % W :=
  ⟨(x * M + C) / W, (y * M + C) / W, _, _, (Nat.div_add_mod _ _).symm, (Nat.div_add_mod _ _).symm, h.1, h.2, rfl, rfl⟩

/-- The pairs (difference, difference of the successors) form a lattice with a basis of two vectors of about the length
of the half word, so only two of its vectors are that short. -/
theorem poke_diff (C x y : Nat) (h : x < y) (hs : Same 65536 4294967296 1103515245 C x y) :
    (y - x = 26579 ∧ ((y * 1103515245 + C) % 4294967296 : Nat) - ((x * 1103515245 + C) % 4294967296 : Nat) = (32471 : Int)) ∨
    (y - x = 53158 ∧ ((y * 1103515245 + C) % 4294967296 : Nat) - ((x * 1103515245 + C) % 4294967296 : Nat) = (64942 : Int)) := by
  obtain ⟨q, q', u, v, e1, e2, h1, h2, hu, hv⟩ := same_iff _ _ _ _ _ _ hs
  rw [← hu, ← hv]
  clear hu hv hs
  obtain ⟨i, hi⟩ : ∃ i : Int, i = (-1) * (19616 * (y - x) - 76347 * (q' - q)) := ⟨_, rfl⟩
  obtain ⟨j, hj⟩ : ∃ j : Int, j = (-1) * ((-26579) * (q' - q) - (-6829) * (y - x)) := ⟨_, rfl⟩
  have hd : (y - x : Int) = (-26579) * i + 76347 * j := by omega
  have hr : (v - u : Int) = (-32471) * i + (-68321) * j := by omega
  have b1 : 0 < (y - x : Int) ∧ (y - x : Int) < 65536 := by omega
  have b2 : -65536 < (v - u : Int) ∧ (v - u : Int) < 65536 := by omega
  have e : y - x = ((y - x : Int)).toNat := by omega
  rw [e]
  clear e e1 e2 h1 h2 hi hj
  generalize (y - x : Int) = d at *
  generalize (v - u : Int) = r at *
  have : -3 < i := by omega
  have : i < 3 := by omega
  have : -2 < j := by omega
  have : j < 2 := by omega
  have hj : j = -1 ∨ j = 0 ∨ j = 1 := by omega
  have hi : i = -2 ∨ i = -1 ∨ i = 0 ∨ i = 1 ∨ i = 2 := by omega
  rcases hj with rfl | rfl | rfl <;> rcases hi with rfl | rfl | rfl | rfl | rfl <;> omega

/-- The pairs (difference, difference of the successors) form a lattice with a basis of two vectors of about the length
of the half word, so only two of its vectors are that short. -/
theorem arng_diff (C x y : Nat) (h : x < y) (hs : Same 65536 4294967296 1812433253 C x y) :
    (y - x = 28804 ∧ ((y * 1812433253 + C) % 4294967296 : Nat) - ((x * 1812433253 + C) % 4294967296 : Nat) = (-63468 : Int)) ∨
    (y - x = 46603 ∧ ((y * 1812433253 + C) % 4294967296 : Nat) - ((x * 1812433253 + C) % 4294967296 : Nat) = (46423 : Int)) := by
  obtain ⟨q, q', u, v, e1, e2, h1, h2, hu, hv⟩ := same_iff _ _ _ _ _ _ hs
  rw [← hu, ← hv]
  clear hu hv hs
  obtain ⟨i, hi⟩ : ∃ i : Int, i = 1 * ((-12155) * (y - x) - (-28804) * (q' - q)) := ⟨_, rfl⟩
  obtain ⟨j, hj⟩ : ∃ j : Int, j = 1 * ((-46603) * (q' - q) - (-19666) * (y - x)) := ⟨_, rfl⟩
  have hd : (y - x : Int) = (-46603) * i + (-28804) * j := by omega
  have hr : (v - u : Int) = (-46423) * i + 63468 * j := by omega
  have b1 : 0 < (y - x : Int) ∧ (y - x : Int) < 65536 := by omega
  have b2 : -65536 < (v - u : Int) ∧ (v - u : Int) < 65536 := by omega
  have e : y - x = ((y - x : Int)).toNat := by omega
  rw [e]
  clear e e1 e2 h1 h2 hi hj
  generalize (y - x : Int) = d at *
  generalize (v - u : Int) = r at *
  have : -3 < i := by omega
  have : i < 3 := by omega
  have : -2 < j := by omega
  have : j < 2 := by omega
  have hj : j = -1 ∨ j = 0 ∨ j = 1 := by omega
  have hi : i = -2 ∨ i = -1 ∨ i = 0 ∨ i = 1 ∨ i = 2 := by omega
  rcases hj with rfl | rfl | rfl <;> rcases hi with rfl | rfl | rfl | rfl | rfl <;> omega

/-- The pairs (difference, difference of the successors) form a lattice with a basis of two vectors of about the length
of the half word, so only two of its vectors are that short. -/
theorem xd_diff (C x y : Nat) (h : x < y) (hs : Same 65536 4294967296 214013 C x y) :
    (y - x = 20069 ∧ ((y * 214013 + C) % 4294967296 : Nat) - ((x * 214013 + C) % 4294967296 : Nat) = (59601 : Int)) ∨
    (y - x = 60206 ∧ ((y * 214013 + C) % 4294967296 : Nat) - ((x * 214013 + C) % 4294967296 : Nat) = (-35210 : Int)) := by
  obtain ⟨q, q', u, v, e1, e2, h1, h2, hu, hv⟩ := same_iff _ _ _ _ _ _ hs
  rw [← hu, ← hv]
  clear hu hv hs
  obtain ⟨i, hi⟩ : ∃ i : Int, i = 1 * ((-3) * (y - x) - (-60206) * (q' - q)) := ⟨_, rfl⟩
  obtain ⟨j, hj⟩ : ∃ j : Int, j = 1 * ((-20069) * (q' - q) - (-1) * (y - x)) := ⟨_, rfl⟩
  have hd : (y - x : Int) = (-20069) * i + (-60206) * j := by omega
  have hr : (v - u : Int) = (-59601) * i + 35210 * j := by omega
  have b1 : 0 < (y - x : Int) ∧ (y - x : Int) < 65536 := by omega
  have b2 : -65536 < (v - u : Int) ∧ (v - u : Int) < 65536 := by omega
  have e : y - x = ((y - x : Int)).toNat := by omega
  rw [e]
  clear e e1 e2 h1 h2 hi hj
  generalize (y - x : Int) = d at *
  generalize (v - u : Int) = r at *
  have : -3 < i := by omega
  have : i < 3 := by omega
  have : -2 < j := by omega
  have : j < 2 := by omega
  have hj : j = -1 ∨ j = 0 ∨ j = 1 := by omega
  have hi : i = -2 ∨ i = -1 ∨ i = 0 ∨ i = 1 ∨ i = 2 := by omega
  rcases hj with rfl | rfl | rfl <;> rcases hi with rfl | rfl | rfl | rfl | rfl <;> omega

/-- The pairs (difference, difference of the successors) form a lattice with a basis of two vectors of about the length
of the half word, so only two of its vectors are that short. -/
theorem bw_diff (C x y : Nat) (h : x < y) (hs : Same 4294967296 18446744073709551616 6726279311198226789 C x y) :
    (y - x = 1993949321 ∧ ((y * 6726279311198226789 + C) % 18446744073709551616 : Nat) - ((x * 6726279311198226789 + C) % 18446744073709551616 : Nat) = (3070150413 : Int)) ∨
    (y - x = 3688131939 ∧ ((y * 6726279311198226789 + C) % 18446744073709551616 : Nat) - ((x * 6726279311198226789 + C) % 18446744073709551616 : Nat) = (-3572620529 : Int)) := by
  obtain ⟨q, q', u, v, e1, e2, h1, h2, hu, hv⟩ := same_iff _ _ _ _ _ _ hs
  rw [← hu, ← hv]
  clear hu hv hs
  obtain ⟨i, hi⟩ : ∃ i : Int, i = (-1) * (1344812150 * (y - x) - 3688131939 * (q' - q)) := ⟨_, rfl⟩
  obtain ⟨j, hj⟩ : ∃ j : Int, j = (-1) * ((-1993949321) * (q' - q) - (-727058391) * (y - x)) := ⟨_, rfl⟩
  have hd : (y - x : Int) = (-1993949321) * i + 3688131939 * j := by omega
  have hr : (v - u : Int) = (-3070150413) * i + (-3572620529) * j := by omega
  have b1 : 0 < (y - x : Int) ∧ (y - x : Int) < 4294967296 := by omega
  have b2 : -4294967296 < (v - u : Int) ∧ (v - u : Int) < 4294967296 := by omega
  have e : y - x = ((y - x : Int)).toNat := by omega
  rw [e]
  clear e e1 e2 h1 h2 hi hj
  generalize (y - x : Int) = d at *
  generalize (v - u : Int) = r at *
  have : -3 < i := by omega
  have : i < 3 := by omega
  have : -2 < j := by omega
  have : j < 2 := by omega
  have hj : j = -1 ∨ j = 0 ∨ j = 1 := by omega
  have hi : i = -2 ∨ i = -1 ∨ i = 0 ∨ i = 1 ∨ i = 2 := by omega
  rcases hj with rfl | rfl | rfl <;> rcases hi with rfl | rfl | rfl | rfl | rfl <;> omega

/-! ### counting -/

/-- If two members of a set of words can only differ by `a` or `b`, it has at most three members. -/
theorem at_most_three {w : Nat} (S : Set (BitVec w)) (a b : Nat)
    (h : ∀ s ∈ S, ∀ t ∈ S, s.toNat < t.toNat → t.toNat - s.toNat = a ∨ t.toNat - s.toNat = b) :
    S.ncard ≤ 3 ∧ (a < b → b ≠ 2 * a → S.ncard ≤ 2) := by
  rcases S.eq_empty_or_nonempty with rfl | hne
  · rw [Set.ncard_empty]; omega
  · obtain ⟨m, hm, hmin⟩ : ∃ m ∈ S, ∀ t ∈ S, m.toNat ≤ t.toNat := by
      classical
      have hex : ∃ n, ∃ m ∈ S, m.toNat = n := by
        obtain ⟨m, hm⟩ := hne
        exact ⟨_, m, hm, rfl⟩
      obtain ⟨m, hm, he⟩ := Nat.find_spec hex
      exact ⟨m, hm, fun t ht => he ▸ Nat.find_min' hex ⟨t, ht, rfl⟩⟩
    have hsub : ∀ t ∈ S, t = m ∨ t = m + BitVec.ofNat w a ∨ t = m + BitVec.ofNat w b := by
      intro t ht
      have h1 := hmin t ht
      have e : ∀ c, t.toNat - m.toNat = c → t = m + BitVec.ofNat w c := by
        intro c hc
        apply BitVec.eq_of_toNat_eq
        have := t.isLt
        rw [BitVec.toNat_add, BitVec.toNat_ofNat, Nat.mod_eq_of_lt (by omega : c < 2 ^ w), Nat.mod_eq_of_lt (by omega)]
        omega
      rcases Nat.eq_or_lt_of_le h1 with h2 | h2
      · exact .inl (BitVec.eq_of_toNat_eq h2.symm)
      · rcases h m hm t ht h2 with h3 | h3
        · exact .inr (.inl (e a h3))
        · exact .inr (.inr (e b h3))
    have card3 : ∀ x y z : BitVec w, ({x, y, z} : Set (BitVec w)).ncard ≤ 3 := by
      intro x y z
      refine (Set.ncard_insert_le _ _).trans ?_
      exact Nat.add_le_add_right ((Set.ncard_insert_le _ _).trans (by rw [Set.ncard_singleton])) 1
    have card2 : ∀ x y : BitVec w, ({x, y} : Set (BitVec w)).ncard ≤ 2 := by
      intro x y
      exact (Set.ncard_insert_le _ _).trans (by rw [Set.ncard_singleton])
    constructor
    · refine (Set.ncard_le_ncard (t := {m, m + BitVec.ofNat w a, m + BitVec.ofNat w b}) (fun t ht => ?_) (Set.toFinite _)).trans
        (card3 _ _ _)
      simpa using hsub t ht
    · intro hab hne
      by_cases hA : ∃ t ∈ S, t.toNat - m.toNat = a ∧ m.toNat < t.toNat
      · obtain ⟨t, ht, ha, hlt⟩ := hA
        refine (Set.ncard_le_ncard (t := {m, t}) (fun u hu => ?_) (Set.toFinite _)).trans (card2 _ _)
        simp only [Set.mem_insert_iff, Set.mem_singleton_iff]
        by_contra hn
        rw [not_or] at hn
        have n1 : u.toNat ≠ m.toNat := fun h' => hn.1 (BitVec.eq_of_toNat_eq h')
        have n2 : u.toNat ≠ t.toNat := fun h' => hn.2 (BitVec.eq_of_toNat_eq h')
        have h1 := hmin u hu
        have h2 := h m hm u hu (by omega)
        have h3 := h t ht u hu (by omega)
        omega
      · refine (Set.ncard_le_ncard (t := {m, m + BitVec.ofNat w b}) (fun u hu => ?_) (Set.toFinite _)).trans (card2 _ _)
        simp only [Set.mem_insert_iff, Set.mem_singleton_iff]
        by_contra hn
        rw [not_or] at hn
        have n1 : u.toNat ≠ m.toNat := fun h' => hn.1 (BitVec.eq_of_toNat_eq h')
        have h1 := hmin u hu
        have h2 := h m hm u hu (by omega)
        have h3 : u.toNat - m.toNat ≠ a := fun h' => hA ⟨u, hu, h', by omega⟩
        have h4 : u.toNat - m.toNat = b := by omega
        refine hn.2 (BitVec.eq_of_toNat_eq ?_)
        have := u.isLt
        rw [BitVec.toNat_add, BitVec.toNat_ofNat, Nat.mod_eq_of_lt (by omega : b < 2 ^ w), Nat.mod_eq_of_lt (by omega)]
        omega

/-- the states whose high half is `x` and whose successor's is `y` -/
def core (f : BitVec w → BitVec w) (H x y : Nat) : Set (BitVec w) := { t | t.toNat / H = x ∧ (f t).toNat / H = y }

theorem core_le (M C H W : Nat) (hW : W = 2 ^ w) (d1 d2 : Nat) (r1 r2 : Int)
    (hd : ∀ x y, x < y → Same H W M C x y → (y - x = d1 ∧ ((y * M + C) % W : Nat) - ((x * M + C) % W : Nat) = r1) ∨
      (y - x = d2 ∧ ((y * M + C) % W : Nat) - ((x * M + C) % W : Nat) = r2)) (x y : Nat) :
    (core (lcg w M C) H x y).ncard ≤ 3 ∧ (d1 < d2 → d2 ≠ 2 * d1 → (core (lcg w M C) H x y).ncard ≤ 2) := by
  apply at_most_three
  intro s hs t ht hlt
  have e : ∀ u : BitVec w, (lcg w M C u).toNat = (u.toNat * M + C) % W := by
    intro u
    rw [lcg, BitVec.toNat_ofNat, hW, Nat.mul_comm]
  have hS : Same H W M C s.toNat t.toNat := by
    refine ⟨hs.1.trans ht.1.symm, ?_⟩
    rw [← e, ← e]
    exact hs.2.trans ht.2.symm
  rcases hd _ _ hlt hS with h | h
  · exact .inl h.1
  · exact .inr h.1

/-- with a third output the state is unique -/
theorem core_unique (M C H W : Nat) (hW : W = 2 ^ w) (d1 d2 : Nat) (r1 r2 : Int)
    (hd : ∀ x y, x < y → Same H W M C x y → (y - x = d1 ∧ ((y * M + C) % W : Nat) - ((x * M + C) % W : Nat) = r1) ∨
      (y - x = d2 ∧ ((y * M + C) % W : Nat) - ((x * M + C) % W : Nat) = r2))
    (hr : ∀ r : Int, r = r1 ∨ r = r2 → r ≠ 0 ∧ r ≠ d1 ∧ r ≠ d2 ∧ r ≠ -d1 ∧ r ≠ -d2) (s t : BitVec w)
    (h0 : s.toNat / H = t.toNat / H) (h1 : (lcg w M C s).toNat / H = (lcg w M C t).toNat / H)
    (h2 : (lcg w M C (lcg w M C s)).toNat / H = (lcg w M C (lcg w M C t)).toNat / H) : s = t := by
  have e : ∀ u : BitVec w, (lcg w M C u).toNat = (u.toNat * M + C) % W := by
    intro u
    rw [lcg, BitVec.toNat_ofNat, hW, Nat.mul_comm]
  have key : ∀ s t : BitVec w, s.toNat / H = t.toNat / H → (lcg w M C s).toNat / H = (lcg w M C t).toNat / H →
      (lcg w M C (lcg w M C s)).toNat / H = (lcg w M C (lcg w M C t)).toNat / H → ¬ s.toNat < t.toNat := by
    intro s t h0 h1 h2 hlt
    have hS : Same H W M C s.toNat t.toNat := ⟨h0, by rw [← e, ← e]; exact h1⟩
    have hS' : Same H W M C (lcg w M C s).toNat (lcg w M C t).toNat := ⟨h1, by rw [← e, ← e]; exact h2⟩
    have hS'' : Same H W M C (lcg w M C t).toNat (lcg w M C s).toNat := ⟨h1.symm, by rw [← e, ← e]; exact h2.symm⟩
    have hrr : ∃ r : Int, (r = r1 ∨ r = r2) ∧ ((lcg w M C t).toNat : Int) - (lcg w M C s).toNat = r := by
      rw [e, e]
      rcases hd _ _ hlt hS with h | h
      · exact ⟨r1, .inl rfl, h.2⟩
      · exact ⟨r2, .inr rfl, h.2⟩
    obtain ⟨r, hr1, hr2⟩ := hrr
    have hn := hr r hr1
    clear hr1 hr hS
    rcases Nat.lt_trichotomy (lcg w M C s).toNat (lcg w M C t).toNat with h | h | h
    · rcases hd _ _ h hS' with h' | h' <;> have h' := h'.1 <;> clear hd <;> omega
    · omega
    · rcases hd _ _ h hS'' with h' | h' <;> have h' := h'.1 <;> clear hd <;> omega
  apply BitVec.eq_of_toNat_eq
  rcases Nat.lt_trichotomy s.toNat t.toNat with h | h | h
  · exact absurd h (key s t h0 h1 h2)
  · exact h
  · exact absurd h (key t s h0.symm h1.symm h2.symm)

/-- a forward class steps with `lcg`, a reversed one with its inverse -/
theorem direction {c : ClassDecl w} (hodd : c.mult.toNat % 2 = 1) {p : Params w} (hp : c.params = .ok p) :
    next p = lcg w c.mult.toNat c.add.toNat ∧ Function.Injective (next p) ∨
    (∀ x, lcg w c.mult.toNat c.add.toNat (next p x) = x) ∧ Function.Injective (next p) := by
  obtain ⟨q, hq, h1, h2⟩ := C04_reverse_next c.add c.mult hodd
  cases hr : c.reverse with
  | false =>
    left
    simp only [ClassDecl.params, init, hr, Bool.false_eq_true, if_false, Except.ok.injEq] at hp
    have e : next p = lcg w c.mult.toNat c.add.toNat := by rw [← hp, next_eq_lcg]
    exact ⟨e, e ▸ Function.LeftInverse.injective h1⟩
  | true =>
    right
    rw [ClassDecl.params, hr, hq] at hp
    obtain rfl := Except.ok.inj hp
    exact ⟨h2, Function.LeftInverse.injective h2⟩

theorem pairs_le {c : ClassDecl w} (hodd : c.mult.toNat % 2 = 1) {p : Params w} (hp : c.params = .ok p) (H k : Nat)
    (hk : ∀ x y, (core (lcg w c.mult.toNat c.add.toNat) H x y).ncard ≤ k) (a b : Nat) :
    { s | (next p s).toNat / H = a ∧ (next p (next p s)).toNat / H = b }.ncard ≤ k := by
  rcases direction hodd hp with ⟨e, hi⟩ | ⟨e, hi⟩
  · refine (Set.ncard_le_ncard_of_injOn (next p) (fun s hs => ?_) hi.injOn (Set.toFinite _)).trans (hk a b)
    rw [← e]
    exact hs
  · refine (Set.ncard_le_ncard_of_injOn (fun s => next p (next p s)) (fun s hs => ?_) (hi.comp hi).injOn (Set.toFinite _)).trans
      (hk b a)
    refine ⟨hs.2, ?_⟩
    show (lcg w c.mult.toNat c.add.toNat (next p (next p s))).toNat / H = a
    rw [e]
    exact hs.1

theorem triples_unique {c : ClassDecl w} (hodd : c.mult.toNat % 2 = 1) {p : Params w} (hp : c.params = .ok p) (H : Nat)
    (hk : ∀ s t : BitVec w, s.toNat / H = t.toNat / H →
      (lcg w c.mult.toNat c.add.toNat s).toNat / H = (lcg w c.mult.toNat c.add.toNat t).toNat / H →
      (lcg w c.mult.toNat c.add.toNat (lcg w c.mult.toNat c.add.toNat s)).toNat / H
        = (lcg w c.mult.toNat c.add.toNat (lcg w c.mult.toNat c.add.toNat t)).toNat / H → s = t) (s t : BitVec w)
    (h1 : (next p s).toNat / H = (next p t).toNat / H) (h2 : (next p (next p s)).toNat / H = (next p (next p t)).toNat / H)
    (h3 : (next p (next p (next p s))).toNat / H = (next p (next p (next p t))).toNat / H) : s = t := by
  rcases direction hodd hp with ⟨e, hi⟩ | ⟨e, hi⟩
  · rw [← e] at hk
    exact hi (hk _ _ h1 h2 h3)
  · refine hi (hi (hi (hk _ _ h3 ?_ ?_)))
    · rw [e, e]; exact h2
    · rw [e, e, e, e]; exact h1

/-! ### the classes -/

/-- the states from which `next_u16` returns `a` and then `b` -/
def pairStates16 (p : Params 32) (a b : BitVec 16) : Set (BitVec 32) :=
  { s | (nextU16 p s).2 = a ∧ (nextU16 p (nextU16 p s).1).2 = b }

/-- the states from which `next_u16` returns `a`, `b` and then `c` -/
def tripleStates16 (p : Params 32) (a b c : BitVec 16) : Set (BitVec 32) :=
  { s | (nextU16 p s).2 = a ∧ (nextU16 p (nextU16 p s).1).2 = b ∧ (nextU16 p (nextU16 p (nextU16 p s).1).1).2 = c }

/-- the states from which `next_u32` returns `a` and then `b` -/
def pairStates32 (p : Params 64) (a b : BitVec 32) : Set (BitVec 64) :=
  { s | (nextU32 p s).2 = a ∧ (nextU32 p (nextU32 p s).1).2 = b }

/-- the states from which `next_u32` returns `a`, `b` and then `c` -/
def tripleStates32 (p : Params 64) (a b c : BitVec 32) : Set (BitVec 64) :=
  { s | (nextU32 p s).2 = a ∧ (nextU32 p (nextU32 p s).1).2 = b ∧ (nextU32 p (nextU32 p (nextU32 p s).1).1).2 = c }

theorem u16_iff (p : Params 32) (s : BitVec 32) (a : BitVec 16) : (nextU16 p s).2 = a ↔ (next p s).toNat / 65536 = a.toNat := by
  rw [← BitVec.toNat_inj, (nextU16_eq p s).2, draw16, ← congrFun (next_eq_lcg p) s]
  rfl

theorem u32_iff (p : Params 64) (s : BitVec 64) (a : BitVec 32) :
    (nextU32 p s).2 = a ↔ (next p s).toNat / 4294967296 = a.toNat := by
  rw [← BitVec.toNat_inj, nextU32]
  have := (next p s).isLt
  simp only [BitVec.toNat_setWidth, BitVec.toNat_ushiftRight, Nat.shiftRight_eq_div_pow]
  rw [Nat.mod_eq_of_lt (by omega)]

theorem pairs16_eq (p : Params 32) (a b : BitVec 16) : pairStates16 p a b =
    { s | (next p s).toNat / 65536 = a.toNat ∧ (next p (next p s)).toNat / 65536 = b.toNat } := by
  ext s
  simp only [pairStates16, Set.mem_ofPred_eq, u16_iff]
  rfl

theorem pairs32_eq (p : Params 64) (a b : BitVec 32) : pairStates32 p a b =
    { s | (next p s).toNat / 4294967296 = a.toNat ∧ (next p (next p s)).toNat / 4294967296 = b.toNat } := by
  ext s
  simp only [pairStates32, Set.mem_ofPred_eq, u32_iff]
  rfl

/-- C103: for PokeRNG, in both directions, two consecutive outputs (a PID, for instance) leave at most three states. -/
theorem C103_poke {c : ClassDecl 32} (hc : c = pokeRNG ∨ c = pokeRNGR) {p : Params 32} (hp : c.params = .ok p)
    (a b : BitVec 16) : (pairStates16 p a b).ncard ≤ 3 := by
  have hm : c.mult.toNat = 0x41C64E6D := by rcases hc with rfl | rfl <;> rfl
  rw [pairs16_eq]
  refine pairs_le (by rw [hm]) hp 65536 3 (fun x y => ?_) _ _
  rw [hm]
  exact (core_le _ _ _ 4294967296 rfl _ _ _ _ (poke_diff c.add.toNat) x y).1

/-- C103: for ARNG and XDRNG, in both directions, they leave at most two. -/
theorem C103_arng_xdrng {c : ClassDecl 32} (hc : c = arng ∨ c = arngR ∨ c = xdrng ∨ c = xdrngR) {p : Params 32}
    (hp : c.params = .ok p) (a b : BitVec 16) : (pairStates16 p a b).ncard ≤ 2 := by
  rw [pairs16_eq]
  have hm : c.mult.toNat = 0x6C078965 ∨ c.mult.toNat = 0x343FD := by
    rcases hc with rfl | rfl | rfl | rfl
    · exact .inl rfl
    · exact .inl rfl
    · exact .inr rfl
    · exact .inr rfl
  rcases hm with hm | hm
  · refine pairs_le (by rw [hm]) hp 65536 2 (fun x y => ?_) _ _
    rw [hm]
    exact (core_le _ _ _ 4294967296 rfl _ _ _ _ (arng_diff c.add.toNat) x y).2 (by decide) (by decide)
  · refine pairs_le (by rw [hm]) hp 65536 2 (fun x y => ?_) _ _
    rw [hm]
    exact (core_le _ _ _ 4294967296 rfl _ _ _ _ (xd_diff c.add.toNat) x y).2 (by decide) (by decide)

/-- C103: for BWRNG, in both directions, two consecutive 32-bit outputs leave at most two of the 2^64 states. -/
theorem C103_bw {c : ClassDecl 64} (hc : c = bwrng ∨ c = bwrngR) {p : Params 64} (hp : c.params = .ok p)
    (a b : BitVec 32) : (pairStates32 p a b).ncard ≤ 2 := by
  have hm : c.mult.toNat = 0x5D588B656C078965 := by rcases hc with rfl | rfl <;> rfl
  rw [pairs32_eq]
  refine pairs_le (by rw [hm]) hp 4294967296 2 (fun x y => ?_) _ _
  rw [hm]
  exact (core_le _ _ _ 18446744073709551616 rfl _ _ _ _ (bw_diff c.add.toNat) x y).2 (by decide) (by decide)

/-- C103: three consecutive 16-bit outputs of any 32-bit class determine the state. -/
theorem C103_triple16 {c : ClassDecl 32} (hc : c = pokeRNG ∨ c = pokeRNGR ∨ c = arng ∨ c = arngR ∨ c = xdrng ∨ c = xdrngR)
    {p : Params 32} (hp : c.params = .ok p) (u v w : BitVec 16) : (tripleStates16 p u v w).Subsingleton := by
  have hm : c.mult.toNat = 0x41C64E6D ∨ c.mult.toNat = 0x6C078965 ∨ c.mult.toNat = 0x343FD := by
    rcases hc with rfl | rfl | rfl | rfl | rfl | rfl
    · exact .inl rfl
    · exact .inl rfl
    · exact .inr (.inl rfl)
    · exact .inr (.inl rfl)
    · exact .inr (.inr rfl)
    · exact .inr (.inr rfl)
  intro s hs t ht
  simp only [tripleStates16, Set.mem_ofPred_eq, u16_iff] at hs ht
  have h1 := hs.1.trans ht.1.symm
  have h2 := hs.2.1.trans ht.2.1.symm
  have h3 := hs.2.2.trans ht.2.2.symm
  rcases hm with hm | hm | hm
  · refine triples_unique (by rw [hm]) hp 65536 (fun s t => ?_) s t h1 h2 h3
    rw [hm]
    exact core_unique _ _ _ 4294967296 rfl _ _ _ _ (poke_diff c.add.toNat) (by rintro r (rfl | rfl) <;> decide) s t
  · refine triples_unique (by rw [hm]) hp 65536 (fun s t => ?_) s t h1 h2 h3
    rw [hm]
    exact core_unique _ _ _ 4294967296 rfl _ _ _ _ (arng_diff c.add.toNat) (by rintro r (rfl | rfl) <;> decide) s t
  · refine triples_unique (by rw [hm]) hp 65536 (fun s t => ?_) s t h1 h2 h3
    rw [hm]
    exact core_unique _ _ _ 4294967296 rfl _ _ _ _ (xd_diff c.add.toNat) (by rintro r (rfl | rfl) <;> decide) s t

/-- C103: three consecutive 32-bit outputs of a 64-bit class determine the state. -/
theorem C103_triple32 {c : ClassDecl 64} (hc : c = bwrng ∨ c = bwrngR) {p : Params 64} (hp : c.params = .ok p)
    (u v w : BitVec 32) : (tripleStates32 p u v w).Subsingleton := by
  have hm : c.mult.toNat = 0x5D588B656C078965 := by rcases hc with rfl | rfl <;> rfl
  intro s hs t ht
  simp only [tripleStates32, Set.mem_ofPred_eq, u32_iff] at hs ht
  refine triples_unique (by rw [hm]) hp 4294967296 (fun s t => ?_) s t (hs.1.trans ht.1.symm) (hs.2.1.trans ht.2.1.symm)
    (hs.2.2.trans ht.2.2.symm)
  rw [hm]
  exact core_unique _ _ _ 18446744073709551616 rfl _ _ _ _ (bw_diff c.add.toNat) (by rintro r (rfl | rfl) <;> decide) s t

/-- C103: the bounds are attained: the words 0x3C45, 0x5BF1 come from three PokeRNG states, and two words leave two states
of ARNG, XDRNG and BWRNG. -/
theorem C103_sharp :
    (∀ p, pokeRNG.params = .ok p → {0x06554A76, 0x9747F1B5, 0x283A98F4} ⊆ pairStates16 p 0x3C45 0x5BF1) ∧
    (∀ p, arng.params = .ok p → {0x935DDE8D, 0xC0AFC6C1} ⊆ pairStates16 p 0xF1FD 0x2C01) ∧
    (∀ p, xdrng.params = .ok p → {0xBD4250E9, 0x99FCAD72} ⊆ pairStates16 p 0x5898 0x2CB7) ∧
    (∀ p, bwrng.params = .ok p → {0x3746CD0F20352485, 0xA9290622BEF21EDA} ⊆ pairStates32 p 0x1E2FEB89 0xCA4E7FE3) := by
  refine ⟨?_, ?_, ?_, ?_⟩ <;> intro p hp <;> obtain rfl := Except.ok.inj hp <;> intro s hs <;>
    simp only [Set.mem_insert_iff, Set.mem_singleton_iff] at hs
  · rcases hs with rfl | rfl | rfl <;> exact ⟨by decide, by decide⟩
  · rcases hs with rfl | rfl <;> exact ⟨by decide, by decide⟩
  · rcases hs with rfl | rfl <;> exact ⟨by decide, by decide⟩
  · rcases hs with rfl | rfl <;> exact ⟨by decide, by decide⟩

-- the hypotheses of the C103 theorems; the third output separates the three states
example : pokeRNG.params = .ok pokeRNGParams ∧ (∃ p, pokeRNGR.params = .ok p) ∧ (∃ p, bwrngR.params = .ok p) ∧
    (nextU16 pokeRNGParams (next pokeRNGParams (next pokeRNGParams 0x06554A76))).2
      ≠ (nextU16 pokeRNGParams (next pokeRNGParams (next pokeRNGParams 0x9747F1B5))).2 :=
  ⟨rfl, (C04_reverse_next 0x6073 0x41C64E6D rfl).imp fun _ h => h.1, (C04_reverse_next 0x269EC3 0x5D588B656C078965 rfl).imp fun _ h => h.1,
    by decide⟩

end Verif.Lcrng
