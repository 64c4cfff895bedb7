import Verif.Lemmas.Gf2
import Mathlib.Algebra.Group.Prod
import Mathlib.Data.Fintype.Card
import Mathlib.Data.Fintype.BigOperators
/-
Vectors of bits as groups under exclusive or, and how to check by computation that a polynomial annihilates a linear map.
-/
namespace Verif.Gf2

/-- `w` bits, added with exclusive or -/
def X (w : Nat) : Type := BitVec w

namespace X
variable {w : Nat}

/-- bits as a vector -/
def of (v : BitVec w) : X w := v
/-- vector as bits -/
def bits (v : X w) : BitVec w := v

instance : Add (X w) := ⟨fun a b => of (a.bits ^^^ b.bits)⟩
instance : Zero (X w) := ⟨of 0⟩
instance : Neg (X w) := ⟨id⟩
instance : DecidableEq (X w) := inferInstanceAs (DecidableEq (BitVec w))

theorem add_def (a b : X w) : a + b = of (a.bits ^^^ b.bits) := rfl
theorem zero_def : (0 : X w) = of 0 := rfl

instance : AddCommGroup (X w) where
  add_assoc a b c := BitVec.xor_assoc ..
  zero_add a := BitVec.zero_xor
  add_zero a := BitVec.xor_zero
  neg_add_cancel a := BitVec.xor_self
  add_comm a b := BitVec.xor_comm ..
  nsmul := nsmulRec
  zsmul := zsmulRec

theorem add_self (a : X w) : a + a = 0 := BitVec.xor_self

/-- bit patterns as bounded numbers -/
def equivFin : X w ≃ Fin (2 ^ w) where
  toFun a := a.bits.toFin
  invFun a := of (BitVec.ofFin a)
  left_inv _ := rfl
  right_inv _ := rfl

instance : Fintype (X w) := Fintype.ofEquiv _ equivFin.symm

theorem card : Fintype.card (X w) = 2 ^ w := by
  rw [Fintype.card_congr equivFin, Fintype.card_fin]

/-- an additive map that is zero on the single bits is zero -/
theorem hom_eq_zero {V : Type*} [AddCommGroup V] (f : X w →+ V) (h : ∀ i < w, f (of (BitVec.twoPow w i)) = 0) : f = 0 := by
  have key : ∀ k ≤ w, ∀ m < 2 ^ k, f (of (BitVec.ofNat w m)) = 0 := by
    intro k
    induction k with
    | zero => intro _ m hm
              obtain rfl : m = 0 := by simpa using hm
              exact map_zero f
    | succ k ih =>
      intro hk m hm
      rcases Nat.lt_or_ge m (2 ^ k) with h' | h'
      · exact ih (by omega) m h'
      · have hm2 : m - 2 ^ k < 2 ^ k := by rw [pow_succ] at hm; omega
        have hx : BitVec.ofNat w m = BitVec.twoPow w k ^^^ BitVec.ofNat w (m - 2 ^ k) := by
          have : m = 2 ^ k ^^^ (m - 2 ^ k) := by
            have := Nat.two_pow_add_eq_or_of_lt hm2 1
            have e : m = 2 ^ k + (m - 2 ^ k) := by omega
            apply Nat.eq_of_testBit_eq
            intro i
            rw [Nat.testBit_xor, Nat.testBit_two_pow]
            conv_lhs => rw [e]
            by_cases hik : k = i
            · subst hik
              rw [Nat.testBit_two_pow_add_eq, Nat.testBit_lt_two_pow hm2]; simp
            · simp only [hik, decide_false, Bool.false_xor]
              rcases Nat.lt_or_gt_of_ne hik with hlt | hgt
              · have hb : 2 ^ (k + 1) ≤ 2 ^ i := Nat.pow_le_pow_right (by omega) (by omega)
                rw [Nat.testBit_lt_two_pow (by omega), Nat.testBit_lt_two_pow (by rw [pow_succ] at hb; omega)]
              · exact Nat.testBit_two_pow_add_gt hgt _
          apply BitVec.eq_of_toNat_eq
          conv_lhs => rw [this]
          simp only [BitVec.toNat_ofNat, BitVec.toNat_xor, BitVec.toNat_twoPow, Nat.xor_mod_two_pow]
        rw [hx]
        have := map_add f (of (BitVec.twoPow w k)) (of (BitVec.ofNat w (m - 2 ^ k)))
        rw [h k (by omega), ih (by omega) _ hm2, add_zero] at this
        exact this
  ext v
  have := key w le_rfl v.bits.toNat v.bits.isLt
  rw [BitVec.ofNat_toNat, BitVec.setWidth_eq] at this
  exact this

end X

/-- an additive map on pairs that is zero on both components is zero -/
theorem hom_prod_eq_zero {A B V : Type*} [AddCommGroup A] [AddCommGroup B] [AddCommGroup V] (f : A × B →+ V)
    (h1 : f.comp (AddMonoidHom.inl A B) = 0) (h2 : f.comp (AddMonoidHom.inr A B) = 0) : f = 0 := by
  ext v
  have hv : v = AddMonoidHom.inl A B v.1 + AddMonoidHom.inr A B v.2 := by simp
  rw [hv, map_add]
  exact (congrArg₂ (· + ·) (DFunLike.congr_fun h1 v.1) (DFunLike.congr_fun h2 v.2)).trans (add_zero _)

section
variable {V : Type*} [AddCommGroup V]

/-- `ev T a` applied to `v`, `k` bits of `a`, plus `acc` -/
def evApply (T : V → V) : Nat → Nat → V → V → V
  | 0, _, _, acc => acc
  | k + 1, a, v, acc => evApply T k (a / 2) (T v) (if a % 2 = 1 then acc + v else acc)

theorem evApply_eq (T : AddMonoid.End V) (k : Nat) : ∀ (a : Nat) (v acc : V), a < 2 ^ k →
    evApply T k a v acc = acc + (ev T a) v := by
  induction k with
  | zero => intro a v acc h
            obtain rfl : a = 0 := by simpa using h
            simp [evApply, ev_zero]
  | succ k ih =>
    intro a v acc h
    rw [evApply, ih _ _ _ (by rw [pow_succ] at h; omega), ev_step T a, ev_comm]
    have : (bit a + ev T (a / 2) * T : AddMonoid.End V) v = (bit a : AddMonoid.End V) v + (ev T (a / 2)) (T v) := rfl
    rw [this]
    by_cases h : a % 2 = 1
    · have : (bit a : AddMonoid.End V) v = v := by rw [bit, if_pos h]; rfl
      rw [if_pos h, this, add_assoc]
    · have : (bit a : AddMonoid.End V) v = 0 := by rw [bit, if_neg h]; rfl
      rw [if_neg h, this, zero_add]

/-- If every nonzero vector has period `N` and there are `N` of them, they form one cycle. -/
theorem one_cycle [Fintype V] [DecidableEq V] {T : AddMonoid.End V} {N : Nat} (hN : N ≠ 0)
    (hcard : Fintype.card V = N + 1) (hper : ∀ v : V, v ≠ 0 → ∀ k, (T ^ k) v = v ↔ N ∣ k) {v w : V} (hv : v ≠ 0)
    (hw : w ≠ 0) : ∃ k < N, (T ^ k) v = w := by
  have hne : ∀ k, (T ^ k) v ≠ 0 := by
    intro k h
    apply hv
    have h1 : (T ^ (N * k)) v = v := (hper v hv _).2 (dvd_mul_right _ _)
    have h2 : N * k = (N * k - k) + k := by
      have : k ≤ N * k := Nat.le_mul_of_pos_left _ (by omega)
      omega
    rw [h2, pow_add, show (T ^ (N * k - k) * T ^ k) v = (T ^ (N * k - k)) ((T ^ k) v) from rfl, h, map_zero] at h1
    exact h1.symm
  let f : Fin N → {x : V // x ≠ 0} := fun k => ⟨(T ^ k.1) v, hne k.1⟩
  have hinj : Function.Injective f := by
    have aux : ∀ i j : Nat, i ≤ j → j < N → (T ^ i) v = (T ^ j) v → i = j := by
      intro i j hij hj h
      have e : j = (j - i) + i := by omega
      have h2 : (T ^ (j - i)) ((T ^ i) v) = (T ^ i) v := by
        conv_rhs => rw [h, e, pow_add]
        rfl
      have := Nat.eq_zero_of_dvd_of_lt ((hper _ (hne i) _).1 h2) (by omega)
      omega
    intro i j h
    have h' : (T ^ i.1) v = (T ^ j.1) v := congrArg Subtype.val h
    apply Fin.ext
    rcases Nat.le_total i.1 j.1 with hij | hij
    · exact aux _ _ hij j.2 h'
    · exact (aux _ _ hij i.2 h'.symm).symm
  have hcard' : Fintype.card (Fin N) = Fintype.card {x : V // x ≠ 0} := by
    rw [Fintype.card_fin, Fintype.card_subtype_compl, Fintype.card_subtype_eq, hcard, Nat.add_sub_cancel]
  obtain ⟨k, hk⟩ := ((Fintype.bijective_iff_injective_and_card f).2 ⟨hinj, hcard'⟩).2 ⟨w, hw⟩
  exact ⟨k.1, k.2, congrArg Subtype.val hk⟩

end
end Verif.Gf2
