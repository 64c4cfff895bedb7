import Verif.Lemmas.Gf2
import Verif.Lemmas.Gf2Vec
import Mathlib.Data.ZMod.Basic
import Mathlib.Data.Fintype.BigOperators
/-
Observing one linear bit of a linear generator over GF(2): as many bits as the state has determine the state.
-/
namespace Verif.Observe
open Gf2

variable {V : Type*} [AddCommGroup V] {T : AddMonoid.End V}

theorem obs_ev (φ : V →+ ZMod 2) (n a : Nat) (w : V) (ha : a < 2 ^ n) (h : ∀ i < n, φ ((T ^ i) w) = 0) : φ ((ev T a) w) = 0 := by
  induction n generalizing a w with
  | zero =>
    obtain rfl : a = 0 := by simpa using ha
    rw [ev_zero]
    exact map_zero φ
  | succ n ih =>
    have h1 := ih (a / 2) (T w) (by rw [pow_succ] at ha; omega) (fun i hi => by
      have := h (i + 1) (by omega)
      rwa [pow_succ] at this)
    rw [ev_step, ev_comm]
    change φ ((bit a : AddMonoid.End V) w + (ev T (a / 2)) (T w)) = 0
    rw [map_add, h1, add_zero, bit]
    split
    · exact h 0 (by omega)
    · exact map_zero φ

theorem ev_pow (n : Nat) : ev T (2 ^ n) = T ^ n := by
  induction n with
  | zero => rw [pow_zero, pow_zero, ev_one]
  | succ n ih => rw [pow_succ', ev_double, ih, pow_succ']

variable (h2 : ∀ x : V, x + x = 0) {n Q : Nat} (hP : ev T (2 ^ n ^^^ Q) = 0) (hQ : Q < 2 ^ n)
include h2 hP hQ

/-- `n` zero bits in a row are followed by zeros only -/
theorem obs_zero (φ : V →+ ZMod 2) (v : V) (h : ∀ i < n, φ ((T ^ i) v) = 0) (k : Nat) : φ ((T ^ k) v) = 0 := by
  induction k using Nat.strong_induction_on with
  | _ k ih =>
    rcases Nat.lt_or_ge k n with hk | hk
    · exact h k hk
    · have h1 := congrArg (fun f : AddMonoid.End V => f ((T ^ (k - n)) v)) hP
      rw [ev_xor (end_char2 h2), ev_pow] at h1
      change (T ^ n) ((T ^ (k - n)) v) + (ev T Q) ((T ^ (k - n)) v) = 0 at h1
      have h3 : φ ((ev T Q) ((T ^ (k - n)) v)) = 0 := obs_ev φ n Q _ hQ (fun i hi => by
        have := ih (i + (k - n)) (by omega)
        rwa [pow_add] at this)
      have h4 := congrArg φ h1
      rw [map_add, h3, add_zero, map_zero] at h4
      rw [show k = n + (k - n) by omega, pow_add]
      exact h4

/-- if the non-zero states form one cycle, `n` bits determine the state -/
theorem obs_inj (hc : ∀ v w : V, v ≠ 0 → w ≠ 0 → ∃ k, (T ^ k) v = w) (φ : V →+ ZMod 2) (w : V) (hw : φ w ≠ 0) (u v : V)
    (h : ∀ i < n, φ ((T ^ i) u) = φ ((T ^ i) v)) : u = v := by
  by_contra hne
  have hd : u + v ≠ 0 := fun h0 => hne (add_right_cancel (h0.trans (h2 v).symm))
  obtain ⟨k, hk⟩ := hc (u + v) w hd (fun h0 => hw (by rw [h0, map_zero]))
  refine hw (hk ▸ obs_zero h2 hP hQ φ (u + v) (fun i hi => ?_) k)
  rw [map_add, map_add, h i hi, CharTwo.add_self_eq_zero]

/-- every pattern of `n` bits belongs to exactly one state -/
theorem obs_unique [Fintype V] (hcard : Fintype.card V = 2 ^ n) (hc : ∀ v w : V, v ≠ 0 → w ≠ 0 → ∃ k, (T ^ k) v = w)
    (φ : V →+ ZMod 2) (w : V) (hw : φ w ≠ 0) (b : Nat → ZMod 2) : ∃! v : V, ∀ i < n, φ ((T ^ i) v) = b i := by
  have hinj : Function.Injective (fun (v : V) (i : Fin n) => φ ((T ^ i.1) v)) := fun u v h =>
    obs_inj h2 hP hQ hc φ w hw u v (fun i hi => congrFun h ⟨i, hi⟩)
  have hbij := (Fintype.bijective_iff_injective_and_card _).2 ⟨hinj, by
    rw [hcard, Fintype.card_fun, Fintype.card_fin, ZMod.card]⟩
  obtain ⟨v, hv⟩ := hbij.2 (fun i => b i)
  refine ⟨v, fun i hi => congrFun hv ⟨i, hi⟩, fun u hu => hinj ?_⟩
  exact (funext fun i => hu i.1 i.2 : _ = fun i : Fin n => b i).trans hv.symm

omit h2 hP hQ

/-- a bit as an element of GF(2) -/
def z (b : Bool) : ZMod 2 := if b then 1 else 0

theorem z_xor (a b : Bool) : z (a ^^ b) = z a + z b := by revert a b; decide

theorem z_inj {a b : Bool} : z a = z b ↔ a = b := by revert a b; decide

/-- bit `j` of a word -/
def bitHom (w j : Nat) : X w →+ ZMod 2 where
  toFun v := z (v.bits.getLsbD j)
  map_zero' := by
    change z ((0#w).getLsbD j) = 0
    rw [BitVec.getLsbD_zero]; rfl
  map_add' a b := by
    change z ((a.bits ^^^ b.bits).getLsbD j) = _
    rw [BitVec.getLsbD_xor, z_xor]

end Verif.Observe
