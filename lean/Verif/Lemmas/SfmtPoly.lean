import Verif.Lemmas.MtPoly
import Verif.Lemmas.SfmtDefs
import Verif.Lemmas.SfmtChunks1
import Verif.Lemmas.SfmtChunks2
/-
The polynomial of SFMT19937 divides x^(2^19937) - x.
-/
namespace Verif.SfmtPeriod
open Verif.Gf2 Verif.Data.SfmtPoly Polynomial

theorem packed_phi : (packed (spread phi) && packed (spread p0) && Nat.beq (spread p0) 65536 && Nat.beq (spread p19937) 65536) = true := by
  decide +kernel

section chain
variable {R : Type*} [CommRing R] (h2 : ∀ x : R, x + x = 0) (T : R) (hT : pv T (spread phi) = 0)

/-- `a` is `T^(2^i)` -/
def Power (i a : Nat) : Prop := Packed (spread a) ∧ pv T (spread a) = T ^ 2 ^ i

include h2 hT in
theorem link {i n a b : Nat} (h : Power T i a) (hc : (chunk phi mu 318992 n a b && !Nat.beq (spread b) 0) = true) :
    Power T (i + n) b := by
  rw [Bool.and_eq_true, Bool.not_eq_true'] at hc
  obtain ⟨h3, h4⟩ := hc
  have hp : Packed (spread phi) := by
    have := packed_phi
    simp only [Bool.and_eq_true] at this
    exact packed_iff _ this.1.1.1
  obtain ⟨h5, h6⟩ := chunk_sound h2 T phi mu 318992 n a b hp hT h.1 (fun h => by rw [h] at h4; exact absurd h4 (by decide)) h3
  refine ⟨h5, ?_⟩
  rw [h6, h.2, ← pow_mul, ← pow_add]

include h2 hT in
theorem frobenius (E : Nat) (hE : E = 2 ^ 19937) : T ^ E = T := by
  rw [hE]
  have hk := packed_phi
  simp only [Bool.and_eq_true] at hk
  have c0 : Power T 0 p0 := ⟨packed_iff _ hk.1.1.2, by rw [Nat.eq_of_beq_eq_true hk.1.2, pv_X, pow_zero, pow_one]⟩
  have link := @link R _ h2 T hT
  have c1000 := link c0 chunk0
  have c2000 := link c1000 chunk1000
  have c3000 := link c2000 chunk2000
  have c4000 := link c3000 chunk3000
  have c5000 := link c4000 chunk4000
  have c6000 := link c5000 chunk5000
  have c7000 := link c6000 chunk6000
  have c8000 := link c7000 chunk7000
  have c9000 := link c8000 chunk8000
  have c10000 := link c9000 chunk9000
  have c11000 := link c10000 chunk10000
  have c12000 := link c11000 chunk11000
  have c13000 := link c12000 chunk12000
  have c14000 := link c13000 chunk13000
  have c15000 := link c14000 chunk14000
  have c16000 := link c15000 chunk15000
  have c17000 := link c16000 chunk16000
  have c18000 := link c17000 chunk17000
  have c19000 := link c18000 chunk18000
  have c19937 := link c19000 chunk19000
  exact c19937.2.symm.trans (by rw [Nat.eq_of_beq_eq_true hk.2, pv_X])

end chain

/-- `x^(2^19937) = x` modulo the polynomial -/
theorem dvd (E : Nat) (hE : E = 2 ^ 19937) : pv X (spread phi) ∣ (X ^ E - X : (ZMod 2)[X]) :=
  MtPeriod.dvd_of _ (spread phi) E rfl fun _ _ h2 T hT => frobenius h2 T hT E hE

/-- the certificate of `Lemmas/SfmtDefs` -/
theorem certificate_phi : certificate par 157 phi = true := by decide +kernel

/-- The polynomial has constant coefficient 1 and the value 1 at 1: it is `x h + 1` and `(x + 1) h + 1`. -/
def prefixXor : Nat → Nat → Nat
  | 0, x => x
  | k + 1, x => prefixXor k (Nat.xor x (Nat.shiftRight x (Nat.mul 16 (Nat.pow 2 k))))

theorem values_phi : (Nat.beq (Nat.mod (spread phi) 65536) 1 &&
    Nat.beq (force (Nat.shiftRight (prefixXor 15 (spread phi)) 16) fun h => Nat.xor (Nat.xor h (Nat.mul 65536 h)) 1) (spread phi)) = true := by
  decide +kernel

end Verif.SfmtPeriod
