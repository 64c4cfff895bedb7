import Verif.Props.RngList
/-
C131: going back in an RNGList. The distance of `advance` is reduced to 32 bits and then modulo the size, which divides
2^32, so a negative distance moves the reading position back.
-/
namespace Verif.RngList

variable {G : Type}

/-- effect of `k` calls of `get_value` on the object -/
def gets (mode : Mode) (size k : Nat) (s : State t G) : State t G := (fun s => (getValue mode size s).1)^[k] s

/-- the values returned by `k` calls of `get_value` -/
def values (mode : Mode) (size k : Nat) (s : State t G) : List (BitVec t) :=
  (List.range k).map fun i => (getValue mode size (gets mode size i s)).2

theorem gets_eq (mode : Mode) (k : Nat) (hf : Fits mode (2 ^ k)) (n : Nat) (s : State t G) (hs : s.pointer < 2 ^ k) :
    gets mode (2 ^ k) n s = { s with pointer := (s.pointer + n) % 2 ^ k } := by
  have hmod : ∀ p, p % 2 ^ k < 2 ^ k := fun p => Nat.mod_lt _ (Nat.two_pow_pos k)
  induction n with
  | zero =>
    rw [Nat.add_zero, Nat.mod_eq_of_lt hs]; rfl
  | succ n ih =>
    rw [gets, Function.iterate_succ_apply', ← gets, ih]
    have e : ∀ q, store mode (store mode (q + 1) &&& (2 ^ k - 1)) = (q + 1) % 2 ^ k := by
      intro q
      rw [mask, store_lt hf (hmod _)]
      cases mode with
      | numpy => rfl
      | numba => exact Nat.mod_mod_of_dvd _ (dvd_of_le (m := 16) hf)
    simp only [getValue, e, Nat.mod_add_mod, Nat.add_assoc]

theorem advance_eq (mode : Mode) (k : Nat) (hf : Fits mode (2 ^ k)) (a : BitVec 32) (s : State t G) :
    advance mode (2 ^ k) a s = { s with pointer := (s.pointer + a.toNat) % 2 ^ k } := by
  have hmod : ∀ p, p % 2 ^ k < 2 ^ k := fun p => Nat.mod_lt _ (Nat.two_pow_pos k)
  cases mode with
  | numba => simp only [advance, mask, store_lt hf (hmod _)]
  | numpy => simp only [advance, mask, store_lt hf (hmod _), Nat.mod_mod_of_dvd _ (dvd_of_le (m := 32) hf)]

theorem fits_dvd (mode : Mode) (k : Nat) (hf : Fits mode (2 ^ k)) : 2 ^ k ∣ 2 ^ 32 := by
  cases mode with
  | numpy => exact dvd_of_le hf
  | numba => exact (dvd_of_le (m := 16) hf).trans (pow_dvd_pow 2 (by omega))

/-- the pointer is in bounds after every history -/
theorem pointer_lt (mode : Mode) (next : G → G × BitVec v) (k : Nat) (hsize : build mode t (2 ^ k) = .ok ())
    (hf : Fits mode (2 ^ k)) (junk : Cells t) (g : G) (ops : List Op) :
    (stateAfter mode next (2 ^ k) (new next (2 ^ k) junk g) ops).pointer < 2 ^ k :=
  (C36_in_bounds mode next (2 ^ k) hsize hf junk g ops).2

theorem neg_mod (k n p : Nat) (hd : 2 ^ k ∣ 2 ^ 32) (hp : p < 2 ^ k) :
    ((p + n) % 2 ^ k + (BitVec.ofInt 32 (-(n : Int))).toNat) % 2 ^ k = p := by
  have h0 : 0 ≤ (-(n : Int)) % (2 ^ 32 : Nat) := Int.emod_nonneg _ (by norm_num)
  rw [Nat.mod_add_mod, BitVec.toNat_ofInt]
  generalize (2 : Nat) ^ 32 = M at *
  have hz : (((p + n + ((-(n : Int)) % (M : Nat)).toNat) % 2 ^ k : Nat) : Int) = (p : Int) := by
    push_cast
    rw [Int.toNat_of_nonneg h0, Int.add_emod, Int.emod_emod_of_dvd _ (by exact_mod_cast hd), ← Int.add_emod,
      show (p : Int) + n + -n = p by ring]
    exact Int.emod_eq_of_lt (by omega) (by exact_mod_cast hp)
  exact_mod_cast hz

/-- C131: after any history of calls, `advance(-n)` undoes `n` calls of `get_value`: it restores the object exactly
(also when `n` exceeds the size). So the same `n` values can be read again. -/
theorem C131_rewind (mode : Mode) (next : G → G × BitVec v) (size : Nat) (hsize : build mode t size = .ok ())
    (hf : Fits mode size) (junk : Cells t) (g : G) (ops : List Op) (n : Nat) :
    let s := stateAfter mode next size (new next size junk g) ops
    advance mode size (BitVec.ofInt 32 (-n)) (gets mode size n s) = s ∧
      ∀ m, values mode size m (advance mode size (BitVec.ofInt 32 (-n)) (gets mode size n s)) = values mode size m s := by
  intro s
  obtain ⟨⟨k, rfl⟩, _⟩ := (build_iff mode t size).mp hsize
  have hp := pointer_lt mode next k hsize hf junk g ops
  have h : advance mode (2 ^ k) (BitVec.ofInt 32 (-n)) (gets mode (2 ^ k) n s) = s := by
    rw [gets_eq mode k hf n s hp, advance_eq mode k hf]
    simp only [neg_mod k n s.pointer (fits_dvd mode k hf) hp]
  exact ⟨h, fun m => by rw [h]⟩

/-- C131: distances of `advance` add up, in both directions and whatever their signs. -/
theorem C131_add (mode : Mode) (size : Nat) (hsize : build mode t size = .ok ()) (hf : Fits mode size) (s : State t G)
    (a b : Int) : advance mode size (BitVec.ofInt 32 b) (advance mode size (BitVec.ofInt 32 a) s)
      = advance mode size (BitVec.ofInt 32 (a + b)) s := by
  obtain ⟨⟨k, rfl⟩, _⟩ := (build_iff mode t size).mp hsize
  have hd := fits_dvd mode k hf
  rw [advance_eq mode k hf, advance_eq mode k hf, advance_eq mode k hf]
  simp only
  rw [BitVec.ofInt_add, BitVec.toNat_add]
  congr 1
  rw [Nat.mod_add_mod, Nat.add_mod s.pointer, Nat.mod_mod_of_dvd _ hd, ← Nat.add_mod, Nat.add_assoc]

/-- C131: `advance` by the size, and reading as many values as the size, leave the object as it is. -/
theorem C131_cycle (mode : Mode) (next : G → G × BitVec v) (size : Nat) (hsize : build mode t size = .ok ())
    (hf : Fits mode size) (junk : Cells t) (g : G) (ops : List Op) :
    let s := stateAfter mode next size (new next size junk g) ops
    gets mode size size s = s ∧ advance mode size (BitVec.ofNat 32 size) s = s := by
  intro s
  obtain ⟨⟨k, rfl⟩, _⟩ := (build_iff mode t size).mp hsize
  have hp := pointer_lt mode next k hsize hf junk g ops
  have hd := fits_dvd mode k hf
  constructor
  · rw [gets_eq mode k hf _ s hp, Nat.add_mod_right, Nat.mod_eq_of_lt hp]
  · rw [advance_eq mode k hf, BitVec.toNat_ofNat]
    have : (s.pointer + 2 ^ k % 2 ^ 32) % 2 ^ k = s.pointer := by
      rw [Nat.add_mod, Nat.mod_mod_of_dvd _ hd, Nat.mod_self, Nat.add_zero, Nat.mod_mod, Nat.mod_eq_of_lt hp]
    rw [this]

-- read three values of a list of size 4, go back by two, read again
example : runOps .numba (fun n : BitVec 32 => (n + 1, n)) 4 (new (fun n : BitVec 32 => (n + 1, n)) 4 (⟨fun _ => 99⟩ : Cells 32) 0)
    [.get, .get, .get, .advance (BitVec.ofInt 32 (-2)), .get, .get] = [0, 1, 2, 1, 2] := by decide
example : build .numba 32 4 = .ok () ∧ Fits .numba 4 := ⟨by decide, show 4 ≤ _ by decide⟩

end Verif.RngList
