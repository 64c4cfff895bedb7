import Verif.Lemmas.PersonalTables
import Verif.Data.LaKnown
/-
The species and forms of the encounter tables of Legends Arceus in its personal table.
-/
namespace Verif.ShippedPersonal
open Personal ShippedPersonalSpec

/-- `k` of element `n`, by the recursor -/
def nthK (l : List Nat) : Nat → (Nat → Bool) → Bool :=
  List.rec (fun _ _ => false) (fun p _ r n k => Nat.rec (k p) (fun m _ => r m k) n) l

theorem nthK_eq (l : List Nat) (n : Nat) (k : Nat → Bool) (h : nthK l n k = true) : n < l.length ∧ k (l.getD n 0) = true := by
  induction l generalizing n with
  | nil => cases h
  | cons p l ih =>
    cases n with
    | zero => exact ⟨by simp, h⟩
    | succ n =>
      obtain ⟨h1, h2⟩ := ih n h
      exact ⟨by simpa using h1, by simpa using h2⟩

/-- the code of Data/LaKnown belongs to a record with stats -/
def codeOk (ps : List Nat) (c : Nat) : Bool :=
  both (Nat.blt (Nat.div c 32) 906) <|
  match isZero (Nat.mod c 32) with
  | true => nthK ps (Nat.div c 32) fun p => Nat.ble 1 (dig p 0 1)
  | false => nthK ps (Nat.div c 32) fun p =>
      both (Nat.ble 1 (dig p 30 2)) <| both (Nat.blt (Nat.mod c 32) (dig p 32 1)) <|
      nthK ps (Nat.sub (Nat.add (dig p 30 2) (Nat.mod c 32)) 1) fun q => Nat.ble 1 (dig q 0 1)

def codesOk (ps : List Nat) (l : List Nat) : Bool := List.rec true (fun c _ r => both (codeOk ps c) r) l

set_option maxRecDepth 100000 in
theorem la_codes : codesOk (pieces .la).2 Data.knownCodes = true := by decide +kernel

theorem codesOk_mem (ps l : List Nat) (h : codesOk ps l = true) (c : Nat) (hc : c ∈ l) : codeOk ps c = true := by
  induction l with
  | nil => simp at hc
  | cons x l ih =>
    have h' : both (codeOk ps x) (codesOk ps l) = true := h
    rw [both_eq] at h'
    rcases List.mem_cons.1 hc with rfl | hc
    · exact h'.1
    · exact ih h'.2 hc

theorem la_known (s f : Nat) (hf : f < 32) (h : s * 32 + f ∈ Data.knownCodes) :
    s < 906 ∧ ∃ k, ((f = 0 ∧ k = s) ∨ FormOf .la (records .la) s f k) ∧ Present .la (records .la) k := by
  have hc := codesOk_mem _ _ la_codes _ h
  have ht : Table.la ∈ tables := by decide
  rw [codeOk, both_eq, Nat.blt_eq] at hc
  obtain ⟨h1, h2⟩ := hc
  have e1 : Nat.div (s * 32 + f) 32 = s := by
    show (s * 32 + f) / 32 = s
    omega
  have e2 : Nat.mod (s * 32 + f) 32 = f := by
    show (s * 32 + f) % 32 = f
    omega
  rw [e1] at h1 h2
  rw [e2] at h2
  refine ⟨h1, ?_⟩
  by_cases h0 : f = 0
  · rw [(isZero_eq f).2 h0] at h2
    obtain ⟨h3, h4⟩ := nthK_eq _ _ _ h2
    refine ⟨s, .inl ⟨h0, rfl⟩, ?_⟩
    rw [Present, hp_eq .la ht s h3]
    rw [Nat.ble_eq] at h4
    exact Nat.pos_iff_ne_zero.1 h4
  · rw [Bool.eq_false_iff.2 (fun h' => h0 ((isZero_eq _).1 h'))] at h2
    obtain ⟨h3, h4⟩ := nthK_eq _ _ _ h2
    rw [both_eq, both_eq, Nat.ble_eq, Nat.blt_eq] at h4
    obtain ⟨h5, h6, h7⟩ := h4
    obtain ⟨h8, h9⟩ := nthK_eq _ _ _ h7
    refine ⟨_, .inr ⟨h1, Nat.pos_of_ne_zero h0, ?_, ?_, rfl⟩, ?_⟩
    · rw [count_eq .la ht s h3]; exact h6
    · rw [index_eq .la ht s h3]; exact Nat.pos_iff_ne_zero.1 h5
    · rw [index_eq .la ht s h3]
      rw [Nat.ble_eq] at h9
      exact fun h => Nat.pos_iff_ne_zero.1 h9 ((hp_eq .la ht _ h8).symm.trans h)

end Verif.ShippedPersonal
