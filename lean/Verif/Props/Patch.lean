import Verif.Model.Patch
import Mathlib.Tactic.Ring
import Mathlib.Algebra.BigOperators.Group.List.Basic
/-
C120: nested array types are flattened.
-/
namespace Verif.Patch

/-! ### the specification -/

/-- the position of an element in an array of this shape, in row-major order -/
def position : List Nat → List Nat → Nat
  | _ :: shape, i :: index => i * shape.prod + position shape index
  | _, _ => 0

/-- the index is in range -/
def InRange : List Nat → List Nat → Prop
  | [], [] => True
  | n :: shape, i :: index => i < n ∧ InRange shape index
  | _, _ => False

/-- elements of packed records must not be accessed as if they were aligned -/
def packed : Elem → Bool
  | .record _ _ a => !a
  | _ => false

/-- nested arrays over an element type; the shapes from the innermost to the outermost -/
def tower (e : Elem) : List (List Nat) → Except PyErr Dtype
  | [] => .ok (.elem e)
  | shape :: shapes => (tower e shapes).bind fun d => (nestedInit d shape).map .arr

/-- the array type a tower should be -/
def flat (e : Elem) (shape : List Nat) : Arr :=
  { dtype := e, ndim := shape.length, layout := "C", mutable := true, aligned := !packed e, shape := some shape }

/-! ### proofs -/

theorem arrayInit_elem (e : Elem) (n : Nat) (l : String) (s : Option (List Nat)) :
    arrayInit (.elem e) n l (shape := s) = .ok ⟨e, n, l, true, !packed e, s⟩ := by
  cases e with
  | scalar _ _ => rfl
  | record _ _ a => cases a <;> rfl

/-- the element type has whole bytes: scalars of 8, 16, … bits, and all records -/
def Whole (e : Elem) : Prop := ∀ name bits, e = .scalar name bits → bits % 8 = 0

theorem Whole.bits {e : Elem} (h : Whole e) : e.bitwidth % 8 = 0 := by
  cases e with
  | scalar name bits => exact h name bits rfl
  | record name n a => exact Nat.mul_mod_left n 8

/-- C120: a tower of nested arrays is the nested array of the elements, whose shape is that of the outermost array, then that of
the next one, and so on; and it is typed unaligned exactly when its elements are packed records. -/
theorem C120_flat (e : Elem) (he : Whole e) (shape : List Nat) (shapes : List (List Nat)) :
    tower e (shape :: shapes) = .ok (.arr (flat e (shape ++ shapes.flatten))) := by
  replace he := he.bits
  induction shapes generalizing shape with
  | nil =>
    simp only [tower, Except.bind, nestedInit, he, arrayInit_elem, List.flatten_nil, List.append_nil]
    rfl
  | cons s ss ih =>
    rw [tower, ih s]
    simp only [Except.bind, nestedInit, flat, arrayInit_elem, bind, he, List.flatten_cons]
    rfl

/-- an array of nested arrays is an array of their elements, of the sum of the dimensions -/
theorem C120_array (e : Elem) (shape : List Nat) (n : Nat) :
    ∃ a, arrayInit (.arr (flat e shape)) n "C" = .ok a ∧ a.dtype = e ∧ a.ndim = n + shape.length ∧ a.shape = none :=
  ⟨_, rfl, rfl, rfl, rfl⟩

/-- C120: the element `index` of the flattened array is where the nested arrays have it: element `inner` of the array that is
element `outer`. -/
theorem C120_position : ∀ (outer inner i j : List Nat), InRange outer i → InRange inner j →
    position (outer ++ inner) (i ++ j) = position outer i * inner.prod + position inner j ∧ InRange (outer ++ inner) (i ++ j) := by
  intro outer
  induction outer with
  | nil =>
    intro inner i j hi hj
    cases i with
    | nil => simp [position, hj]
    | cons _ _ => cases hi
  | cons n outer ih =>
    intro inner i j hi hj
    cases i with
    | nil => cases hi
    | cons k i =>
      obtain ⟨h1, h2⟩ := ih inner i j hi.2 hj
      refine ⟨?_, hi.1, h2⟩
      rw [List.cons_append, List.cons_append, position, position, h1, List.prod_append]
      ring

/-- different elements have different positions inside the array -/
theorem C120_inside : ∀ (shape i j : List Nat), InRange shape i → InRange shape j →
    position shape i < shape.prod ∧ (position shape i = position shape j → i = j) := by
  intro shape
  induction shape with
  | nil =>
    intro i j hi hj
    cases i <;> cases j <;> simp_all [InRange, position]
  | cons n shape ih =>
    intro i j hi hj
    cases i with
    | nil => cases hi
    | cons a i =>
      cases j with
      | nil => cases hj
      | cons b j =>
        obtain ⟨h1, h2⟩ := ih i j hi.2 hj.2
        obtain ⟨h3, _⟩ := ih j i hj.2 hi.2
        have hpos : 0 < shape.prod := by omega
        rw [position, position, List.prod_cons]
        constructor
        · calc a * shape.prod + position shape i < a * shape.prod + shape.prod := by omega
            _ = (a + 1) * shape.prod := by ring
            _ ≤ n * shape.prod := Nat.mul_le_mul_right _ hi.1
        · intro h
          have hab : a = b := by
            have e1 : (a * shape.prod + position shape i) / shape.prod = a := by
              rw [Nat.add_comm, Nat.add_mul_div_right _ _ hpos, Nat.div_eq_of_lt h1, Nat.zero_add]
            have e2 : (b * shape.prod + position shape j) / shape.prod = b := by
              rw [Nat.add_comm, Nat.add_mul_div_right _ _ hpos, Nat.div_eq_of_lt h3, Nat.zero_add]
            rw [← e1, h, e2]
          subst hab
          rw [h2 (by omega)]

-- twelve packed records of four bytes in each of the two elements of an array
example : tower (.record "slot" 4 false) [[2], [12]] =
    .ok (.arr ⟨.record "slot" 4 false, 2, "C", true, false, some [2, 12]⟩) := by decide
example : Whole (.record "slot" 4 false) ∧ InRange [2] [1] ∧ InRange [12] [5] ∧ position [2, 12] [1, 5] = 17 :=
  ⟨fun _ _ h => (nomatch h), by simp [InRange], by simp [InRange], by decide⟩

/-- Full C120: arrays, too, are typed unaligned exactly when their elements are packed records. False. -/
def C120_full : Prop := ∀ (e : Elem) (d : Dtype), (d = .elem e ∨ ∃ shape, d = .arr (flat e shape)) → ∀ n a,
  arrayInit d n "C" = .ok a → a.aligned = !packed e

/-- C120 for arrays: it holds if the array is not one of nested arrays, or if the elements are not packed. -/
theorem C120_aligned_partial (e : Elem) (n : Nat) :
    (∀ a, arrayInit (.elem e) n "C" = .ok a → a.aligned = !packed e) ∧
    ∀ shape a, arrayInit (.arr (flat e shape)) n "C" = .ok a → a.aligned = true := by
  constructor
  · intro a h
    rw [arrayInit_elem] at h
    cases h
    rfl
  · intro shape a h
    cases h
    rfl

/-- An array of nested arrays of packed records is typed as aligned: the test is made before the flattening. -/
theorem C120_full_false : ¬ C120_full := fun h => by
  have := h (.record "slot" 3 false) _ (.inr ⟨[12], rfl⟩) 1 _ rfl
  revert this
  decide

end Verif.Patch
