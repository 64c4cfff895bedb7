import Verif.Model.ShippedPersonal
import Verif.Spec.ShippedPersonal
import Verif.Props.Personal
import Verif.Lemmas.Bytes
/-
The records of a file that is cut in pieces of the record size, and checks on the pieces.
-/
namespace Verif.ShippedPersonal
open Personal ShippedPersonalSpec

/-! ### the records -/

theorem pieceBytes_length (size p : Nat) : (pieceBytes size p).length = size := by simp [pieceBytes]

theorem flatMap_length (size : Nat) (ps : List Nat) : (ps.flatMap (pieceBytes size)).length = ps.length * size := by
  induction ps with
  | nil => simp
  | cons p ps ih => simp [ih, pieceBytes_length, Nat.add_mul]; omega

theorem readRecords_pieces (l : Layout) (hl : 0 < l.size) (ps : List Nat) (fuel : Nat) (hf : ps.length < fuel) :
    readRecords l fuel (ps.flatMap (pieceBytes l.size)) = ps.map fun p => readRecord l (pieceBytes l.size p) := by
  induction ps generalizing fuel with
  | nil =>
    cases fuel with
    | zero => rfl
    | succ fuel => simp [readRecords, hl]
  | cons p ps ih =>
    cases fuel with
    | zero => simp at hf
    | succ fuel =>
      rw [readRecords, if_neg (by rw [flatMap_length, List.length_cons, Nat.add_mul]; omega), List.flatMap_cons,
        List.take_left' (pieceBytes_length _ _), List.drop_left' (pieceBytes_length _ _),
        ih fuel (by simpa using hf), List.map_cons]

theorem load_pieces (l : Layout) (hl : 0 < l.size) (ps : List Nat) :
    loadPersonal l (ps.flatMap (pieceBytes l.size)) = .ok (ps.map fun p => readRecord l (pieceBytes l.size p)) := by
  rw [loadPersonal, if_neg (by omega), readRecords_pieces l hl]
  rw [flatMap_length]
  have := Nat.le_mul_of_pos_right ps.length hl
  omega

/-! ### the fields -/

theorem pieceBytes_drop (size p k : Nat) : (pieceBytes size p).drop k = pieceBytes (size - k) (p / 256 ^ k) := by
  apply List.ext_getElem?
  intro i
  simp only [pieceBytes, List.getElem?_drop, List.getElem?_map]
  by_cases h : k + i < size
  · rw [List.getElem?_range h, List.getElem?_range (by omega)]
    simp only [Option.map_some, Nat.div_div_eq_div_mul]
    rw [← Nat.pow_add, Nat.add_assoc]
  · rw [List.getElem?_eq_none (by simp; omega), List.getElem?_eq_none (by simp; omega)]
    rfl

/-- the number of `s` bytes at byte `o` of a piece -/
def digit (p o s : Nat) : Nat := p / 256 ^ (o + 2) % 256 ^ s

/-- the value of a field as a number -/
def valueNat : Value → Nat
  | .u8 v => v.toNat
  | .u16 v => v.toNat
  | .bytes _ => 0

theorem pieceBytes_cons (size p : Nat) (h : 0 < size) :
    pieceBytes size p = BitVec.ofNat 8 (p / 65536) :: pieceBytes (size - 1) (p / 256) := by
  have := pieceBytes_drop size p 1
  rw [Nat.pow_one] at this
  rw [← this]
  cases size with
  | zero => omega
  | succ n => simp [pieceBytes, List.range_succ_eq_map]

theorem readField_piece (t : FieldTy) (size p : Nat) (h : t.size ≤ size) (ht : t = .u8 ∨ t = .u16) :
    valueNat (readField t (pieceBytes size p)).1 = digit p 0 t.size := by
  rcases ht with rfl | rfl
  · simp only [FieldTy.size] at h
    rw [pieceBytes_cons size p (by omega)]
    simp [readField, valueNat, digit, FieldTy.size]
  · simp only [FieldTy.size] at h
    rw [pieceBytes_cons size p (by omega), pieceBytes_cons (size - 1) _ (by omega)]
    simp only [readField, valueNat, digit, FieldTy.size]
    rw [BitVec.toNat_append, ← Nat.shiftLeft_add_eq_or_of_lt (BitVec.isLt _), Nat.shiftLeft_eq, BitVec.toNat_ofNat, BitVec.toNat_ofNat]
    omega

theorem readField_rest (t : FieldTy) (size p : Nat) (h : t.size ≤ size) :
    (readField t (pieceBytes size p)).2 = pieceBytes (size - t.size) (p / 256 ^ t.size) := by
  rw [(readField_write t _ (by rwa [pieceBytes_length])).2, pieceBytes_drop]

/-- offset and type of the field of this name -/
def place (name : String) : Layout → Option (Nat × FieldTy)
  | [] => none
  | f :: fs => if f.1 == name then some (0, f.2) else (place name fs).map fun x => (f.2.size + x.1, x.2)

theorem number_eq (l : Layout) (r : List Value) (name : String) :
    number l r name = (((l.zip r).find? fun x => x.1.1 == name).map fun x => valueNat x.2).getD 0 := by
  unfold number
  cases (l.zip r).find? fun x => x.1.1 == name with
  | none => rfl
  | some x =>
    obtain ⟨_, v⟩ := x
    cases v <;> rfl

theorem number_piece (l : Layout) (size p : Nat) (h : l.size ≤ size) (name : String) (o : Nat) (t : FieldTy)
    (hp : place name l = some (o, t)) (ht : t = .u8 ∨ t = .u16) :
    number l (readRecord l (pieceBytes size p)) name = digit p o t.size := by
  rw [number_eq]
  induction l generalizing size p o with
  | nil => simp [place] at hp
  | cons f l ih =>
    simp only [Layout.size] at h
    simp only [readRecord, List.zip_cons_cons, List.find?_cons]
    simp only [place] at hp
    by_cases hn : f.1 == name
    · simp only [hn, if_true, Option.some.injEq, Prod.mk.injEq] at hp
      obtain ⟨rfl, rfl⟩ := hp
      simp only [hn, Option.map_some, Option.getD_some]
      exact readField_piece f.2 size p (by omega) ht
    · simp only [hn] at hp
      simp only [Bool.false_eq_true, if_false, Option.map_eq_some_iff] at hp
      obtain ⟨x, hx, he⟩ := hp
      obtain ⟨o', t'⟩ := x
      simp only [Prod.mk.injEq] at he
      obtain ⟨rfl, rfl⟩ := he
      simp only [hn]
      rw [readField_rest f.2 size p (by omega), ih _ _ (by omega) o' hx]
      rw [digit, digit, Nat.div_div_eq_div_mul, ← Nat.pow_add, Nat.add_assoc]

/-! ### a table -/

/-- the pieces have the size of the records -/
theorem size_eq (t : Table) (ht : t ∈ tables) : t.source.2.size = (pieces t).1 ∧ 0 < t.source.2.size := by
  have h : ∀ t ∈ tables, t.source.2.size = (pieces t).1 ∧ 0 < t.source.2.size := by decide +kernel
  exact h t ht

theorem file_eq (t : Table) (ht : t ∈ tables) : file t = (pieces t).2.flatMap (pieceBytes (pieces t).1) := by
  cases t <;> first | exact absurd ht (by decide) | rfl

/-- the records of a table -/
def records (t : Table) : List (List Value) :=
  (pieces t).2.map fun p => readRecord t.source.2 (pieceBytes t.source.2.size p)

theorem load_eq (t : Table) (ht : t ∈ tables) : load t = .ok (records t) := by
  rw [load, file_eq t ht, ← (size_eq t ht).1, load_pieces _ (size_eq t ht).2]
  rfl

theorem records_length (t : Table) : (records t).length = (pieces t).2.length := by simp [records]

theorem entry_eq (t : Table) (i : Nat) (name : String) (o : Nat) (ty : FieldTy) (hi : i < (pieces t).2.length)
    (hp : place name t.source.2 = some (o, ty)) (hty : ty = .u8 ∨ ty = .u16) :
    entry t (records t) i name = digit ((pieces t).2.getD i 0) o ty.size := by
  rw [entry, records, List.getD_eq_getElem?_getD, List.getElem?_map, List.getElem?_eq_getElem hi, Option.map_some,
    Option.getD_some, number_piece _ _ _ (Nat.le_refl _) name o ty hp hty, List.getD_eq_getElem?_getD,
    List.getElem?_eq_getElem hi, Option.getD_some]

end Verif.ShippedPersonal
