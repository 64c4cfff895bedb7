import Verif.Model.FlatBuffer
import Verif.Spec.FlatBuffer
import Mathlib.Tactic.Ring
import Mathlib.Tactic.Linarith
import Mathlib.Tactic.NormNum
/-
C68: what the FlatBuffer classes read.
-/
namespace Verif.FlatBuffer
open FlatBufferSpec (LE SignedLE VtableAt FieldOffset FieldIs RefAt VectorAt)

/-! ### bytes -/

theorem bind_ok {α β : Type} (x : Except PyErr α) (f : α → Except PyErr β) (b : β) :
    (x >>= f) = .ok b ↔ ∃ a, x = .ok a ∧ f a = .ok b := by
  cases x with
  | error e => simp [bind, Except.bind]
  | ok a => simp [bind, Except.bind]

theorem fromLE_lt (bs : Bytes) : fromLE bs < 256 ^ bs.length := by
  induction bs with
  | nil => simp [fromLE]
  | cons b bs ih =>
    rw [fromLE, List.length_cons, pow_succ]
    have := b.isLt
    omega

theorem fromLE_digits (bs : Bytes) (x : Nat) :
    fromLE bs = x ↔ x < 256 ^ bs.length ∧ ∀ (i : Nat) (h : i < bs.length), bs[i].toNat = x / 256 ^ i % 256 := by
  induction bs generalizing x with
  | nil => simp [fromLE]; omega
  | cons b bs ih =>
    have hb := b.isLt
    have hlt := fromLE_lt bs
    rw [fromLE]
    constructor
    · intro h
      have h1 : x % 256 = b.toNat := by omega
      have h2 : fromLE bs = x / 256 := by omega
      obtain ⟨h3, h4⟩ := (ih (x / 256)).mp h2
      refine ⟨by rw [List.length_cons, pow_succ]; omega, fun i hi => ?_⟩
      cases i with
      | zero => simp [h1]
      | succ i =>
        rw [List.getElem_cons_succ, h4 i (by simpa using hi), Nat.div_div_eq_div_mul, pow_succ']
    · rintro ⟨h1, h2⟩
      have h3 := h2 0 (by simp)
      simp at h3
      rw [List.length_cons, pow_succ] at h1
      have : fromLE bs = x / 256 := by
        refine (ih (x / 256)).mpr ⟨by omega, fun i hi => ?_⟩
        have := h2 (i + 1) (by simpa using hi)
        rwa [List.getElem_cons_succ, pow_succ', ← Nat.div_div_eq_div_mul] at this
      omega

theorem le_iff (buf : Bytes) (off w x : Nat) :
    LE buf off w x ↔ off + w ≤ buf.length ∧ fromLE ((buf.drop off).take w) = x ∨ (w = 0 ∧ x = 0) := by
  constructor
  · rintro ⟨h1, h2⟩
    cases w with
    | zero => right; simp at h1; exact ⟨rfl, h1⟩
    | succ w =>
      left
      have hl : off + (w + 1) ≤ buf.length := by
        obtain ⟨b, hb, _⟩ := h2 w (by omega)
        obtain ⟨h, _⟩ := List.getElem?_eq_some_iff.mp hb
        omega
      refine ⟨hl, (fromLE_digits _ _).mpr ⟨?_, fun i hi => ?_⟩⟩
      · rwa [List.length_take, List.length_drop, min_eq_left (by omega)]
      · rw [List.length_take, List.length_drop, min_eq_left (by omega)] at hi
        obtain ⟨b, hb, hx⟩ := h2 i hi
        obtain ⟨h, hb⟩ := List.getElem?_eq_some_iff.mp hb
        rw [List.getElem_take, List.getElem_drop, hb, hx]
  · rintro (⟨hl, h⟩ | ⟨rfl, rfl⟩)
    · obtain ⟨h1, h2⟩ := (fromLE_digits _ _).mp h
      rw [List.length_take, List.length_drop, min_eq_left (by omega)] at h1
      refine ⟨h1, fun i hi => ⟨buf[off + i]'(by omega), List.getElem?_eq_getElem _, ?_⟩⟩
      have := h2 i (by rw [List.length_take, List.length_drop, min_eq_left (by omega)]; exact hi)
      rwa [List.getElem_take, List.getElem_drop] at this
    · exact ⟨by simp, fun i hi => by omega⟩

theorem encodeGet_ok (buf : Bytes) (w off x : Nat) (hw : 0 < w) :
    encodeGet w buf (off : Int) = .ok x ↔ LE buf off w x := by
  rw [le_iff]
  unfold encodeGet
  rw [if_neg (by omega)]
  by_cases h : off + w ≤ buf.length
  · rw [if_neg (by omega), Int.toNat_natCast, Except.ok.injEq]
    constructor
    · intro h'; exact .inl ⟨h, h'⟩
    · rintro (⟨_, h'⟩ | ⟨h', _⟩)
      · exact h'
      · omega
  · rw [if_pos (by omega)]
    simp only [reduceCtorEq, false_iff]
    rintro (⟨h', _⟩ | ⟨h', _⟩) <;> omega

theorem le_bound {buf : Bytes} {off w x : Nat} (hw : 0 < w) (h : LE buf off w x) : off + w ≤ buf.length := by
  rcases (le_iff _ _ _ _).mp h with h | h
  · exact h.1
  · omega

theorem enforce_ok (off : Int) : enforceOffset off = .ok () ↔ 0 ≤ off ∧ off ≤ 4294967295 := by
  unfold enforceOffset
  split <;> simp_all

theorem tableGet_ok {buf : Bytes} (hbuf : buf.length ≤ 4294967296) (w : Nat) (hw : 0 < w) (off : Int) (x : Nat) :
    tableGet w buf off = .ok x ↔ ∃ o : Nat, off = o ∧ LE buf o w x := by
  unfold tableGet
  rw [bind_ok]
  constructor
  · rintro ⟨_, h1, h2⟩
    obtain ⟨h3, _⟩ := (enforce_ok off).mp h1
    obtain ⟨o, rfl⟩ := Int.eq_ofNat_of_zero_le h3
    exact ⟨o, rfl, (encodeGet_ok _ _ _ _ hw).mp h2⟩
  · rintro ⟨o, rfl, h⟩
    have := le_bound hw h
    exact ⟨(), (enforce_ok _).mpr ⟨by omega, by omega⟩, (encodeGet_ok _ _ _ _ hw).mpr h⟩

theorem signedLE_iff (buf : Bytes) (off w : Nat) (hw : 0 < w) (y : Int) :
    SignedLE buf off w y ↔ ∃ x, LE buf off w x ∧ signed w x = y := by
  have hp : (2 : Int) ^ (8 * w) = 2 * 2 ^ (8 * w - 1) := by
    rw [show 8 * w = 8 * w - 1 + 1 by omega, pow_succ]; simp; ring
  have hp' : (2 : Nat) ^ (8 * w) = 2 * 2 ^ (8 * w - 1) := by
    conv_lhs => rw [show 8 * w = 8 * w - 1 + 1 by omega, pow_succ]
    ring
  have h256 : (256 : Nat) ^ w = 2 ^ (8 * w) := by rw [pow_mul]; norm_num
  have hcast : (((2 : Nat) ^ (8 * w - 1) : Nat) : Int) = 2 ^ (8 * w - 1) := by push_cast; rfl
  unfold SignedLE signed
  constructor
  · rintro ⟨h1, h2, x, hx, h3⟩
    refine ⟨x, hx, ?_⟩
    by_cases hy : 0 ≤ y
    · rw [Int.emod_eq_of_lt hy (by omega)] at h3
      rw [if_pos (by omega), h3]
    · have : y % 2 ^ (8 * w) = y + 2 ^ (8 * w) := by
        rw [← Int.add_emod_right, Int.emod_eq_of_lt (by omega) (by omega)]
      rw [this] at h3
      rw [if_neg (by omega), h3]
      ring
  · rintro ⟨x, hx, rfl⟩
    have hlt := hx.1
    have hpos : (0 : Int) < 2 ^ (8 * w - 1) := by positivity
    rw [h256] at hlt
    split
    · exact ⟨by omega, by omega, x, hx, by rw [Int.emod_eq_of_lt (by omega) (by omega)]⟩
    · refine ⟨by omega, by omega, x, hx, ?_⟩
      rw [Int.sub_emod_right, Int.emod_eq_of_lt (by omega) (by omega)]

theorem le_unique {buf : Bytes} {off w x y : Nat} (hx : LE buf off w x) (hy : LE buf off w y) : x = y := by
  rcases (le_iff _ _ _ _).mp hx with ⟨_, rfl⟩ | ⟨rfl, rfl⟩
  · rcases (le_iff _ _ _ _).mp hy with ⟨_, rfl⟩ | ⟨rfl, rfl⟩
    · rfl
    · simp [fromLE]
  · have := hy.1; simp at this; exact this.symm

/-! ### tables -/

/-- `Table.Offset` is the offset of the field as the format defines it. -/
theorem tableOffset_ok {buf : Bytes} (hbuf : buf.length ≤ 4294967296) (pos k o : Nat) :
    tableOffset buf pos (4 + 2 * k) = .ok o ↔ FieldOffset buf pos k o := by
  unfold tableOffset FieldOffset VtableAt
  simp only [bind_ok, tableGet_ok hbuf 4 (by omega), tableGet_ok hbuf 2 (by omega)]
  constructor
  · rintro ⟨s, ⟨p, hp, hs⟩, n, ⟨v, hv, hn⟩, h⟩
    obtain rfl : pos = p := by omega
    refine ⟨v, n, ⟨(signedLE_iff _ _ _ (by omega) _).mpr ⟨s, hs, by omega⟩, hn⟩, ?_⟩
    split at h
    · rename_i hlt
      left
      obtain ⟨u, hu, hlo⟩ := (tableGet_ok hbuf 2 (by omega) _ _).mp h
      obtain rfl : u = v + 4 + 2 * k := by rw [hv] at hu; push_cast at hu; omega
      exact ⟨hlt, hlo⟩
    · right
      cases h
      exact ⟨by omega, rfl⟩
  · rintro ⟨v, n, ⟨hs, hn⟩, h⟩
    obtain ⟨s, hs, hsv⟩ := (signedLE_iff _ _ _ (by omega) _).mp hs
    refine ⟨s, ⟨pos, rfl, hs⟩, n, ⟨v, by omega, hn⟩, ?_⟩
    rcases h with ⟨hlt, hlo⟩ | ⟨hle, rfl⟩
    · rw [if_pos hlt]
      exact (tableGet_ok hbuf 2 (by omega) _ _).mpr ⟨v + 4 + 2 * k, by rw [hsv]; push_cast; ring, hlo⟩
    · rw [if_neg (by omega)]; rfl

/-- A scalar of the given type with this value is stored at `p`. -/
def Stored (buf : Bytes) : Scalar → Nat → Int → Prop
  | .i8, p, y => SignedLE buf p 1 y
  | .i32, p, y => SignedLE buf p 4 y
  | .u64, p, y => ∃ x : Nat, y = x ∧ LE buf p 8 x
  | .f32, p, y => ∃ x : Nat, y = x ∧ LE buf p 4 x

theorem stored_iff {buf : Bytes} (hbuf : buf.length ≤ 4294967296) (ty : Scalar) (p : Nat) (y : Int) :
    Stored buf ty p y ↔ ∃ x, tableGet ty.width buf (p : Int) = .ok x ∧ ty.decode x = y := by
  have hw : 0 < ty.width := by cases ty <;> decide
  simp only [tableGet_ok hbuf _ hw]
  cases ty
  · simp only [Stored, signedLE_iff _ _ 1 (by omega), Scalar.width, Scalar.decode]
    exact ⟨fun ⟨x, h1, h2⟩ => ⟨x, ⟨p, rfl, h1⟩, h2⟩, fun ⟨x, ⟨o, ho, h1⟩, h2⟩ => ⟨x, by
      obtain rfl : p = o := by omega
      exact h1, h2⟩⟩
  · simp only [Stored, signedLE_iff _ _ 4 (by omega), Scalar.width, Scalar.decode]
    exact ⟨fun ⟨x, h1, h2⟩ => ⟨x, ⟨p, rfl, h1⟩, h2⟩, fun ⟨x, ⟨o, ho, h1⟩, h2⟩ => ⟨x, by
      obtain rfl : p = o := by omega
      exact h1, h2⟩⟩
  · simp only [Stored, Scalar.width, Scalar.decode]
    exact ⟨fun ⟨x, h1, h2⟩ => ⟨x, ⟨p, rfl, h2⟩, h1.symm⟩, fun ⟨x, ⟨o, ho, h1⟩, h2⟩ => ⟨x, h2.symm, by
      obtain rfl : p = o := by omega
      exact h1⟩⟩
  · simp only [Stored, Scalar.width, Scalar.decode]
    exact ⟨fun ⟨x, h1, h2⟩ => ⟨x, ⟨p, rfl, h2⟩, h1.symm⟩, fun ⟨x, ⟨o, ho, h1⟩, h2⟩ => ⟨x, h2.symm, by
      obtain rfl : p = o := by omega
      exact h1⟩⟩

/-- **C68**, scalars: reading field `k` of the table at `pos` gives exactly the value stored there, or the default when
the field is absent. -/
theorem C68_scalar {buf : Bytes} (hbuf : buf.length ≤ 4294967296) (pos k : Nat) (ty : Scalar) (r : Option Int) :
    readScalar buf pos ty (4 + 2 * k) = .ok r ↔ FieldIs buf pos k (Stored buf ty) r := by
  unfold readScalar FieldIs
  simp only [bind_ok, tableOffset_ok hbuf]
  refine exists_congr fun o => and_congr_right fun _ => ?_
  by_cases ho : o = 0
  · subst ho
    simp only [ne_eq, not_true_eq_false, if_false, pure, Except.pure, Except.ok.injEq, false_and, or_false, true_and]
    exact eq_comm
  · simp only [ne_eq, ho, not_false_eq_true, if_true, bind_ok, pure, Except.pure, Except.ok.injEq, false_and, false_or,
      true_and, stored_iff hbuf]
    have e : ((o : Int) + pos) = ((pos + o : Nat) : Int) := by push_cast; ring
    rw [e]
    constructor
    · rintro ⟨x, h1, h2⟩; exact ⟨_, ⟨x, h1, rfl⟩, h2.symm⟩
    · rintro ⟨a, ⟨x, h1, h2⟩, h3⟩; exact ⟨x, h1, by rw [h2, h3]⟩

theorem indirect_ok {buf : Bytes} (hbuf : buf.length ≤ 4294967296) (p q : Nat) :
    tableIndirect buf p = .ok q ↔ ∃ d, LE buf p 4 d ∧ q = p + d := by
  unfold tableIndirect
  simp only [bind_ok, encodeGet_ok _ 4 _ _ (by omega), pure, Except.pure, Except.ok.injEq]
  constructor
  · rintro ⟨_, _, d, h, rfl⟩; exact ⟨d, h, rfl⟩
  · rintro ⟨d, h, rfl⟩
    have := le_bound (by omega) h
    exact ⟨(), (enforce_ok _).mpr ⟨by omega, by omega⟩, d, h, rfl⟩

theorem refAt_iff {α : Type} {buf : Bytes} (hbuf : buf.length ≤ 4294967296) (make : Bytes → Nat → Except PyErr α)
    (table : Nat → α → Prop) (hm : ∀ q a, make buf q = .ok a ↔ table q a) (p : Nat) (a : α) :
    RefAt buf table p a ↔ ∃ q, tableIndirect buf p = .ok q ∧ make buf q = .ok a := by
  unfold RefAt
  simp only [indirect_ok hbuf, hm]
  constructor
  · rintro ⟨d, h1, h2⟩; exact ⟨_, ⟨d, h1, rfl⟩, h2⟩
  · rintro ⟨_, ⟨d, h1, rfl⟩, h2⟩; exact ⟨d, h1, h2⟩

/-- **C68**, sub-tables: `make` being a class reading exactly the tables described by `table`, reading field `k` gives
exactly the object of the table referred to, or the default. -/
theorem C68_object {α : Type} {buf : Bytes} (hbuf : buf.length ≤ 4294967296) (make : Bytes → Nat → Except PyErr α)
    (table : Nat → α → Prop) (hm : ∀ q a, make buf q = .ok a ↔ table q a) (pos k : Nat) (r : Option α) :
    readObject make buf pos (4 + 2 * k) = .ok r ↔ FieldIs buf pos k (RefAt buf table) r := by
  unfold readObject FieldIs
  simp only [bind_ok, tableOffset_ok hbuf]
  refine exists_congr fun o => and_congr_right fun _ => ?_
  by_cases ho : o = 0
  · subst ho
    simp only [ne_eq, not_true_eq_false, if_false, pure, Except.pure, Except.ok.injEq, false_and, or_false, true_and]
    exact eq_comm
  · simp only [ne_eq, ho, not_false_eq_true, if_true, bind_ok, pure, Except.pure, Except.ok.injEq, false_and, false_or,
      true_and, refAt_iff hbuf make table hm]
    rw [Nat.add_comm o pos]
    constructor
    · rintro ⟨q, h1, a, h2, h3⟩; exact ⟨a, ⟨q, h1, h2⟩, h3.symm⟩
    · rintro ⟨a, ⟨q, h1, h2⟩, h3⟩; exact ⟨q, h1, a, h2, h3.symm⟩

theorem objectLoop_ok {α : Type} {buf : Bytes} (hbuf : buf.length ≤ 4294967296) (make : Bytes → Nat → Except PyErr α)
    (table : Nat → α → Prop) (hm : ∀ q a, make buf q = .ok a ↔ table q a) (len off : Nat) (as : List α) :
    objectLoop make buf off len = .ok as ↔
      as.length = len ∧ ∀ (i : Nat) (a : α), as[i]? = some a → RefAt buf table (off + 4 * i) a := by
  induction len generalizing off as with
  | zero =>
    simp only [objectLoop, pure, Except.pure, Except.ok.injEq]
    constructor
    · rintro rfl; exact ⟨rfl, fun i a h => by simp at h⟩
    · rintro ⟨h, _⟩; exact (List.length_eq_zero_iff.mp h).symm
  | succ len ih =>
    simp only [objectLoop, bind_ok, pure, Except.pure, Except.ok.injEq, ih]
    constructor
    · rintro ⟨q, h1, x, h2, as', ⟨h3, h4⟩, rfl⟩
      refine ⟨by simp [h3], fun i a h => ?_⟩
      cases i with
      | zero => cases h; exact (refAt_iff hbuf make table hm _ _).mpr ⟨q, h1, h2⟩
      | succ i =>
        have := h4 i a (by simpa using h)
        rwa [show off + 4 + 4 * i = off + 4 * (i + 1) by ring] at this
    · rintro ⟨h1, h2⟩
      cases as with
      | nil => simp at h1
      | cons x as =>
        obtain ⟨q, h3, h4⟩ := (refAt_iff hbuf make table hm _ _).mp (h2 0 x rfl)
        refine ⟨q, h3, x, h4, as, ⟨by simpa using h1, fun i a h => ?_⟩, rfl⟩
        have := h2 (i + 1) a (by simpa using h)
        rwa [show off + 4 + 4 * i = off + 4 * (i + 1) by ring]

/-- field `k` is a vector of tables; an absent vector is the empty list -/
def VectorField {α : Type} (buf : Bytes) (pos k : Nat) (table : Nat → α → Prop) (as : List α) : Prop :=
  ∃ r, FieldIs buf pos k (VectorAt buf table) r ∧ as = r.getD []

theorem fieldOffset_lt {buf : Bytes} {pos k o : Nat} (h : FieldOffset buf pos k o) : o < 65536 := by
  obtain ⟨v, n, _, ⟨_, h⟩ | ⟨_, h⟩⟩ := h
  · exact h.1
  · omega

/-- **C68**, vectors of tables: reading field `k` gives exactly the objects of the tables referred to, in order; the
empty list when the field is absent. -/
theorem C68_array {α : Type} {buf : Bytes} (hbuf : buf.length ≤ 4294967296) (make : Bytes → Nat → Except PyErr α)
    (table : Nat → α → Prop) (hm : ∀ q a, make buf q = .ok a ↔ table q a) (pos k : Nat) (as : List α) :
    readObjectArray make buf pos (4 + 2 * k) = .ok as ↔ VectorField buf pos k table as := by
  unfold readObjectArray VectorField FieldIs
  simp only [bind_ok, tableOffset_ok hbuf]
  constructor
  · rintro ⟨o, ho, h⟩
    by_cases h0 : o = 0
    · subst h0
      cases h
      exact ⟨none, ⟨0, ho, .inl ⟨rfl, rfl⟩⟩, rfl⟩
    · rw [if_pos h0] at h
      simp only [tableVector, tableVectorLen, bind_ok, tableGet_ok hbuf 4 (by omega), pure, Except.pure,
        Except.ok.injEq, objectLoop_ok hbuf make table hm] at h
      obtain ⟨x, ⟨_, _, d, ⟨p, hp, hd⟩, rfl⟩, n, ⟨_, _, d', hd', hn⟩, hlen, hel⟩ := h
      obtain rfl : p = pos + o := by omega
      rw [encodeGet_ok _ 4 _ _ (by omega), Nat.add_comm o pos] at hd'
      obtain rfl := le_unique hd hd'
      rw [encodeGet_ok _ 4 _ _ (by omega), Nat.add_comm o pos] at hn
      subst hlen
      refine ⟨some as, ⟨o, ho, .inr ⟨h0, as, ⟨d, hd, hn, fun i a hi => ?_⟩, rfl⟩⟩, rfl⟩
      have := hel i a hi
      rwa [show o + pos + d + 4 + 4 * i = pos + o + d + 4 + 4 * i by ring] at this
  · rintro ⟨r, ⟨o, ho, ⟨h0, rfl⟩ | ⟨h0, as', ⟨d, hd, hn, hel⟩, rfl⟩⟩, has⟩
    · subst h0 has
      exact ⟨0, ho, rfl⟩
    · refine ⟨o, ho, ?_⟩
      obtain rfl : as = as' := has
      have hlt := fieldOffset_lt ho
      have he : enforceOffset (o : Int) = .ok () := (enforce_ok _).mpr ⟨by omega, by omega⟩
      rw [if_pos h0]
      simp only [tableVector, tableVectorLen, bind_ok, tableGet_ok hbuf 4 (by omega), pure, Except.pure,
        Except.ok.injEq, objectLoop_ok hbuf make table hm]
      refine ⟨o + pos + d + 4, ⟨(), he, d, ⟨pos + o, by push_cast; ring, hd⟩, rfl⟩, as.length, ⟨(), he, d, ?_, ?_⟩, rfl,
        fun i a hi => ?_⟩
      · rw [encodeGet_ok _ 4 _ _ (by omega), Nat.add_comm o pos]; exact hd
      · rw [encodeGet_ok _ 4 _ _ (by omega), Nat.add_comm o pos]; exact hn
      · have := hel i a hi
        rwa [show o + pos + d + 4 + 4 * i = pos + o + d + 4 + 4 * i by ring]

/-! ### constructors -/

theorem init_bind {α β : Type} (x : Init α) (f : α → Init β) (e : Bytes × Nat) (c : Nat) (r : β × Nat) :
    (x >>= f) e c = .ok r ↔ ∃ a c', x e c = .ok (a, c') ∧ f a e c' = .ok r := by
  show (x e c >>= fun p => f p.1 e p.2) = .ok r ↔ _
  rw [bind_ok]
  exact ⟨fun ⟨⟨a, c'⟩, h1, h2⟩ => ⟨a, c', h1, h2⟩, fun ⟨a, c', h1, h2⟩ => ⟨(a, c'), h1, h2⟩⟩

theorem init_pure {α : Type} (a : α) (e : Bytes × Nat) (c : Nat) (r : α × Nat) :
    (pure a : Init α) e c = .ok r ↔ r = (a, c) := by
  show Except.ok (a, c) = Except.ok r ↔ _
  rw [Except.ok.injEq, eq_comm]

theorem init_lift {α : Type} (x : Except PyErr α) (e : Bytes × Nat) (c : Nat) (r : α × Nat) :
    (liftM x : Init α) e c = .ok r ↔ ∃ a, x = .ok a ∧ r = (a, c) := by
  cases x with
  | error y =>
    show (Except.error y : Except PyErr _) = _ ↔ _
    simp
  | ok a =>
    show Except.ok (a, c) = Except.ok r ↔ _
    rw [Except.ok.injEq]
    exact ⟨fun h => ⟨a, rfl, h.symm⟩, fun ⟨b, h1, h2⟩ => by cases h1; exact h2.symm⟩

theorem init_padding (n : Nat) (e : Bytes × Nat) (c : Nat) (r : Unit × Nat) :
    readInitPadding n e c = .ok r ↔ r = ((), c + 2 * n) := by
  show Except.ok ((), c + 2 * n) = Except.ok r ↔ _
  rw [Except.ok.injEq, eq_comm]

theorem init_atCounter {α : Type} (read : Bytes → Nat → Nat → Except PyErr α) (buf : Bytes) (pos c : Nat)
    (r : α × Nat) : atCounter read (buf, pos) c = .ok r ↔ ∃ a, read buf pos c = .ok a ∧ r = (a, c + 2) := by
  show (read buf pos c >>= fun a => Except.ok (a, c + 2)) = .ok r ↔ _
  simp only [bind_ok, Except.ok.injEq]
  exact exists_congr fun a => and_congr_right fun _ => eq_comm

theorem init_read {buf : Bytes} (hbuf : buf.length ≤ 4294967296) (pos k : Nat) (ty : Scalar) (r : Option Int × Nat) :
    readInit ty (buf, pos) (4 + 2 * k) = .ok r ↔
      ∃ a, FieldIs buf pos k (Stored buf ty) a ∧ r = (a, 4 + 2 * (k + 1)) := by
  unfold readInit
  rw [init_atCounter]
  simp only [C68_scalar hbuf]
  rfl

theorem init_object {α : Type} {buf : Bytes} (hbuf : buf.length ≤ 4294967296) (make : Bytes → Nat → Except PyErr α)
    (table : Nat → α → Prop) (hm : ∀ q a, make buf q = .ok a ↔ table q a) (pos k : Nat) (r : Option α × Nat) :
    readInitObject make (buf, pos) (4 + 2 * k) = .ok r ↔
      ∃ a, FieldIs buf pos k (RefAt buf table) a ∧ r = (a, 4 + 2 * (k + 1)) := by
  unfold readInitObject
  rw [init_atCounter]
  simp only [C68_object hbuf make table hm]
  rfl

theorem init_array {α : Type} {buf : Bytes} (hbuf : buf.length ≤ 4294967296) (make : Bytes → Nat → Except PyErr α)
    (table : Nat → α → Prop) (hm : ∀ q a, make buf q = .ok a ↔ table q a) (pos k : Nat) (r : List α × Nat) :
    readInitArray make (buf, pos) (4 + 2 * k) = .ok r ↔
      ∃ a, VectorField buf pos k table a ∧ r = (a, 4 + 2 * (k + 1)) := by
  unfold readInitArray
  rw [init_atCounter]
  simp only [C68_array hbuf make table hm]
  rfl

/-- fields `k`, ..., `k + n - 1` are floats with these patterns, 0 where absent -/
def FloatFields (buf : Bytes) (pos k n : Nat) (xs : List Int) : Prop :=
  xs.length = n ∧ ∀ (i : Nat) (x : Int), xs[i]? = some x →
    ∃ r, FieldIs buf pos (k + i) (Stored buf .f32) r ∧ x = r.getD 0

theorem init_floats {buf : Bytes} (hbuf : buf.length ≤ 4294967296) (pos k n : Nat) (r : List Int × Nat) :
    readFloats n (buf, pos) (4 + 2 * k) = .ok r ↔
      ∃ xs, FloatFields buf pos k n xs ∧ r = (xs, 4 + 2 * (k + n)) := by
  induction n generalizing k r with
  | zero =>
    rw [readFloats, init_pure]
    constructor
    · rintro rfl; exact ⟨[], ⟨rfl, fun i x h => by simp at h⟩, rfl⟩
    · rintro ⟨xs, ⟨h, _⟩, rfl⟩
      rw [List.length_eq_zero_iff.mp h]; rfl
  | succ n ih =>
    simp only [readFloats, init_bind, init_read hbuf, init_pure]
    constructor
    · rintro ⟨a, c, ⟨_, h1, h2⟩, xs, c', h3, rfl⟩
      cases h2
      obtain ⟨ys, ⟨h4, h5⟩, h6⟩ := (ih _ _).mp h3
      cases h6
      refine ⟨a.getD 0 :: xs, ⟨by simp [h4], fun i x hi => ?_⟩, by rw [show k + 1 + n = k + (n + 1) by ring]⟩
      cases i with
      | zero => cases hi; exact ⟨a, h1, rfl⟩
      | succ i =>
        have := h5 i x (by simpa using hi)
        rwa [show k + 1 + i = k + (i + 1) by ring] at this
    · rintro ⟨xs, ⟨h1, h2⟩, rfl⟩
      cases xs with
      | nil => simp at h1
      | cons x xs =>
        obtain ⟨a, h3, rfl⟩ := h2 0 x rfl
        refine ⟨a, _, ⟨a, h3, rfl⟩, xs, _, (ih _ _).mpr ⟨xs, ⟨by simpa using h1, fun i x hi => ?_⟩, rfl⟩,
          by rw [show k + 1 + n = k + (n + 1) by ring]⟩
        have := h2 (i + 1) x (by simpa using hi)
        rwa [show k + 1 + i = k + (i + 1) by ring]

theorem construct_ok {α : Type} (init : Init α) (buf : Bytes) (pos : Nat) (a : α) :
    construct init buf pos = .ok a ↔ ∃ c, init (buf, pos) (4 + 2 * 0) = .ok (a, c) := by
  show ((init (buf, pos) 4) >>= fun p => Except.ok p.1) = .ok a ↔ _
  simp only [bind_ok, Except.ok.injEq]
  exact ⟨fun ⟨⟨b, c⟩, h1, h2⟩ => ⟨c, by rw [← h2]; exact h1⟩, fun ⟨c, h⟩ => ⟨(a, c), h, rfl⟩⟩

/-! ### the classes: which field of the table each attribute is -/

/-- scalar field `k`, with the value `v` (`none`: the default `None`) -/
def Opt (buf : Bytes) (pos k : Nat) (ty : Scalar) (v : Option Int) : Prop := FieldIs buf pos k (Stored buf ty) v

/-- scalar field `k`, with 0 for an absent field -/
def Or0 (buf : Bytes) (pos k : Nat) (ty : Scalar) (v : Int) : Prop :=
  ∃ r, FieldIs buf pos k (Stored buf ty) r ∧ v = r.getD 0

theorem pad (k n : Nat) : 4 + 2 * k + 2 * n = 4 + 2 * (k + n) := by ring

/-- unfolds a constructor into the fields read -/
macro "fields" "[" ts:Lean.Parser.Tactic.simpLemma,* "]" : tactic =>
  `(tactic| simp only [construct_ok, init_bind, init_pure, init_padding, pad, Prod.mk.injEq, existsAndEq, and_true,
    true_and, exists_and_left, exists_and_right, Nat.reduceAdd, and_assoc, exists_const, $ts,*])

/-- **C68**: the attributes of `Vec3F` are fields 0-2. -/
theorem C68_vec3F {buf : Bytes} (hbuf : buf.length ≤ 4294967296) (pos : Nat) (v : Vec3F) :
    vec3F buf pos = .ok v ↔ Opt buf pos 0 .f32 v.x ∧ Opt buf pos 1 .f32 v.y ∧ Opt buf pos 2 .f32 v.z := by
  obtain ⟨x, y, z⟩ := v
  unfold vec3F
  fields [init_read hbuf, Opt, Vec3F.mk.injEq]

/-- the multipliers stored in 12 fields from `k` on: four for the time, then eight for the weather, after the constant
1.0 for no weather -/
def Multipliers (buf : Bytes) (pos k : Nat) (time weather : List Int) : Prop :=
  FloatFields buf pos k 4 time ∧ ∃ w, FloatFields buf pos (k + 4) 8 w ∧ weather = 0x3f800000 :: w

/-- **C68**: species is field 0, form 1, the multipliers fields 2-13. -/
theorem C68_multiplier {buf : Bytes} (hbuf : buf.length ≤ 4294967296) (pos : Nat) (m : EncounterMultiplier8a) :
    encounterMultiplier8a buf pos = .ok m ↔ Opt buf pos 0 .i32 m.species ∧ Or0 buf pos 1 .i32 m.form ∧
      Multipliers buf pos 2 m.timeMultipliers m.weatherMultipliers := by
  obtain ⟨sp, form, time, weather⟩ := m
  unfold encounterMultiplier8a
  fields [init_read hbuf, init_floats hbuf, Opt, Or0, EncounterMultiplier8a.mk.injEq, Multipliers, f32One]
  exact ⟨fun ⟨h1, x, h2, h3, w, h4, h5, h6⟩ => ⟨h1, ⟨x, h2, h5⟩, h3, w, h4, h6⟩,
    fun ⟨h1, ⟨x, h2, h5⟩, h3, w, h4, h6⟩ => ⟨h1, x, h2, h3, w, h4, h5, h6⟩⟩

/-- **C68**: species is field 0, form 1, the alpha level index field 6. -/
theorem C68_misc {buf : Bytes} (hbuf : buf.length ≤ 4294967296) (pos : Nat) (m : PokeMisc8a) :
    pokeMisc8a buf pos = .ok m ↔ Opt buf pos 0 .i32 m.species ∧ Or0 buf pos 1 .i32 m.form ∧
      Or0 buf pos 6 .i32 m.alphaLevelIndex := by
  obtain ⟨sp, form, alpha⟩ := m
  unfold pokeMisc8a
  fields [init_read hbuf, Opt, Or0, PokeMisc8a.mk.injEq]
  exact ⟨fun ⟨h1, x, h2, y, h3, h4, h5⟩ => ⟨h1, ⟨x, h2, h4⟩, y, h3, h5⟩,
    fun ⟨h1, ⟨x, h2, h4⟩, y, h3, h5⟩ => ⟨h1, x, h2, y, h3, h4, h5⟩⟩

/-- a `Vec3F` table -/
def Vec3At (buf : Bytes) (pos : Nat) (v : Vec3F) : Prop :=
  Opt buf pos 0 .f32 v.x ∧ Opt buf pos 1 .f32 v.y ∧ Opt buf pos 2 .f32 v.z

/-- **C68**: the coordinates are field 7. -/
theorem C68_parameters {buf : Bytes} (hbuf : buf.length ≤ 4294967296) (pos : Nat) (v : Option Vec3F) :
    placementParameters8a buf pos = .ok v ↔ FieldIs buf pos 7 (RefAt buf (Vec3At buf)) v := by
  unfold placementParameters8a
  fields [init_object hbuf vec3F _ (C68_vec3F hbuf)]
  rfl

/-- **C68**: the id is field 0. -/
theorem C68_f20 {buf : Bytes} (hbuf : buf.length ≤ 4294967296) (pos : Nat) (v : Option Int) :
    placementSpawner8aF20 buf pos = .ok v ↔ Opt buf pos 0 .u64 v := by
  unfold placementSpawner8aF20
  fields [init_read hbuf, Opt]

/-- field `k` as a truth value -/
def Flag (buf : Bytes) (pos k : Nat) (b : Option Bool) : Prop :=
  ∃ r, Opt buf pos k .i8 r ∧ b = r.map fun x => decide (x ≠ 0)

/-- what `PlacementSpawner8a` reads: the coordinates and the encounter table of the first elements of fields 2 and 20 -/
structure SpawnerAt (buf : Bytes) (pos : Nat) (s : PlacementSpawner8a) : Prop where
  spawnerId : Opt buf pos 0 .u64 s.spawnerId
  groupId : Opt buf pos 1 .u64 s.groupId
  coordinates : ∃ rest, VectorField buf pos 2 (fun p v => FieldIs buf p 7 (RefAt buf (Vec3At buf)) v)
    (s.coordinates :: rest)
  minSpawnCount : Opt buf pos 7 .i32 s.minSpawnCount
  maxSpawnCount : Opt buf pos 8 .i32 s.maxSpawnCount
  isMassOutbreak : Flag buf pos 10 s.isMassOutbreak
  isWater : Flag buf pos 11 s.isWater
  isSky : Flag buf pos 12 s.isSky
  encounterTableId : ∃ rest, VectorField buf pos 20 (fun p v => Opt buf p 0 .u64 v) (s.encounterTableId :: rest)

theorem first_ok {α : Type} (l : List α) (a : α) : first l = .ok a ↔ ∃ rest, l = a :: rest := by
  cases l with
  | nil => simp [first]
  | cons b l => simp [first]

/-- **C68**: the attributes of a spawner. -/
theorem C68_spawner {buf : Bytes} (hbuf : buf.length ≤ 4294967296) (pos : Nat) (s : PlacementSpawner8a) :
    placementSpawner8a buf pos = .ok s ↔ SpawnerAt buf pos s := by
  obtain ⟨a1, a2, a3, a4, a5, a6, a7, a8, a9⟩ := s
  unfold placementSpawner8a
  fields [init_read hbuf, init_array hbuf placementParameters8a _ (C68_parameters hbuf),
    init_array hbuf placementSpawner8aF20 _ (C68_f20 hbuf), init_lift, first_ok, PlacementSpawner8a.mk.injEq, toBool]
  constructor
  · rintro ⟨h1, h2, h3, h4, h5, x, h6, y, h7, z, h8, h9, h10, h11, h12⟩
    exact ⟨h1, h2, h3, h4, h5, ⟨x, h6, h10⟩, ⟨y, h7, h11⟩, ⟨z, h8, h12⟩, h9⟩
  · rintro ⟨h1, h2, h3, h4, h5, ⟨x, h6, h10⟩, ⟨y, h7, h11⟩, ⟨z, h8, h12⟩, h9⟩
    exact ⟨h1, h2, h3, h4, h5, x, h6, y, h7, z, h8, h9, h10, h11, h12⟩

/-- **C68**: the multipliers are fields 7-18. -/
theorem C68_eligibility {buf : Bytes} (hbuf : buf.length ≤ 4294967296) (pos : Nat) (m : EncounterEligibilityTraits8a) :
    encounterEligibilityTraits8a buf pos = .ok m ↔ Multipliers buf pos 7 m.timeMultipliers m.weatherMultipliers := by
  obtain ⟨time, weather⟩ := m
  unfold encounterEligibilityTraits8a
  fields [init_floats hbuf, EncounterEligibilityTraits8a.mk.injEq, Multipliers, f32One]

/-- is alpha: field 0 is true, or else field 1 -/
def AlphaAt (buf : Bytes) (pos : Nat) (b : Bool) : Prop :=
  (Flag buf pos 0 (some true) ∧ b = true) ∨
    ∃ f g, Flag buf pos 0 f ∧ f ≠ some true ∧ Flag buf pos 1 g ∧ (b = true ↔ g = some true)

/-- **C68**: the alpha flag. -/
theorem C68_alpha {buf : Bytes} (hbuf : buf.length ≤ 4294967296) (pos : Nat) (b : Bool) :
    encounterOybnTraits8a buf pos = .ok b ↔ AlphaAt buf pos b := by
  unfold encounterOybnTraits8a
  fields [init_read hbuf]
  constructor
  · rintro ⟨c, a, h1, h2⟩
    by_cases ha : toBool a = some true
    · rw [if_pos ha, init_pure] at h2
      cases h2
      exact .inl ⟨⟨a, h1, ha.symm⟩, rfl⟩
    · rw [if_neg ha] at h2
      simp only [init_bind, init_read hbuf, init_pure] at h2
      obtain ⟨r, c', ⟨_, h3, h4⟩, h5⟩ := h2
      cases h4
      cases h5
      exact .inr ⟨_, _, ⟨a, h1, rfl⟩, ha, ⟨r, h3, rfl⟩, by rw [decide_eq_true_eq]; rfl⟩
  · rintro (⟨⟨a, h1, ha⟩, rfl⟩ | ⟨f, g, ⟨a, h1, rfl⟩, hf, ⟨r, h3, rfl⟩, hb⟩)
    · have ha' : toBool a = some true := ha.symm
      exact ⟨_, a, h1, by rw [if_pos ha', init_pure]⟩
    · refine ⟨4 + 2 * 2, a, h1, ?_⟩
      have hf' : ¬ toBool a = some true := hf
      rw [if_neg hf']
      simp only [init_bind, init_read hbuf, init_pure]
      refine ⟨r, _, ⟨r, h3, rfl⟩, ?_⟩
      rw [Prod.mk.injEq]
      exact ⟨by rw [Bool.eq_iff_iff, decide_eq_true_eq]; exact hb, rfl⟩

/-- what `EncounterSlot8a` reads -/
structure SlotAt (buf : Bytes) (pos : Nat) (s : EncounterSlot8a) : Prop where
  species : Opt buf pos 0 .i32 s.species
  gender : Or0 buf pos 2 .i32 s.gender
  form : Opt buf pos 3 .i32 s.form
  guaranteedIvs : Opt buf pos 25 .i32 s.guaranteedIvs
  baseProbability : Opt buf pos 29 .i32 s.baseProbability
  overrideMinLevel : Or0 buf pos 30 .i32 s.overrideMinLevel
  overrideMaxLevel : Or0 buf pos 31 .i32 s.overrideMaxLevel
  eligibility : FieldIs buf pos 45 (RefAt buf fun p (m : EncounterEligibilityTraits8a) =>
    Multipliers buf p 7 m.timeMultipliers m.weatherMultipliers) s.eligibility
  isAlpha : FieldIs buf pos 46 (RefAt buf (AlphaAt buf)) (some s.isAlpha)

/-- **C68**: the attributes of an encounter slot. -/
theorem C68_slot {buf : Bytes} (hbuf : buf.length ≤ 4294967296) (pos : Nat) (s : EncounterSlot8a) :
    encounterSlot8a buf pos = .ok s ↔ SlotAt buf pos s := by
  obtain ⟨a1, a2, a3, a4, a5, a6, a7, a8, a9⟩ := s
  unfold encounterSlot8a
  fields [init_read hbuf, init_object hbuf encounterEligibilityTraits8a _ (C68_eligibility hbuf),
    init_object hbuf encounterOybnTraits8a _ (C68_alpha hbuf)]
  constructor
  · rintro ⟨c, b1, h1, b2, h2, b3, h3, b4, h4, b5, h5, b6, h6, b7, h7, b8, h8, b9, h9, h⟩
    cases b9 with
    | none =>
      obtain ⟨_, h, _⟩ := (init_lift _ _ _ _).mp h
      cases h
    | some al =>
      rw [init_pure] at h
      cases h
      exact ⟨h1, ⟨b2, h2, rfl⟩, h3, h4, h5, ⟨b6, h6, rfl⟩, ⟨b7, h7, rfl⟩, h8, h9⟩
  · rintro ⟨h1, ⟨b2, h2, rfl⟩, h3, h4, h5, ⟨b6, h6, rfl⟩, ⟨b7, h7, rfl⟩, h8, h9⟩
    exact ⟨_, _, h1, b2, h2, _, h3, _, h4, _, h5, b6, h6, b7, h7, _, h8, _, h9, (init_pure _ _ _ _).mpr rfl⟩

/-- what `EncounterTable8a` reads -/
structure TableAt (buf : Bytes) (pos : Nat) (t : EncounterTable8a) : Prop where
  tableId : Opt buf pos 0 .u64 t.tableId
  minLevel : Opt buf pos 1 .i32 t.minLevel
  maxLevel : Opt buf pos 2 .i32 t.maxLevel
  slots : VectorField buf pos 3 (SlotAt buf) t.slots

/-- **C68**: the attributes of an encounter table. -/
theorem C68_table {buf : Bytes} (hbuf : buf.length ≤ 4294967296) (pos : Nat) (t : EncounterTable8a) :
    encounterTable8a buf pos = .ok t ↔ TableAt buf pos t := by
  obtain ⟨a1, a2, a3, a4⟩ := t
  unfold encounterTable8a
  fields [init_read hbuf, init_array hbuf encounterSlot8a _ (C68_slot hbuf), EncounterTable8a.mk.injEq]
  exact ⟨fun ⟨h1, h2, h3, h4⟩ => ⟨h1, h2, h3, h4⟩, fun ⟨h1, h2, h3, h4⟩ => ⟨h1, h2, h3, h4⟩⟩

/-- **C68**: the encounter table of a second wave is field 7. -/
theorem C68_wave {buf : Bytes} (hbuf : buf.length ≤ 4294967296) (pos : Nat) (v : Option Int) :
    newHugeOutbreakSecondWave8a buf pos = .ok v ↔ Opt buf pos 7 .u64 v := by
  unfold newHugeOutbreakSecondWave8a
  fields [init_read hbuf, Opt]

/-- **C68**: the attributes of an outbreak group are fields 0-2. -/
theorem C68_group {buf : Bytes} (hbuf : buf.length ≤ 4294967296) (pos : Nat) (g : NewHugeOutbreakGroup8a) :
    newHugeOutbreakGroup8a buf pos = .ok g ↔ Opt buf pos 0 .u64 g.hash ∧
      VectorField buf pos 1 (fun p v => Opt buf p 7 .u64 v) g.waveDetails ∧ Opt buf pos 2 .u64 g.firstWaveTableId := by
  obtain ⟨a1, a2, a3⟩ := g
  unfold newHugeOutbreakGroup8a
  fields [init_read hbuf, init_array hbuf newHugeOutbreakSecondWave8a _ (C68_wave hbuf),
    NewHugeOutbreakGroup8a.mk.injEq]
  rfl

/-- **C68**: the hash is field 0. -/
theorem C68_lotteryDetail {buf : Bytes} (hbuf : buf.length ≤ 4294967296) (pos : Nat) (v : Option Int) :
    newHugeOutbreakGroupLotteryDetail8a buf pos = .ok v ↔ Opt buf pos 0 .u64 v := by
  unfold newHugeOutbreakGroupLotteryDetail8a
  fields [init_read hbuf, Opt]

/-- **C68**: the attributes of an outbreak lottery are fields 0-3; the full table is the three parts in order. -/
theorem C68_lottery {buf : Bytes} (hbuf : buf.length ≤ 4294967296) (pos : Nat) (g : NewHugeOutbreakGroupLottery8a) :
    newHugeOutbreakGroupLottery8a buf pos = .ok g ↔ Opt buf pos 0 .u64 g.hash ∧
      VectorField buf pos 1 (fun p v => Opt buf p 0 .u64 v) g.tableCommon ∧
      VectorField buf pos 2 (fun p v => Opt buf p 0 .u64 v) g.tableRare1 ∧
      VectorField buf pos 3 (fun p v => Opt buf p 0 .u64 v) g.tableRare2 ∧
      g.fullTable = g.tableCommon ++ g.tableRare1 ++ g.tableRare2 := by
  obtain ⟨a1, a2, a3, a4, a5⟩ := g
  unfold newHugeOutbreakGroupLottery8a
  fields [init_read hbuf, init_array hbuf newHugeOutbreakGroupLotteryDetail8a _ (C68_lotteryDetail hbuf),
    NewHugeOutbreakGroupLottery8a.mk.injEq]
  rfl

/-- **C68**, root tables: the objects are those of the vector in field 0 of the table the buffer's first four bytes
refer to. -/
theorem C68_root {α : Type} {buf : Bytes} (hbuf : buf.length ≤ 4294967296) (make : Bytes → Nat → Except PyErr α)
    (table : Nat → α → Prop) (hm : ∀ q a, make buf q = .ok a ↔ table q a) (as : List α) :
    rootArray make buf = .ok as ↔ ∃ root, LE buf 0 4 root ∧ VectorField buf root 0 table as := by
  unfold rootArray constructRoot rootOffset
  have h0 : ∀ x, encodeGet 4 buf 0 = .ok x ↔ LE buf 0 4 x := fun x => encodeGet_ok buf 4 0 x (by omega)
  simp only [bind_ok, h0]
  fields [init_array hbuf make table hm]

/-! ### C79: strings -/

/-- root offset; vtable and table of the root; the vector; vtable and table of the element -/
def exampleBuffer : Bytes :=
  [12, 0, 0, 0,  6, 0, 8, 0, 4, 0, 0, 0,  8, 0, 0, 0, 4, 0, 0, 0,  1, 0, 0, 0, 24, 0, 0, 0,
   18, 0, 12, 0, 4, 0, 0, 0, 0, 0, 0, 0, 0, 0, 0, 0, 8, 0, 0, 0,  20, 0, 0, 0, 197, 1, 0, 0, 3, 0, 0, 0]

/-- a reference at `p` to a string: its length, then that many bytes -/
def StringAt (buf : Bytes) (p : Nat) (bs : Bytes) : Prop :=
  ∃ d, LE buf p 4 d ∧ LE buf (p + d) 4 bs.length ∧ ∀ (i : Nat) (b : BitVec 8), bs[i]? = some b → buf[p + d + 4 + i]? = some b

/-- what the caller means by a default: a value to be returned when the string is absent -/
def Default.meant {α : Type} (decode : Bytes → Except PyErr α) : Default α → Except PyErr (Option α)
  | .none => .ok Option.none
  | .str s => .ok (some s)
  | .bytes b => (decode b).map some

/-- **C79** as stated: a stored string is returned decoded, an absent one is the default. -/
def C79Statement : Prop :=
  ∀ (α : Type) (decode : Bytes → Except PyErr α) (buf : Bytes), buf.length ≤ 4294967296 → ∀ (pos k : Nat) (d : Default α),
    (∀ bs, FieldIs buf pos k (StringAt buf) (some bs) →
      readString decode buf pos (4 + 2 * k) d = (decode bs).map some) ∧
    (FieldIs buf pos k (StringAt buf) none → readString decode buf pos (4 + 2 * k) d = d.meant decode)

/-- **C79**, as far as it is true: with any default for stored strings, and with a `bytes` default for absent ones.  A
missing string with the default `None`, or with a `str`, raises `AttributeError`. -/
theorem C79_partial {α : Type} (decode : Bytes → Except PyErr α) {buf : Bytes} (hbuf : buf.length ≤ 4294967296)
    (pos k : Nat) (d : Default α) :
    (∀ bs, FieldIs buf pos k (StringAt buf) (some bs) →
      readString decode buf pos (4 + 2 * k) d = (decode bs).map some) ∧
    (FieldIs buf pos k (StringAt buf) none → readString decode buf pos (4 + 2 * k) d =
      match d with
      | .bytes b => (decode b).map some
      | _ => .error .attributeError) := by
  constructor
  · rintro bs ⟨o, ho, ⟨_, h⟩ | ⟨h0, bs', ⟨e, he, hn, hb⟩, h⟩⟩
    · cases h
    · cases h
      have hlt := fieldOffset_lt ho
      have hen : enforceOffset (o : Int) = .ok () := (enforce_ok _).mpr ⟨by omega, by omega⟩
      have h1 : tableVector buf pos o = .ok (o + pos + e + 4) := by
        simp only [tableVector, bind_ok, tableGet_ok hbuf 4 (by omega), pure, Except.pure, Except.ok.injEq]
        exact ⟨(), hen, e, ⟨pos + o, by push_cast; ring, he⟩, rfl⟩
      have h2 : tableVectorLen buf pos o = .ok bs.length := by
        simp only [tableVectorLen, bind_ok]
        refine ⟨(), hen, e, ?_, ?_⟩
        · rw [encodeGet_ok _ 4 _ _ (by omega), Nat.add_comm o pos]; exact he
        · rw [encodeGet_ok _ 4 _ _ (by omega), Nat.add_comm o pos]; exact hn
      have h3 : (buf.drop (o + pos + e + 4)).take bs.length = bs := by
        apply List.ext_getElem?
        intro i
        rw [List.getElem?_take]
        split
        · rename_i hi
          rw [List.getElem?_drop, List.getElem?_eq_getElem hi, ← hb i bs[i] (List.getElem?_eq_getElem hi)]
          congr 1; ring
        · rw [List.getElem?_eq_none (by omega)]
      unfold readString
      rw [(tableOffset_ok hbuf pos k o).mpr ho]
      simp only [bind, Except.bind, ne_eq, h0, not_false_eq_true, if_true, h1, h2, h3]
      cases decode bs <;> rfl
  · rintro ⟨o, ho, ⟨rfl, _⟩ | ⟨_, _, _, h⟩⟩
    · unfold readString
      rw [(tableOffset_ok hbuf pos k 0).mpr ho]
      cases d with
      | bytes b =>
        simp only [bind, Except.bind, ne_eq, not_true_eq_false, if_false]
        cases decode b <;> rfl
      | none => rfl
      | str s => rfl
    · cases h

/-- **C79 is false as stated**: an absent string with the default `None` raises `AttributeError`. -/
theorem C79_full_false : ¬ C79Statement := by
  intro h
  have hb : exampleBuffer.length ≤ 4294967296 := by decide
  have ha : FieldIs exampleBuffer 48 1 (StringAt exampleBuffer) none :=
    ⟨0, (tableOffset_ok hb 48 1 0).mp (by decide +kernel), .inl ⟨rfl, rfl⟩⟩
  have h1 := (h Unit (fun _ => .ok ()) exampleBuffer hb 48 1 .none).2 ha
  have h2 := (C79_partial (fun _ => .ok ()) hb 48 1 .none).2 ha
  rw [h1] at h2
  cases h2

/-! ### example: a root table with one `PokeMisc8a`, whose form is absent -/

example : rootArray pokeMisc8a exampleBuffer = .ok [⟨some 453, 0, 3⟩] := by decide +kernel

example : exampleBuffer.length ≤ 4294967296 := by decide

example : FieldOffset exampleBuffer 48 6 8 := (tableOffset_ok (by decide) 48 6 8).mp (by decide +kernel)

end Verif.FlatBuffer
