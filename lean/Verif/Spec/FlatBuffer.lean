import Verif.Model.Basic
/-
The FlatBuffers wire format, as needed for tables, scalars, sub-tables and vectors of tables
(https://flatbuffers.dev/internals): everything little-endian; a table starts with the signed 32-bit distance back to
its vtable; the vtable is its own size in bytes, the size of the table, and one 16-bit offset per field, relative to
the table, 0 or beyond the end of the vtable if the field is absent; a reference is an unsigned 32-bit distance
forward; a vector is its length and then its elements.
-/
namespace Verif.FlatBufferSpec

abbrev Bytes := List (BitVec 8)

/-- The `w` bytes from `off` on, which lie in the buffer, are the base-256 digits of `x`, lowest first. -/
def LE (buf : Bytes) (off w x : Nat) : Prop :=
  x < 256 ^ w ∧ ∀ i < w, ∃ b, buf[off + i]? = some b ∧ b.toNat = x / 256 ^ i % 256

/-- The same for a signed number in two's complement. -/
def SignedLE (buf : Bytes) (off w : Nat) (y : Int) : Prop :=
  -2 ^ (8 * w - 1) ≤ y ∧ y < 2 ^ (8 * w - 1) ∧ ∃ x : Nat, LE buf off w x ∧ (x : Int) = y % 2 ^ (8 * w)

/-- The table at `pos` has its vtable at `v`, of `n` bytes. -/
def VtableAt (buf : Bytes) (pos v n : Nat) : Prop := SignedLE buf pos 4 ((pos : Int) - v) ∧ LE buf v 2 n

/-- Field `k` of the table at `pos` is at distance `o` from `pos`; 0 if the field is absent. -/
def FieldOffset (buf : Bytes) (pos k o : Nat) : Prop :=
  ∃ v n, VtableAt buf pos v n ∧ ((4 + 2 * k < n ∧ LE buf (v + 4 + 2 * k) 2 o) ∨ (n ≤ 4 + 2 * k ∧ o = 0))

/-- Field `k` of the table at `pos` is absent (`none`) or stored, `stored` relating the address to the value. -/
def FieldIs {α : Type} (buf : Bytes) (pos k : Nat) (stored : Nat → α → Prop) (r : Option α) : Prop :=
  ∃ o, FieldOffset buf pos k o ∧ ((o = 0 ∧ r = none) ∨ (o ≠ 0 ∧ ∃ a, stored (pos + o) a ∧ r = some a))

/-- a reference at `p` to a table described by `table` -/
def RefAt {α : Type} (buf : Bytes) (table : Nat → α → Prop) (p : Nat) (a : α) : Prop :=
  ∃ d, LE buf p 4 d ∧ table (p + d) a

/-- a reference at `p` to a vector of references to tables -/
def VectorAt {α : Type} (buf : Bytes) (table : Nat → α → Prop) (p : Nat) (as : List α) : Prop :=
  ∃ d, LE buf p 4 d ∧ LE buf (p + d) 4 as.length ∧
    ∀ (i : Nat) (a : α), as[i]? = some a → RefAt buf table (p + d + 4 + 4 * i) a

end Verif.FlatBufferSpec
