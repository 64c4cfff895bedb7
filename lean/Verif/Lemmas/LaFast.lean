import Verif.Model.ShippedLa
import Verif.Props.EncLoadLa
import Mathlib.Tactic.Ring
import Mathlib.Tactic.Linarith
/-
Reading the FlatBuffers of Legends Arceus from a file given as one number, with operations the kernel evaluates directly,
and the proofs that this agrees with the file format (`Spec/FlatBuffer`).
-/
namespace Verif.LaFast
open FlatBuffer FlatBufferSpec ShippedLa

abbrev Bytes := List (BitVec 8)

/-! ### the evaluator -/

/-- `k x` with `x` evaluated first -/
def force {α : Type} (x : Nat) (k : Nat → α) : α :=
  match x with
  | 0 => k 0
  | n + 1 => k (Nat.succ n)

/-- `K` bits of the file, from the byte `1024 c` on -/
def windowOf (N K c : Nat) : Nat := Nat.land (Nat.shiftRight N (Nat.mul 8192 c)) (Nat.sub (Nat.pow 2 K) 1)

/-- 2048 bytes of the file, from a multiple of 1024 on: the same few numbers again and again -/
def window (N c : Nat) : Nat := windowOf N 16384 c

/-- the number in the `w` bytes from `off` on -/
def get (N len w off : Nat) : Option Nat :=
  match Nat.ble (Nat.add off w) len, Nat.ble w 1024 with
  | true, true =>
    force (Nat.div off 1024) fun c =>
      some (Nat.land (Nat.shiftRight (window N c) (Nat.mul 8 (Nat.mod off 1024))) (Nat.sub (Nat.pow 2 (Nat.mul 8 w)) 1))
  | _, _ => none

def sgn (x : Nat) : Int :=
  match Nat.blt x 2147483648 with
  | true => Int.ofNat x
  | false => Int.negSucc (Nat.sub 4294967295 x)

/-- size and contents of the vtable of the table at `pos` -/
def vtableAt (N len v : Nat) : Option (Nat × Nat) :=
  match get N len 2 v with
  | none => none
  | some vs =>
    match get N len vs v with
    | none => none
    | some vt =>
      match Nat.beq (Nat.land vs 1) 0 with
      | true => some (vs, vt)
      | false => none

def vtable (N len pos : Nat) : Option (Nat × Nat) :=
  match get N len 4 pos with
  | none => none
  | some so =>
    match Nat.blt so 2147483648 with
    | true =>
      match Nat.blt pos so with
      | true => none
      | false => vtableAt N len (Nat.sub pos so)
    | false => vtableAt N len (Nat.sub (Nat.add pos 4294967296) so)

def off (vs vt k : Nat) : Nat :=
  match Nat.blt (Nat.add (Nat.mul 2 k) 5) vs with
  | true => Nat.land (Nat.shiftRight vt (Nat.mul 8 (Nat.add 4 (Nat.mul 2 k)))) 65535
  | false => 0

def scalar (N len pos vs vt w k : Nat) : Option (Option Nat) :=
  match off vs vt k with
  | 0 => some none
  | o + 1 =>
    match get N len w (Nat.add pos (Nat.succ o)) with
    | none => none
    | some x => some (some x)

def ref (N len pos vs vt k : Nat) : Option (Option Nat) :=
  match off vs vt k with
  | 0 => some none
  | o + 1 =>
    match get N len 4 (Nat.add pos (Nat.succ o)) with
    | none => none
    | some x => some (some (Nat.add (Nat.add pos (Nat.succ o)) x))

def ofF : Option Nat → Int
  | none => 0
  | some x => Int.ofNat x

def floats (N len pos vs vt : Nat) : Nat → Nat → Option (List Int)
  | _, 0 => some []
  | k, n + 1 =>
    match scalar N len pos vs vt 4 k with
    | none => none
    | some x =>
      match floats N len pos vs vt (Nat.succ k) n with
      | none => none
      | some xs => some (ofF x :: xs)

def elig (N len pos : Nat) : Option EncounterEligibilityTraits8a :=
  match vtable N len pos with
  | none => none
  | some (vs, vt) =>
    match floats N len pos vs vt 7 4 with
    | none => none
    | some t =>
      match floats N len pos vs vt 11 8 with
      | none => none
      | some w => some ⟨t, f32One :: w⟩

def tb : Option Nat → Bool
  | none => false
  | some 0 => false
  | some (_ + 1) => true

def oybn (N len pos : Nat) : Option Bool :=
  match vtable N len pos with
  | none => none
  | some (vs, vt) =>
    match scalar N len pos vs vt 1 0 with
    | none => none
    | some x =>
      match tb x with
      | true => some true
      | false =>
        match scalar N len pos vs vt 1 1 with
        | none => none
        | some y => some (tb y)

def os : Option Nat → Option Int
  | none => none
  | some x => some (sgn x)

def od : Option Nat → Int
  | none => 0
  | some x => sgn x

def ou : Option Nat → Option Int
  | none => none
  | some x => some (Int.ofNat x)

def slot (N len pos : Nat) : Option EncounterSlot8a :=
  match vtable N len pos with
  | none => none
  | some (vs, vt) =>
    match scalar N len pos vs vt 4 0, scalar N len pos vs vt 4 2, scalar N len pos vs vt 4 3, scalar N len pos vs vt 4 25,
      scalar N len pos vs vt 4 29, scalar N len pos vs vt 4 30, scalar N len pos vs vt 4 31, ref N len pos vs vt 45,
      ref N len pos vs vt 46 with
    | some a, some b, some c, some d, some e, some f, some g, some (some h), some (some i) =>
      match elig N len h, oybn N len i with
      | some h, some i => some ⟨os a, od b, os c, os d, os e, od f, od g, some h, i⟩
      | _, _ => none
    | _, _, _, _, _, _, _, _, _ => none

def loop {α : Type} (make : Nat → Option α) (N len : Nat) : Nat → Nat → Option (List α)
  | _, 0 => some []
  | p, n + 1 =>
    match get N len 4 p with
    | none => none
    | some d =>
      match make (Nat.add p d) with
      | none => none
      | some x =>
        match loop make N len (Nat.add p 4) n with
        | none => none
        | some xs => some (x :: xs)

def array {α : Type} (make : Nat → Option α) (N len pos vs vt k : Nat) : Option (List α) :=
  match ref N len pos vs vt k with
  | none => none
  | some none => some []
  | some (some a) =>
    match get N len 4 a with
    | none => none
    | some n => loop make N len (Nat.add a 4) n

def table (N len pos : Nat) : Option EncounterTable8a :=
  match vtable N len pos with
  | none => none
  | some (vs, vt) =>
    match scalar N len pos vs vt 8 0, scalar N len pos vs vt 4 1, scalar N len pos vs vt 4 2,
      array (slot N len) N len pos vs vt 3 with
    | some a, some b, some c, some d => some ⟨ou a, os b, os c, d⟩
    | _, _, _, _ => none

def multiplier (N len pos : Nat) : Option EncounterMultiplier8a :=
  match vtable N len pos with
  | none => none
  | some (vs, vt) =>
    match scalar N len pos vs vt 4 0, scalar N len pos vs vt 4 1, floats N len pos vs vt 2 4, floats N len pos vs vt 6 8 with
    | some a, some b, some t, some w => some ⟨os a, od b, t, f32One :: w⟩
    | _, _, _, _ => none

def misc (N len pos : Nat) : Option PokeMisc8a :=
  match vtable N len pos with
  | none => none
  | some (vs, vt) =>
    match scalar N len pos vs vt 4 0, scalar N len pos vs vt 4 1, scalar N len pos vs vt 4 6 with
    | some a, some b, some c => some ⟨os a, od b, od c⟩
    | _, _, _ => none

def root {α : Type} (make : Nat → Option α) (N len : Nat) : Option (List α) :=
  match get N len 4 0 with
  | none => none
  | some pos =>
    match vtable N len pos with
    | none => none
    | some (vs, vt) => array make N len pos vs vt 0

/-! ### soundness -/

theorem bytesOf_length (len N : Nat) : (bytesOf len N).length = len := by simp [bytesOf]

theorem bytesOf_get {len N j : Nat} (h : j < len) : (bytesOf len N)[j]? = some (BitVec.ofNat 8 (N >>> (8 * j))) := by
  simp [bytesOf, h]

variable {N len : Nat}

theorem force_eq {α : Type} (x : Nat) (k : Nat → α) : force x k = k x := by cases x <;> rfl

private theorem windowOf_eq (N K c j o w : Nat) (hm : 8192 * c + 8 * j = 8 * o) (hw : 8 * j + 8 * w ≤ K) :
    (windowOf N K c) >>> (8 * j) &&& (2 ^ (8 * w) - 1) = N / 2 ^ (8 * o) % 2 ^ (8 * w) := by
  have e1 : (2 : Nat) ^ K = 2 ^ (8 * j) * 2 ^ (K - 8 * j) := by
    rw [← pow_add]; congr 1; omega
  show ((N >>> (8192 * c)) &&& (2 ^ K - 1)) >>> (8 * j) &&& (2 ^ (8 * w) - 1) = _
  rw [Nat.and_two_pow_sub_one_eq_mod, Nat.and_two_pow_sub_one_eq_mod, Nat.shiftRight_eq_div_pow,
    Nat.shiftRight_eq_div_pow, e1, Nat.mod_mul_right_div_self,
    Nat.mod_mod_of_dvd _ (pow_dvd_pow 2 (by omega)), Nat.div_div_eq_div_mul, ← pow_add, hm]

theorem window_eq (N o w : Nat) (hw : w ≤ 1024) :
    (window N (o / 1024)) >>> (8 * (o % 1024)) &&& (2 ^ (8 * w) - 1) = N / 2 ^ (8 * o) % 2 ^ (8 * w) := by
  unfold window
  exact windowOf_eq N 16384 (o / 1024) (o % 1024) o w (by omega) (by omega)

theorem get_sound {w o x : Nat} (h : get N len w o = some x) : LE (bytesOf len N) o w x := by
  unfold get at h
  split at h
  · rename_i hb hw
    have hb : o + w ≤ len := Nat.le_of_ble_eq_true hb
    have hw : w ≤ 1024 := Nat.le_of_ble_eq_true hw
    rw [force_eq] at h
    obtain rfl : (window N (o / 1024)) >>> (8 * (o % 1024)) &&& (2 ^ (8 * w) - 1) = x := Option.some.inj h
    rw [window_eq _ _ _ hw]
    have e : (256 : Nat) ^ w = 2 ^ (8 * w) := by rw [show 256 = 2 ^ 8 by rfl, ← pow_mul]
    refine ⟨by rw [e]; exact Nat.mod_lt _ (by positivity), fun i hi => ?_⟩
    refine ⟨_, bytesOf_get (by omega), ?_⟩
    rw [BitVec.toNat_ofNat, Nat.shiftRight_eq_div_pow]
    have e2 : (256 : Nat) ^ i = 2 ^ (8 * i) := by rw [show 256 = 2 ^ 8 by rfl, ← pow_mul]
    have e3 : (2 : Nat) ^ (8 * w) = 2 ^ (8 * i) * 2 ^ (8 * (w - i)) := by rw [← pow_add]; congr 1; omega
    rw [e2, e3, Nat.mod_mul_right_div_self, Nat.div_div_eq_div_mul, ← pow_add, show 8 * o + 8 * i = 8 * (o + i) by ring]
    rw [Nat.mod_mod_of_dvd _ (show (256 : Nat) ∣ 2 ^ (8 * (w - i)) from ⟨2 ^ (8 * (w - i - 1)), by
      rw [show 256 = 2 ^ 8 by rfl, ← pow_add]; congr 1; omega⟩)]
  · cases h

theorem sgn_sound {p x : Nat} (h : LE (bytesOf len N) p 4 x) : SignedLE (bytesOf len N) p 4 (sgn x) := by
  have hx : x < 4294967296 := h.1
  unfold sgn
  split
  · rename_i hb
    have hb : x < 2147483648 := Nat.blt_eq.mp hb
    exact ⟨by simp only [Int.ofNat_eq_natCast]; omega, by simp only [Int.ofNat_eq_natCast]; omega, x, h,
      by simp only [Int.ofNat_eq_natCast]; omega⟩
  · rename_i hb
    have hb : ¬ x < 2147483648 := fun h' => by rw [Nat.blt_eq.mpr h'] at hb; cases hb
    have e : Int.negSucc (Nat.sub 4294967295 x) = (x : Int) - 4294967296 := by
      rw [Int.negSucc_eq]
      show -(((4294967295 - x : Nat) : Int) + 1) = _
      omega
    rw [e]
    exact ⟨by omega, by omega, x, h, by omega⟩

/-- the table at `pos` has a vtable of `vs` bytes with these contents -/
def VT (buf : Bytes) (pos vs vt : Nat) : Prop :=
  ∃ v, VtableAt buf pos v vs ∧ vs % 2 = 0 ∧ ∀ p, p + 2 ≤ vs → LE buf (v + p) 2 (vt / 2 ^ (8 * p) % 65536)

theorem sub_le {buf : Bytes} {v vs vt p : Nat} (h : LE buf v vs vt) (hp : p + 2 ≤ vs) :
    LE buf (v + p) 2 (vt / 2 ^ (8 * p) % 65536) := by
  refine ⟨by omega, fun i hi => ?_⟩
  obtain ⟨b, h1, h2⟩ := h.2 (p + i) (by omega)
  refine ⟨b, by rw [← h1]; congr 1; omega, ?_⟩
  rw [h2, pow_add, ← Nat.div_div_eq_div_mul, show (256 : Nat) ^ p = 2 ^ (8 * p) by rw [show 256 = 2 ^ 8 by rfl, ← pow_mul]]
  generalize vt / 2 ^ (8 * p) = y
  have : i = 0 ∨ i = 1 := by omega
  rcases this with rfl | rfl
  · simp only [pow_zero, Nat.div_one]; omega
  · simp only [pow_one]; omega

theorem vtableAt_sound {pos v vs vt : Nat} (hs : SignedLE (bytesOf len N) pos 4 ((pos : Int) - v))
    (h : vtableAt N len v = some (vs, vt)) : VT (bytesOf len N) pos vs vt := by
  unfold vtableAt at h
  split at h
  · cases h
  · rename_i vs' h1
    split at h
    · cases h
    · rename_i vt' h2
      split at h
      · rename_i hb
        cases h
        have hb : vs &&& 1 = 0 := Nat.eq_of_beq_eq_true hb
        rw [Nat.and_one_is_mod] at hb
        exact ⟨v, ⟨hs, get_sound h1⟩, hb, fun p hp => sub_le (get_sound h2) hp⟩
      · cases h

theorem vtable_sound {pos vs vt : Nat} (h : vtable N len pos = some (vs, vt)) : VT (bytesOf len N) pos vs vt := by
  unfold vtable at h
  split at h
  · cases h
  · rename_i so h1
    have h1 := get_sound h1
    have hx : so < 4294967296 := h1.1
    split at h
    · rename_i hb
      have hb : so < 2147483648 := Nat.blt_eq.mp hb
      split at h
      · cases h
      · rename_i hc
        have hc : ¬ pos < so := fun h' => by rw [Nat.blt_eq.mpr h'] at hc; cases hc
        refine vtableAt_sound ?_ h
        have e : ((pos : Int) - (Nat.sub pos so : Nat)) = so := by
          show ((pos : Int) - ((pos - so : Nat) : Int)) = so
          omega
        rw [e]
        exact ⟨by omega, by omega, so, h1, by omega⟩
    · rename_i hb
      have hb : ¬ so < 2147483648 := fun h' => by rw [Nat.blt_eq.mpr h'] at hb; cases hb
      refine vtableAt_sound ?_ h
      have e : ((pos : Int) - (Nat.sub (Nat.add pos 4294967296) so : Nat)) = (so : Int) - 4294967296 := by
        show ((pos : Int) - ((pos + 4294967296 - so : Nat) : Int)) = _
        omega
      rw [e]
      exact ⟨by omega, by omega, so, h1, by omega⟩

theorem off_sound {buf : Bytes} {pos vs vt : Nat} (h : VT buf pos vs vt) (k : Nat) : FieldOffset buf pos k (off vs vt k) := by
  obtain ⟨v, hv, he, hl⟩ := h
  refine ⟨v, vs, hv, ?_⟩
  unfold off
  split
  · rename_i hb
    have hb : 2 * k + 5 < vs := Nat.blt_eq.mp hb
    left
    refine ⟨by omega, ?_⟩
    have := hl (4 + 2 * k) (by omega)
    rw [← Nat.add_assoc] at this
    show LE buf (v + 4 + 2 * k) 2 ((vt >>> (8 * (4 + 2 * k))) &&& (2 ^ 16 - 1))
    rwa [Nat.and_two_pow_sub_one_eq_mod, Nat.shiftRight_eq_div_pow]
  · rename_i hb
    have hb : ¬ 2 * k + 5 < vs := fun h' => by
      rw [show Nat.blt (Nat.add (Nat.mul 2 k) 5) vs = true from Nat.blt_eq.mpr h'] at hb; cases hb
    right
    exact ⟨by omega, rfl⟩

theorem fieldIs_map {α β : Type} {buf : Bytes} {pos k : Nat} {S : Nat → α → Prop} {T : Nat → β → Prop} {r : Option α}
    (f : α → β) (h : FieldIs buf pos k S r) (hf : ∀ p a, S p a → T p (f a)) : FieldIs buf pos k T (r.map f) := by
  obtain ⟨o, ho, ⟨h1, rfl⟩ | ⟨h1, a, h2, rfl⟩⟩ := h
  · exact ⟨o, ho, .inl ⟨h1, rfl⟩⟩
  · exact ⟨o, ho, .inr ⟨h1, f a, hf _ _ h2, rfl⟩⟩

theorem scalar_sound {pos vs vt w k : Nat} {r : Option Nat} (hv : VT (bytesOf len N) pos vs vt)
    (h : scalar N len pos vs vt w k = some r) : FieldIs (bytesOf len N) pos k (fun p x => LE (bytesOf len N) p w x) r := by
  have ho := off_sound hv k
  unfold scalar at h
  split at h
  · rename_i h0
    cases h
    exact ⟨_, ho, .inl ⟨h0, rfl⟩⟩
  · rename_i o h0
    split at h
    · cases h
    · rename_i x hx
      cases h
      exact ⟨_, ho, .inr ⟨by omega, x, by rw [h0]; exact get_sound hx, rfl⟩⟩

theorem ref_sound {pos vs vt k : Nat} {r : Option Nat} (hv : VT (bytesOf len N) pos vs vt)
    (h : ref N len pos vs vt k = some r) :
    FieldIs (bytesOf len N) pos k (fun p x => ∃ d, LE (bytesOf len N) p 4 d ∧ x = p + d) r := by
  have ho := off_sound hv k
  unfold ref at h
  split at h
  · rename_i h0
    cases h
    exact ⟨_, ho, .inl ⟨h0, rfl⟩⟩
  · rename_i o h0
    split at h
    · cases h
    · rename_i x hx
      cases h
      exact ⟨_, ho, .inr ⟨by omega, _, ⟨x, by rw [h0]; exact get_sound hx, by rw [h0]; rfl⟩, rfl⟩⟩

theorem ref_table {α : Type} {pos vs vt k q : Nat} {T : Nat → α → Prop} {a : α} (hv : VT (bytesOf len N) pos vs vt)
    (h : ref N len pos vs vt k = some (some q)) (ht : T q a) :
    FieldIs (bytesOf len N) pos k (RefAt (bytesOf len N) T) (some a) := by
  obtain ⟨o, ho, ⟨_, h⟩ | ⟨h1, x, ⟨d, h2, h3⟩, h⟩⟩ := ref_sound hv h
  · cases h
  · cases h
    exact ⟨o, ho, .inr ⟨h1, a, ⟨d, h2, by rwa [← h3]⟩, rfl⟩⟩

theorem os_eq (r : Option Nat) : os r = r.map sgn := by cases r <;> rfl
theorem ou_eq (r : Option Nat) : ou r = r.map Int.ofNat := by cases r <;> rfl
theorem od_eq (r : Option Nat) : od r = (r.map sgn).getD 0 := by cases r <;> rfl
theorem ofF_eq (r : Option Nat) : ofF r = (r.map Int.ofNat).getD 0 := by cases r <;> rfl

theorem opt_i32 {pos vs vt k : Nat} {r : Option Nat} (hv : VT (bytesOf len N) pos vs vt)
    (h : scalar N len pos vs vt 4 k = some r) : Opt (bytesOf len N) pos k .i32 (os r) := by
  rw [os_eq]
  exact fieldIs_map _ (scalar_sound hv h) fun p a h => sgn_sound h

theorem or0_i32 {pos vs vt k : Nat} {r : Option Nat} (hv : VT (bytesOf len N) pos vs vt)
    (h : scalar N len pos vs vt 4 k = some r) : Or0 (bytesOf len N) pos k .i32 (od r) := by
  rw [od_eq]
  exact ⟨_, fieldIs_map _ (scalar_sound hv h) fun p a h => sgn_sound h, rfl⟩

theorem opt_u64 {pos vs vt k : Nat} {r : Option Nat} (hv : VT (bytesOf len N) pos vs vt)
    (h : scalar N len pos vs vt 8 k = some r) : Opt (bytesOf len N) pos k .u64 (ou r) := by
  rw [ou_eq]
  exact fieldIs_map _ (scalar_sound hv h) fun p a h => ⟨a, rfl, h⟩

theorem opt_f32 {pos vs vt k : Nat} {r : Option Nat} (hv : VT (bytesOf len N) pos vs vt)
    (h : scalar N len pos vs vt 4 k = some r) : Opt (bytesOf len N) pos k .f32 (ou r) := by
  rw [ou_eq]
  exact fieldIs_map _ (scalar_sound hv h) fun p a h => ⟨a, rfl, h⟩

/-- a byte as a signed number -/
def sgn8 (x : Nat) : Int := if x < 128 then x else (x : Int) - 256

theorem flag_sound {pos vs vt k : Nat} {r : Option Nat} (hv : VT (bytesOf len N) pos vs vt)
    (h : scalar N len pos vs vt 1 k = some r) : Flag (bytesOf len N) pos k (r.map fun x => decide (x ≠ 0)) := by
  refine ⟨r.map sgn8, fieldIs_map _ (scalar_sound hv h) fun p a h => ?_, ?_⟩
  · have ha : a < 256 := h.1
    unfold sgn8
    split
    · exact ⟨by omega, by omega, a, h, by omega⟩
    · exact ⟨by omega, by omega, a, h, by omega⟩
  · rw [Option.map_map]
    obtain ⟨o, ho, ⟨_, rfl⟩ | ⟨_, a, ha, rfl⟩⟩ := scalar_sound hv h
    · rfl
    · have ha : a < 256 := ha.1
      have e : (a ≠ 0) = (sgn8 a ≠ 0) := by
        unfold sgn8
        rw [eq_iff_iff]
        split <;> omega
      simp only [Option.map_some, Function.comp, e]

theorem floats_sound {pos vs vt k n : Nat} {xs : List Int} (hv : VT (bytesOf len N) pos vs vt)
    (h : floats N len pos vs vt k n = some xs) : FloatFields (bytesOf len N) pos k n xs := by
  induction n generalizing k xs with
  | zero => cases h; exact ⟨rfl, fun i x h => by simp at h⟩
  | succ n ih =>
    unfold floats at h
    split at h
    · cases h
    · rename_i x hx
      split at h
      · cases h
      · rename_i ys hys
        cases h
        obtain ⟨h1, h2⟩ := ih hys
        refine ⟨by simp [h1], fun i y hi => ?_⟩
        cases i with
        | zero =>
          cases hi
          exact ⟨_, opt_f32 hv hx, by rw [ofF_eq, ou_eq]⟩
        | succ i =>
          have := h2 i y (by simpa using hi)
          rwa [show k.succ + i = k + (i + 1) by omega] at this

theorem elig_sound {pos : Nat} {m : EncounterEligibilityTraits8a} (h : elig N len pos = some m) :
    Multipliers (bytesOf len N) pos 7 m.timeMultipliers m.weatherMultipliers := by
  unfold elig at h
  split at h
  · cases h
  · rename_i vs vt hv
    have hv := vtable_sound hv
    split at h
    · cases h
    · rename_i t ht
      split at h
      · cases h
      · rename_i w hw
        cases h
        exact ⟨floats_sound hv ht, w, floats_sound hv hw, rfl⟩

theorem tb_eq (r : Option Nat) : tb r = true ↔ (r.map fun x => decide (x ≠ 0)) = some true := by
  rcases r with _ | _ | x <;> simp [tb]

theorem oybn_sound {pos : Nat} {b : Bool} (h : oybn N len pos = some b) : AlphaAt (bytesOf len N) pos b := by
  unfold oybn at h
  split at h
  · cases h
  · rename_i vs vt hv
    have hv := vtable_sound hv
    split at h
    · cases h
    · rename_i x hx
      have fx := flag_sound hv hx
      split at h
      · rename_i ht
        cases h
        rw [(tb_eq x).mp ht] at fx
        exact .inl ⟨fx, rfl⟩
      · rename_i ht
        split at h
        · cases h
        · rename_i y hy
          cases h
          refine .inr ⟨_, _, fx, fun hh => ?_, flag_sound hv hy, tb_eq y⟩
          rw [(tb_eq x).mpr hh] at ht
          cases ht

theorem slot_sound {pos : Nat} {s : EncounterSlot8a} (h : slot N len pos = some s) : SlotAt (bytesOf len N) pos s := by
  unfold slot at h
  split at h
  · cases h
  · rename_i vs vt hv
    have hv := vtable_sound hv
    split at h
    · rename_i a b c d e f g h' i h1 h2 h3 h4 h5 h6 h7 h8 h9
      split at h
      · rename_i h'' i' h10 h11
        cases h
        exact ⟨opt_i32 hv h1, or0_i32 hv h2, opt_i32 hv h3, opt_i32 hv h4, opt_i32 hv h5, or0_i32 hv h6, or0_i32 hv h7,
          ref_table hv h8 (elig_sound h10), ref_table hv h9 (oybn_sound h11)⟩
      · cases h
    · cases h

theorem loop_sound {α : Type} {make : Nat → Option α} {T : Nat → α → Prop} (hm : ∀ q a, make q = some a → T q a)
    {p n : Nat} {as : List α} (h : loop make N len p n = some as) :
    as.length = n ∧ ∀ (i : Nat) (a : α), as[i]? = some a → RefAt (bytesOf len N) T (p + 4 * i) a := by
  induction n generalizing p as with
  | zero => cases h; exact ⟨rfl, fun i x h => by simp at h⟩
  | succ n ih =>
    unfold loop at h
    split at h
    · cases h
    · rename_i d hd
      split at h
      · cases h
      · rename_i x hx
        split at h
        · cases h
        · rename_i xs hxs
          cases h
          obtain ⟨h1, h2⟩ := ih hxs
          refine ⟨by simp [h1], fun i a hi => ?_⟩
          cases i with
          | zero => cases hi; exact ⟨d, get_sound hd, hm _ _ hx⟩
          | succ i =>
            have := h2 i a (by simpa using hi)
            rwa [show p.add 4 + 4 * i = p + 4 * (i + 1) by show p + 4 + 4 * i = _; ring] at this

theorem array_sound {α : Type} {make : Nat → Option α} {T : Nat → α → Prop} (hm : ∀ q a, make q = some a → T q a)
    {pos vs vt k : Nat} {as : List α} (hv : VT (bytesOf len N) pos vs vt)
    (h : array make N len pos vs vt k = some as) : VectorField (bytesOf len N) pos k T as := by
  unfold array at h
  split at h
  · cases h
  · rename_i hr
    cases h
    obtain ⟨o, ho, ⟨h1, _⟩ | ⟨_, _, _, h⟩⟩ := ref_sound hv hr
    · exact ⟨none, ⟨o, ho, .inl ⟨h1, rfl⟩⟩, rfl⟩
    · cases h
  · rename_i a hr
    split at h
    · cases h
    · rename_i n hn
      obtain ⟨h1, h2⟩ := loop_sound hm h
      obtain ⟨o, ho, ⟨_, h⟩ | ⟨h3, x, ⟨d, hd, hx⟩, h⟩⟩ := ref_sound hv hr
      · cases h
      · cases h
        subst hx h1
        exact ⟨some as, ⟨o, ho, .inr ⟨h3, as, ⟨d, hd, get_sound hn, h2⟩, rfl⟩⟩, rfl⟩

theorem table_sound {pos : Nat} {t : EncounterTable8a} (h : table N len pos = some t) : TableAt (bytesOf len N) pos t := by
  unfold table at h
  split at h
  · cases h
  · rename_i vs vt hv
    have hv := vtable_sound hv
    split at h
    · rename_i a b c d h1 h2 h3 h4
      cases h
      exact ⟨opt_u64 hv h1, opt_i32 hv h2, opt_i32 hv h3, array_sound (make := slot N len) (T := SlotAt (bytesOf len N))
        (fun q a h => slot_sound h) hv h4⟩
    · cases h

theorem multiplier_sound {pos : Nat} {m : EncounterMultiplier8a} (h : multiplier N len pos = some m) :
    EncLoadLa.MultiplierAt (bytesOf len N) pos m := by
  unfold multiplier at h
  split at h
  · cases h
  · rename_i vs vt hv
    have hv := vtable_sound hv
    split at h
    · rename_i a b c d h1 h2 h3 h4
      cases h
      exact ⟨opt_i32 hv h1, or0_i32 hv h2, floats_sound hv h3, d, floats_sound hv h4, rfl⟩
    · cases h

theorem misc_sound {pos : Nat} {m : PokeMisc8a} (h : misc N len pos = some m) :
    EncLoadLa.MiscAt (bytesOf len N) pos m := by
  unfold misc at h
  split at h
  · cases h
  · rename_i vs vt hv
    have hv := vtable_sound hv
    split at h
    · rename_i a b c h1 h2 h3
      cases h
      exact ⟨opt_i32 hv h1, or0_i32 hv h2, or0_i32 hv h3⟩
    · cases h

theorem root_sound {α : Type} {make : Nat → Option α} {T : Nat → α → Prop} (hm : ∀ q a, make q = some a → T q a)
    {as : List α} (h : root make N len = some as) : EncLoadLa.RootVector (bytesOf len N) T as := by
  unfold root at h
  split at h
  · cases h
  · rename_i pos hp
    split at h
    · cases h
    · rename_i vs vt hv
      exact ⟨pos, get_sound hp, array_sound hm (vtable_sound hv) h⟩

theorem root_tables (hl : len ≤ 4294967296) {as : List EncounterTable8a} (h : root (table N len) N len = some as) :
    rootArray encounterTable8a (bytesOf len N) = .ok as :=
  have hl : (bytesOf len N).length ≤ 4294967296 := by rwa [bytesOf_length]
  (C68_root hl _ _ (C68_table hl) _).mpr (root_sound (make := table N len)
    (T := TableAt (bytesOf len N)) (fun _ _ h => table_sound h) h)

theorem root_multipliers (hl : len ≤ 4294967296) {as : List EncounterMultiplier8a}
    (h : root (multiplier N len) N len = some as) : rootArray encounterMultiplier8a (bytesOf len N) = .ok as :=
  have hl : (bytesOf len N).length ≤ 4294967296 := by rwa [bytesOf_length]
  (C68_root hl _ _ (C68_multiplier hl) _).mpr (root_sound (make := multiplier N len)
    (T := EncLoadLa.MultiplierAt (bytesOf len N)) (fun _ _ h => multiplier_sound h) h)

theorem root_misc (hl : len ≤ 4294967296) {as : List PokeMisc8a} (h : root (misc N len) N len = some as) :
    rootArray pokeMisc8a (bytesOf len N) = .ok as :=
  have hl : (bytesOf len N).length ≤ 4294967296 := by rwa [bytesOf_length]
  (C68_root hl _ _ (C68_misc hl) _).mpr (root_sound (make := misc N len)
    (T := EncLoadLa.MiscAt (bytesOf len N)) (fun _ _ h => misc_sound h) h)

end Verif.LaFast
