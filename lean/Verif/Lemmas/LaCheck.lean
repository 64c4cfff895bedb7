import Verif.Lemmas.LaLoad
import Verif.Lemmas.ChooseExact
import Verif.Spec.ShippedLa
import Verif.Data.LaKnown
import Mathlib.Data.Nat.Prime.Basic
/-
A check of the tables of an area, evaluated by the kernel, and what it implies.
-/
namespace Verif.LaFast
open FlatBuffer FlatBufferSpec ShippedLa EncLoadLa CalcSlotLa ShippedLaSpec Fp

/-! ### the check -/

def all {α : Type} (p : α → Bool) : List α → Bool
  | [] => true
  | x :: xs =>
    match p x with
    | true => all p xs
    | false => false

def any {α : Type} (p : α → Bool) : List α → Bool
  | [] => false
  | x :: xs =>
    match p x with
    | true => true
    | false => any p xs

def both : Bool → Bool → Bool
  | true, b => b
  | false, _ => false

def either : Bool → Bool → Bool
  | true, _ => true
  | false, b => b

def size {α : Type} : List α → Nat
  | [] => 0
  | _ :: xs => Nat.succ (size xs)

/-- the value of a float times 2^26, for 0 and the exponents -3 to 4 -/
def mant (x : Nat) : Option Nat :=
  match x with
  | 0 => some 0
  | n + 1 =>
    match Nat.ble 124 (Nat.shiftRight (Nat.succ n) 23), Nat.ble (Nat.shiftRight (Nat.succ n) 23) 131 with
    | true, true =>
      some (Nat.shiftLeft (Nat.add 8388608 (Nat.land (Nat.succ n) 8388607)) (Nat.sub (Nat.shiftRight (Nat.succ n) 23) 124))
    | _, _ => none

def mants : List (BitVec 32) → Option (List Nat)
  | [] => some []
  | x :: xs =>
    match mant x.toNat, mants xs with
    | some m, some ms => force m fun m => some (m :: ms)
    | _, _ => none

/-- base probability and multipliers of the slots -/
def rowsOf : List SlotLA → Option (List (Nat × List Nat × List Nat))
  | [] => some []
  | s :: ss =>
    match mants s.timeMultipliers, mants s.weatherMultipliers, rowsOf ss with
    | some t, some w, some rs => force s.baseProbability.toNat fun b => some ((b, t, w) :: rs)
    | _, _, _ => none

def nth : List Nat → Nat → Nat
  | [], _ => 0
  | x :: _, 0 => x
  | _ :: xs, n + 1 => nth xs n

/-- the weights times 2^52 -/
def weights (t w : Nat) : List (Nat × List Nat × List Nat) → List Nat
  | [] => []
  | (b, ts, ws) :: rs => Nat.mul (Nat.mul b (nth ts t)) (nth ws w) :: weights t w rs

/-- `k` of the list with all numbers evaluated -/
def forces {α : Type} : List Nat → (List Nat → α) → α
  | [], k => k []
  | x :: xs, k => force x fun x => forces xs fun xs => k (x :: xs)

def sum : List Nat → Nat
  | [] => 0
  | x :: xs => Nat.add x (sum xs)

def gcds : List Nat → Nat
  | [] => 1267650600228229401496703205376
  | x :: xs => Nat.gcd x (gcds xs)

def divs (g : Nat) : List Nat → List Nat
  | [] => []
  | x :: xs => Nat.div x g :: divs g xs

def sepAll (τ : Nat) : Nat → List Nat → Bool
  | _, [] => true
  | c, x :: xs => force (Nat.add c x) fun c => both (either (Nat.beq c 0) (sepOk τ c)) (sepAll τ c xs)

def exactOk (ms : List Nat) : Bool :=
  force (gcds ms) fun g => force (sum (divs g ms)) fun τ =>
    either (Nat.ble τ 536870912) (both (Nat.ble τ 9007199254740992) (sepAll τ 0 (divs g ms)))

/-- the times and weathers of the table in `deadRows` -/
def deadOf (area id : Nat) : List (Nat × Nat × List Nat × List Nat) → List (List Nat × List Nat)
  | [] => []
  | (a, i, ts, ws) :: rows =>
    match Nat.beq a area, Nat.beq i id with
    | true, true => (ts, ws) :: deadOf area id rows
    | _, _ => deadOf area id rows

def isDead (t w : Nat) (rows : List (List Nat × List Nat)) : Bool :=
  any (fun r => both (any (Nat.beq t) r.1) (any (Nat.beq w) r.2)) rows

def deadOk (ms : List Nat) : Bool := Nat.beq (sum ms) 0

def liveOk (ms : List Nat) : Bool :=
  match Nat.beq (sum ms) 0 with
  | true => false
  | false => exactOk ms

def comboOk (rows : List (Nat × List Nat × List Nat)) (dead : List (List Nat × List Nat)) (t w : Nat) : Bool :=
  match isDead t w dead with
  | true => deadOk (weights t w rows)
  | false => forces (weights t w rows) liveOk

def combosOk (rows : List (Nat × List Nat × List Nat)) (dead : List (List Nat × List Nat)) : Bool :=
  all (fun t => all (fun w => comboOk rows dead t w) anyWeather) anyTime

def choiceOk (area id : Nat) (slots : List SlotLA) : Bool :=
  match rowsOf slots with
  | none => false
  | some rows => combosOk rows (deadOf area id deadRows)

def between (a x b : Nat) : Bool := both (Nat.ble a x) (Nat.ble x b)

/-- species and form are among those of Data/LaKnown -/
def knownOk (s : SlotLA) : Bool :=
  Nat.beq (Nat.mod (Nat.shiftRight Data.knownMask (Nat.add (Nat.mul s.species.toNat 32) s.form.toNat)) 2) 1

/-- only form 2 of species 550 has a fixed gender -/
def genderOk (s : SlotLA) : Bool :=
  either (Nat.beq s.gender.toNat 255) (both (Nat.beq s.species.toNat 550) (Nat.beq s.form.toNat 2))

def slotOk (s : SlotLA) : Bool :=
  both (knownOk s) <| both (genderOk s) <|
  both (between 25 s.species.toNat 905) <|
  both (either (Nat.ble s.gender.toNat 1) (Nat.beq s.gender.toNat 255)) <|
  both (Nat.ble s.form.toNat 27) <|
  both (between 2 s.minLevel.toNat 85) <|
  both (between 2 s.maxLevel.toNat 85) <|
  both (match s.isAlpha.toNat, s.guaranteedIvs.toNat with
    | 0, 0 => true
    | 0, 3 => true
    | 1, 3 => true
    | 1, 4 => true
    | _, _ => false) <|
  both (between 1 s.baseProbability.toNat 120) <|
  both (Nat.beq (size s.timeMultipliers) 4) (Nat.beq (size s.weatherMultipliers) 9)

def levelsOk (area id : Nat) (s : SlotLA) : Bool :=
  match both (Nat.beq area 2) (Nat.beq id 0x5f6331859736d8dd) with
  | true => Nat.beq s.minLevel.toNat (Nat.add s.maxLevel.toNat 2)
  | false => Nat.ble s.minLevel.toNat s.maxLevel.toNat

def tableOk (area : Nat) (t : BitVec 64 × List SlotLA) : Bool :=
  both (between 1 (size t.2) 56) <| both (all slotOk t.2) <|
    both (all (levelsOk area t.1.toNat) t.2) (choiceOk area t.1.toNat t.2)

def ids : List (BitVec 64 × List SlotLA) → List Nat
  | [] => []
  | t :: ts => force t.1.toNat fun x => x :: ids ts

def distinct : List Nat → Bool
  | [] => true
  | x :: xs =>
    match any (Nat.beq x) xs with
    | true => false
    | false => distinct xs

def rowsPresent (area : Nat) (is : List Nat) : List (Nat × Nat × List Nat × List Nat) → Bool
  | [] => true
  | (a, i, _, _) :: rows =>
    match Nat.beq a area with
    | true => both (any (Nat.beq i) is) (rowsPresent area is rows)
    | false => rowsPresent area is rows

def idsOk (area : Nat) (is : List Nat) : Bool :=
  both (distinct is) <| both (rowsPresent area is deadRows) <|
    either (Bool.not (Nat.beq area 2)) (any (Nat.beq 0x5f6331859736d8dd) is)

def eqNats : List Nat → List Nat → Bool
  | [], [] => true
  | x :: xs, y :: ys => both (Nat.beq x y) (eqNats xs ys)
  | _, _ => false

def areaOk (area count : Nat) (is : List Nat) (N len : Nat) : Bool :=
  match load N len with
  | none => false
  | some L => both (Nat.beq (size L) count) <| both (eqNats (ids L) is) <| both (idsOk area (ids L)) (all (tableOk area) L)

/-! ### what it implies -/

theorem both_eq (a b : Bool) : both a b = true ↔ a = true ∧ b = true := by cases a <;> cases b <;> simp [both]
theorem either_eq (a b : Bool) : either a b = true ↔ a = true ∨ b = true := by cases a <;> cases b <;> simp [either]

theorem all_eq {α : Type} (p : α → Bool) (l : List α) : all p l = true ↔ ∀ x ∈ l, p x = true := by
  induction l with
  | nil => simp [all]
  | cons x l ih =>
    unfold all
    split
    · rename_i h; simp [ih, h]
    · rename_i h; simp [h]

theorem any_eq {α : Type} (p : α → Bool) (l : List α) : any p l = true ↔ ∃ x ∈ l, p x = true := by
  induction l with
  | nil => simp [any]
  | cons x l ih =>
    unfold any
    split
    · rename_i h; simp [h]
    · rename_i h; simp [ih, h]

theorem size_eq {α : Type} (l : List α) : size l = l.length := by
  induction l with
  | nil => rfl
  | cons x l ih => simp [size, ih]

theorem beq_iff (a b : Nat) : Nat.beq a b = true ↔ a = b := ⟨Nat.eq_of_beq_eq_true, fun h => by rw [h]; exact Nat.beq_refl b⟩

theorem ble_iff (a b : Nat) : Nat.ble a b = true ↔ a ≤ b := ⟨Nat.le_of_ble_eq_true, Nat.ble_eq_true_of_le⟩

theorem any_beq (x : Nat) (l : List Nat) : any (Nat.beq x) l = true ↔ x ∈ l := by
  rw [any_eq]
  constructor
  · rintro ⟨y, hy, h⟩
    rwa [(beq_iff _ _).mp h]
  · exact fun h => ⟨x, h, Nat.beq_refl x⟩

theorem sum_eq (l : List Nat) : sum l = l.sum := by
  induction l with
  | nil => rfl
  | cons x l ih => rw [sum, ih, List.sum_cons]; rfl

/-! #### floats -/

theorem mant_sound {x : BitVec 32} {m : Nat} (h : mant x.toNat = some m) : f32Value x = some ((m : ℚ) / 2 ^ 26) := by
  have hx := x.isLt
  unfold f32Value
  generalize x.toNat = n at *
  unfold mant at h
  split at h
  · cases h
    norm_num
  · rename_i n
    set y := Nat.succ n with hy
    split at h
    · rename_i h1 h2
      have h1 : 124 ≤ y >>> 23 := Nat.le_of_ble_eq_true h1
      have h2 : y >>> 23 ≤ 131 := Nat.le_of_ble_eq_true h2
      obtain rfl : (8388608 + (y &&& (2 ^ 23 - 1))) <<< (y >>> 23 - 124) = m := Option.some.inj h
      rw [Nat.and_two_pow_sub_one_eq_mod, Nat.shiftLeft_eq]
      rw [Nat.shiftRight_eq_div_pow] at h1 h2 ⊢
      have hy31 : y < 2 ^ 31 := by
        have := Nat.div_add_mod y (2 ^ 23)
        have := Nat.mod_lt y (show 0 < 2 ^ 23 by norm_num)
        omega
      have he : y / 2 ^ 23 % 2 ^ 8 = y / 2 ^ 23 := by omega
      simp only [he, if_pos hy31]
      rw [if_neg (by omega), if_neg (by omega)]
      obtain ⟨d, hd⟩ := Nat.exists_eq_add_of_le h1
      rw [hd, Nat.add_sub_cancel_left]
      congr 1
      show (1 : ℚ) * ((2 ^ 23 + y % 2 ^ 23 : ℕ) : ℚ) * 2 ^ (124 + d) / 2 ^ 150 = _
      push_cast
      rw [pow_add]
      norm_num
      ring
    · cases h

theorem mants_sound {xs : List (BitVec 32)} {ms : List Nat} (h : mants xs = some ms) :
    List.Forall₂ (fun x (m : Nat) => f32Value x = some ((m : ℚ) / 2 ^ 26)) xs ms := by
  induction xs generalizing ms with
  | nil => cases h; exact .nil
  | cons x xs ih =>
    unfold mants at h
    split at h
    · rename_i m ms' h1 h2
      rw [force_eq] at h
      cases h
      exact .cons (mant_sound h1) (ih h2)
    · cases h

/-- a row holds the values of a slot -/
def RowFor (s : SlotLA) (r : Nat × List Nat × List Nat) : Prop :=
  r.1 = s.baseProbability.toNat ∧
    List.Forall₂ (fun x (m : Nat) => f32Value x = some ((m : ℚ) / 2 ^ 26)) s.timeMultipliers r.2.1 ∧
    List.Forall₂ (fun x (m : Nat) => f32Value x = some ((m : ℚ) / 2 ^ 26)) s.weatherMultipliers r.2.2

theorem rowsOf_sound {ss : List SlotLA} {rs : List (Nat × List Nat × List Nat)} (h : rowsOf ss = some rs) :
    List.Forall₂ RowFor ss rs := by
  induction ss generalizing rs with
  | nil => cases h; exact .nil
  | cons s ss ih =>
    unfold rowsOf at h
    split at h
    · rename_i t w rs' h1 h2 h3
      rw [force_eq] at h
      cases h
      exact .cons ⟨rfl, mants_sound h1, mants_sound h2⟩ (ih h3)
    · cases h

theorem nth_get {xs : List (BitVec 32)} {ms : List Nat}
    (h : List.Forall₂ (fun x (m : Nat) => f32Value x = some ((m : ℚ) / 2 ^ 26)) xs ms) {i : Nat} (hi : i < xs.length) :
    ∃ x, xs[i]? = some x ∧ f32Value x = some ((nth ms i : ℚ) / 2 ^ 26) := by
  induction h generalizing i with
  | nil => simp at hi
  | cons h _ ih =>
    rename_i x m xs ms _
    cases i with
    | zero => exact ⟨x, rfl, h⟩
    | succ i => exact ih (by simpa using hi)

theorem weights_sound {ss : List SlotLA} {rs : List (Nat × List Nat × List Nat)} (h : List.Forall₂ RowFor ss rs) {t w : Nat}
    (ht : ∀ s ∈ ss, t < s.timeMultipliers.length) (hw : ∀ s ∈ ss, w < s.weatherMultipliers.length) :
    List.Forall₂ (Weight t w) ss ((weights t w rs).map fun m : Nat => (m : ℚ) * 2 ^ (-52 : ℤ)) := by
  induction h with
  | nil => exact .nil
  | cons h _ ih =>
    rename_i s r ss rs _
    obtain ⟨b, ts, ws⟩ := r
    obtain ⟨h1, h2, h3⟩ := h
    rw [weights, List.map_cons]
    refine .cons ?_ (ih (fun s hs => ht s (by simp [hs])) (fun s hs => hw s (by simp [hs])))
    obtain ⟨tb, a1, a2⟩ := nth_get h2 (ht s (by simp))
    obtain ⟨wb, b1, b2⟩ := nth_get h3 (hw s (by simp))
    refine ⟨tb, wb, _, _, a1, b1, a2, b2, by positivity, by positivity, ?_⟩
    rw [← h1]
    simp only [Nat.mul_eq]
    push_cast
    norm_num
    ring

theorem forces_eq {α : Type} (l : List Nat) (k : List Nat → α) : forces l k = k l := by
  induction l generalizing k with
  | nil => rfl
  | cons x l ih => rw [forces, force_eq, ih]

/-! #### the choice -/

theorem gcds_sound (ms : List Nat) : gcds ms ∣ 2 ^ 100 ∧ ∀ m ∈ ms, gcds ms ∣ m := by
  induction ms with
  | nil => exact ⟨by show 1267650600228229401496703205376 ∣ 2 ^ 100; norm_num, by simp⟩
  | cons m ms ih =>
    rw [gcds]
    refine ⟨(Nat.gcd_dvd_right _ _).trans ih.1, fun x hx => ?_⟩
    rcases List.mem_cons.mp hx with rfl | hx
    · exact Nat.gcd_dvd_left _ _
    · exact (Nat.gcd_dvd_right _ _).trans (ih.2 x hx)

theorem divs_eq (g : Nat) (ms : List Nat) : divs g ms = ms.map (· / g) := by
  induction ms with
  | nil => rfl
  | cons m ms ih => rw [divs, ih]; rfl

theorem sepAll_sound {τ : Nat} (ms : List Nat) (c : Nat) (h : sepAll τ c ms = true) (i : Nat) (hi : i < ms.length) :
    c + (ms.take (i + 1)).sum = 0 ∨ sepOk τ (c + (ms.take (i + 1)).sum) = true := by
  induction ms generalizing c i with
  | nil => simp at hi
  | cons m ms ih =>
    rw [sepAll, force_eq, both_eq, either_eq, beq_iff] at h
    obtain ⟨h1, h2⟩ := h
    cases i with
    | zero => simpa using h1
    | succ i =>
      have := ih _ h2 i (by simpa using hi)
      rw [List.take_succ_cons, List.sum_cons, ← Nat.add_assoc]
      exact this

theorem take_sum_le (ms : List Nat) (i : Nat) : (ms.take i).sum ≤ ms.sum := by
  conv_rhs => rw [← List.take_append_drop i ms]
  rw [List.sum_append]; omega

/-- What an exact choice means: the interval of the chosen slot contains `r` times the total weight. -/
def ExactAt (slots : List SlotLA) (time weather : Nat) (ws : List ℚ) (r : ℚ) : Prop :=
  ∃ i, ∃ h : i < slots.length, calcSlot .numba slots r time weather = .ok slots[i] ∧
    (ws.take i).sum ≤ r * ws.sum ∧ r * ws.sum < (ws.take (i + 1)).sum

theorem exactOk_sound {slots : List SlotLA} {t w : Nat} {ms : List Nat}
    (hw : List.Forall₂ (Weight t w) slots (ms.map fun m : Nat => (m : ℚ) * 2 ^ (-52 : ℤ)))
    (hb : ∀ s ∈ slots, s.baseProbability.toNat < 2 ^ 29) (hpos : 0 < ms.sum) (h : exactOk ms = true)
    {r : ℚ} (hr : IsFp 24 r) (h0 : 0 ≤ r) (h1 : r < 1) :
    ExactAt slots t w (ms.map fun m : Nat => (m : ℚ) * 2 ^ (-52 : ℤ)) r := by
  rw [exactOk, force_eq, force_eq, sum_eq, divs_eq, either_eq, both_eq, ble_iff, ble_iff] at h
  obtain ⟨hg1, hg2⟩ := gcds_sound ms
  generalize gcds ms = g at *
  obtain ⟨a, _, rfl⟩ := (Nat.dvd_prime_pow Nat.prime_two).mp hg1
  set ns := ms.map (· / 2 ^ a) with hns
  have hms : ms = ns.map (· * 2 ^ a) := by
    rw [hns, List.map_map]
    conv_lhs => rw [← List.map_id ms]
    apply List.map_congr_left
    intro m hm
    simp only [id, Function.comp]
    exact (Nat.div_mul_cancel (hg2 m hm)).symm
  have hws : (ms.map fun m : Nat => (m : ℚ) * 2 ^ (-52 : ℤ)) = ns.map fun n : Nat => (n : ℚ) * 2 ^ ((a : ℤ) - 52) := by
    rw [hms, List.map_map]
    apply List.map_congr_left
    intro n _
    simp only [Function.comp]
    rw [sub_eq_add_neg, zpow_add₀ (by norm_num), zpow_natCast]
    push_cast
    ring
  have hsum : ms.sum = ns.sum * 2 ^ a := by
    rw [hms]
    clear * -
    induction ns with
    | nil => simp
    | cons n ns ih => rw [List.map_cons, List.sum_cons, ih, List.sum_cons]; ring
  have hnpos : 0 < ns.sum := by
    rcases Nat.eq_zero_or_pos ns.sum with hz | hp
    · rw [hz] at hsum; omega
    · exact hp
  rw [hws] at hw ⊢
  refine calcSlot_sep slots t w _ ns hw hb ?_ hnpos r h0 h1 ?_
  · rcases h with h | h
    · omega
    · exact h.1
  · intro i hi hc
    rcases h with h | ⟨_, h⟩
    · exact sep_small hr h _
    · cases i with
      | zero => simp at hc
      | succ i =>
        have := sepAll_sound ns 0 h i (by omega)
        rw [Nat.zero_add] at this
        rcases this with h' | h'
        · omega
        · exact sep_gap hr h0 hc (take_sum_le _ _) h'

theorem mem_deadOf (area id : Nat) (rows : List (Nat × Nat × List Nat × List Nat)) (ts ws : List Nat) :
    (ts, ws) ∈ deadOf area id rows ↔ (area, id, ts, ws) ∈ rows := by
  induction rows with
  | nil => simp [deadOf]
  | cons r rows ih =>
    obtain ⟨a, i, ts', ws'⟩ := r
    unfold deadOf
    split
    · rename_i h1 h2
      obtain rfl := (beq_iff _ _).mp h1
      obtain rfl := (beq_iff _ _).mp h2
      simp [ih]
    · rename_i h
      rw [ih, List.mem_cons]
      constructor
      · exact .inr
      · rintro (heq | h')
        · cases heq
          exact (h (Nat.beq_refl _) (Nat.beq_refl _)).elim
        · exact h'

theorem isDead_iff (area id t w : Nat) : isDead t w (deadOf area id deadRows) = true ↔ Dead area id t w := by
  unfold isDead Dead
  rw [any_eq]
  constructor
  · rintro ⟨⟨ts, ws⟩, hm, h⟩
    rw [both_eq, any_beq, any_beq] at h
    exact ⟨ts, ws, (mem_deadOf _ _ _ _ _).mp hm, h.1, h.2⟩
  · rintro ⟨ts, ws, hm, h1, h2⟩
    exact ⟨(ts, ws), (mem_deadOf _ _ _ _ _).mpr hm, by rw [both_eq, any_beq, any_beq]; exact ⟨h1, h2⟩⟩

/-- the choice from a table at one time and weather -/
def ChoiceFacts (area id : Nat) (slots : List SlotLA) (t w : Nat) : Prop :=
  ∃ ws, List.Forall₂ (Weight t w) slots ws ∧ ((∀ x ∈ ws, x = 0) ↔ Dead area id t w) ∧
    (¬ Dead area id t w → 0 < ws.sum ∧ ∀ r, IsFp 24 r → 0 ≤ r → r < 1 → ExactAt slots t w ws r)

theorem zero_map (ms : List Nat) : (∀ x ∈ ms.map (fun m : Nat => (m : ℚ) * 2 ^ (-52 : ℤ)), x = 0) ↔ ms.sum = 0 := by
  have h2 := two_zpow_pos (-52)
  constructor
  · intro h
    rw [List.sum_eq_zero_iff]
    intro m hm
    have := h _ (List.mem_map.mpr ⟨m, hm, rfl⟩)
    rcases mul_eq_zero.mp this with h | h
    · exact_mod_cast h
    · exact absurd h h2.ne'
  · intro h x hx
    obtain ⟨m, hm, rfl⟩ := List.mem_map.mp hx
    rw [(List.sum_eq_zero_iff).mp h m hm]
    simp

theorem choiceOk_sound {area id : Nat} {slots : List SlotLA} (hs : ∀ s ∈ slots, SlotFacts s)
    (h : choiceOk area id slots = true) (t w : Nat) (ht : t < 4) (hw : w < 9) : ChoiceFacts area id slots t w := by
  unfold choiceOk at h
  split at h
  · cases h
  · rename_i rows hrows
    have hc : comboOk rows (deadOf area id deadRows) t w = true := by
      rw [combosOk, all_eq] at h
      have h1 := h t (by simp only [anyTime, List.mem_cons, List.not_mem_nil, or_false]; omega)
      rw [all_eq] at h1
      exact h1 w (by simp only [anyWeather, List.mem_cons, List.not_mem_nil, or_false]; omega)
    have hW := weights_sound (rowsOf_sound hrows) (t := t) (w := w) (fun s h => by rw [(hs s h).times]; exact ht)
      (fun s h => by rw [(hs s h).weathers]; exact hw)
    refine ⟨_, hW, ?_⟩
    rw [zero_map]
    unfold comboOk at hc
    split at hc
    · rename_i h2
      have h1 := hc
      rw [deadOk, beq_iff, sum_eq] at h1
      rw [isDead_iff] at h2
      exact ⟨⟨fun _ => h2, fun _ => h1⟩, fun hd => absurd h2 hd⟩
    · rename_i h2
      rw [forces_eq, liveOk] at hc
      split at hc
      · cases hc
      rename_i h1
      have h1 : ¬ (weights t w rows).sum = 0 := by
        intro h
        rw [← sum_eq, ← beq_iff, h1] at h
        cases h
      have h2 : ¬ Dead area id t w := by
        intro h
        rw [← isDead_iff, h2] at h
        cases h
      refine ⟨⟨fun h => absurd h h1, fun h => absurd h h2⟩, fun _ => ⟨?_, fun r hr h0 h1' => ?_⟩⟩
      · have : ∀ l : List Nat, (l.map fun m : Nat => (m : ℚ) * 2 ^ (-52 : ℤ)).sum = (l.sum : ℚ) * 2 ^ (-52 : ℤ) := by
          intro l
          induction l with
          | nil => simp
          | cons x l ih => rw [List.map_cons, List.sum_cons, ih, List.sum_cons]; push_cast; ring
        rw [this]
        have h2 := two_zpow_pos (-52)
        have : (0 : ℚ) < (weights t w rows).sum := by exact_mod_cast Nat.pos_of_ne_zero h1
        exact mul_pos this h2
      · refine exactOk_sound hW (fun s h => ?_) (Nat.pos_of_ne_zero h1) hc hr h0 h1'
        have := (hs s h).base.2
        omega

theorem between_iff (a x b : Nat) : between a x b = true ↔ a ≤ x ∧ x ≤ b := by
  rw [between, both_eq, ble_iff, ble_iff]

theorem slotOk_sound {s : SlotLA} (h : slotOk s = true) : SlotFacts s := by
  simp only [slotOk, both_eq, either_eq, between_iff, ble_iff, beq_iff, size_eq] at h
  obtain ⟨_, _, h1, h2, h3, h4, h5, h6, h7, h8, h9⟩ := h
  have eq8 : ∀ (x : BitVec 8) (n : Nat), x.toNat = n → x = BitVec.ofNat 8 n := by
    intro x n hx
    apply BitVec.eq_of_toNat_eq
    rw [BitVec.toNat_ofNat, ← hx, Nat.mod_eq_of_lt x.isLt]
  have ne8 : s.isAlpha.toNat = 1 → s.isAlpha ≠ 0#8 := by
    intro h h'
    rw [h'] at h
    simp at h
  refine ⟨h1, ?_, h3, ⟨h4.1, h4.2, h5.1, h5.2⟩, ?_, ?_, h7, h8, h9⟩
  · rcases h2 with h2 | h2
    · have : s.gender.toNat = 0 ∨ s.gender.toNat = 1 := by omega
      rcases this with h | h
      · exact .inl (eq8 _ _ h)
      · exact .inr (.inl (eq8 _ _ h))
    · exact .inr (.inr (eq8 _ _ h2))
  · intro ha
    split at h6
    · rename_i h10; exact .inl (eq8 _ _ h10)
    · rename_i h10; exact .inr (eq8 _ _ h10)
    · rename_i h10 _; exact absurd ha (ne8 h10)
    · rename_i h10 _; exact absurd ha (ne8 h10)
    · cases h6
  · intro ha
    split at h6
    · rename_i h10 _; exact absurd (eq8 _ _ h10) ha
    · rename_i h10 _; exact absurd (eq8 _ _ h10) ha
    · rename_i h10 h11; exact ⟨eq8 _ _ h10, .inl (eq8 _ _ h11)⟩
    · rename_i h10 h11; exact ⟨eq8 _ _ h10, .inr (eq8 _ _ h11)⟩
    · cases h6

/-- the bits of a number made of powers of two -/
theorem testBit_codes (l : List Nat) (n : Nat) : (l.foldr (fun c m => 2 ^ c ||| m) 0).testBit n = true ↔ n ∈ l := by
  induction l with
  | nil => simp
  | cons c l ih =>
    rw [List.foldr_cons, Nat.testBit_or, Bool.or_eq_true, ih, Nat.testBit_two_pow, decide_eq_true_iff, List.mem_cons, eq_comm]

theorem knownMask_eq : Data.knownMask = Data.knownCodes.foldr (fun c m => 2 ^ c ||| m) 0 := by decide +kernel

/-- species and form are among those of Data/LaKnown, and only form 2 of species 550 has a fixed gender -/
structure Known (s : SlotLA) : Prop where
  code : s.species.toNat * 32 + s.form.toNat ∈ Data.knownCodes
  gender : s.gender.toNat = 255 ∨ (s.species.toNat = 550 ∧ s.form.toNat = 2)

theorem slotOk_known {s : SlotLA} (h : slotOk s = true) : Known s := by
  rw [slotOk, both_eq, both_eq] at h
  obtain ⟨h1, h2, _⟩ := h
  refine ⟨?_, ?_⟩
  · rw [← testBit_codes, ← knownMask_eq, Nat.testBit_eq_decide_div_mod_eq, decide_eq_true_iff, ← Nat.shiftRight_eq_div_pow]
    exact (beq_iff _ _).mp h1
  · rw [genderOk, either_eq, both_eq, beq_iff, beq_iff, beq_iff] at h2
    exact h2

/-- what is checked of a table -/
structure TableFacts (area id : Nat) (slots : List SlotLA) : Prop where
  nonempty : slots ≠ []
  length : slots.length ≤ 56
  slot : ∀ s ∈ slots, SlotFacts s
  known : ∀ s ∈ slots, Known s
  levels : (area, id) ≠ oddLevels → ∀ s ∈ slots, s.minLevel.toNat ≤ s.maxLevel.toNat
  odd : (area, id) = oddLevels → ∀ s ∈ slots, s.minLevel.toNat = s.maxLevel.toNat + 2
  choice : ∀ t < 4, ∀ w < 9, ChoiceFacts area id slots t w

theorem tableOk_sound {area : Nat} {t : BitVec 64 × List SlotLA} (h : tableOk area t = true) :
    TableFacts area t.1.toNat t.2 := by
  simp only [tableOk, both_eq, between_iff, all_eq, size_eq] at h
  obtain ⟨⟨h1, h2⟩, h3, h4, h5⟩ := h
  have hs := fun s hs => slotOk_sound (h3 s hs)
  have hodd : both (Nat.beq area 2) (Nat.beq t.1.toNat 0x5f6331859736d8dd) = true ↔ (area, t.1.toNat) = oddLevels := by
    rw [both_eq, beq_iff, beq_iff, oddLevels, Prod.mk.injEq]
  refine ⟨fun h => by rw [h] at h1; simp at h1, h2, hs, fun s hsm => slotOk_known (h3 s hsm), fun hne s hsm => ?_, fun he s hsm => ?_, fun a ha b hb =>
    choiceOk_sound hs h5 a b ha hb⟩
  · have := h4 s hsm
    unfold levelsOk at this
    split at this
    · rename_i hh; exact absurd (hodd.mp hh) hne
    · exact (ble_iff _ _).mp this
  · have := h4 s hsm
    unfold levelsOk at this
    split at this
    · exact (beq_iff _ _).mp this
    · rename_i hh; rw [hodd.mpr he] at hh; cases hh

theorem ids_eq (L : List (BitVec 64 × List SlotLA)) : ids L = L.map fun t => t.1.toNat := by
  induction L with
  | nil => rfl
  | cons t L ih => rw [ids, force_eq, ih]; rfl

theorem distinct_sound {l : List Nat} (h : distinct l = true) : l.Nodup := by
  induction l with
  | nil => exact List.nodup_nil
  | cons x l ih =>
    unfold distinct at h
    split at h
    · cases h
    · rename_i hx
      rw [List.nodup_cons]
      refine ⟨fun hm => ?_, ih h⟩
      rw [(any_beq x l).mpr hm] at hx
      cases hx

theorem rowsPresent_sound {area : Nat} {is : List Nat} {rows : List (Nat × Nat × List Nat × List Nat)}
    (h : rowsPresent area is rows = true) {i : Nat} {ts ws : List Nat} (hm : (area, i, ts, ws) ∈ rows) : i ∈ is := by
  induction rows with
  | nil => simp at hm
  | cons r rows ih =>
    obtain ⟨a, j, ts', ws'⟩ := r
    unfold rowsPresent at h
    split at h
    · rw [both_eq, any_beq] at h
      rcases List.mem_cons.mp hm with heq | hm
      · cases heq; exact h.1
      · exact ih h.2 hm
    · rename_i hb
      rcases List.mem_cons.mp hm with heq | hm
      · cases heq; rw [Nat.beq_refl] at hb; cases hb
      · exact ih h hm

/-- what is checked of an area -/
structure AreaFacts (area count : Nat) (is : List Nat) (L : List (BitVec 64 × List SlotLA)) : Prop where
  count : L.length = count
  ids : L.map (fun t => t.1.toNat) = is
  distinct : (L.map (·.1)).Nodup
  table : ∀ t ∈ L, TableFacts area t.1.toNat t.2
  deadPresent : ∀ id ts ws, (area, id, ts, ws) ∈ deadRows → ∃ t ∈ L, t.1.toNat = id
  oddPresent : area = oddLevels.1 → ∃ t ∈ L, t.1.toNat = oddLevels.2

theorem eqNats_sound {a b : List Nat} (h : eqNats a b = true) : a = b := by
  induction a generalizing b with
  | nil =>
    cases b with
    | nil => rfl
    | cons y b => cases h
  | cons x a ih =>
    cases b with
    | nil => cases h
    | cons y b =>
      rw [eqNats, both_eq, beq_iff] at h
      rw [h.1, ih h.2]

theorem areaOk_sound {area count N len : Nat} {is : List Nat} (hl : len ≤ 4294967296)
    (h : areaOk area count is N len = true) :
    ∃ L, loadEncounterTablesLa pokeEncountFile pokeMiscFile (bytesOf len N) = .ok L ∧ AreaFacts area count is L := by
  unfold areaOk at h
  split at h
  · cases h
  · rename_i L hL
    refine ⟨L, load_sound hl hL, ?_⟩
    rw [both_eq, both_eq, both_eq, beq_iff, size_eq, all_eq, idsOk, both_eq, both_eq, either_eq, ids_eq] at h
    obtain ⟨h1, h0, ⟨h2, h3, h4⟩, h5⟩ := h
    refine ⟨h1, eqNats_sound h0, ?_, fun t ht => tableOk_sound (h5 t ht), fun id ts ws hm => ?_, fun ha => ?_⟩
    · have := distinct_sound h2
      rw [show (fun t : BitVec 64 × List SlotLA => t.1.toNat) = BitVec.toNat ∘ (·.1) from rfl, ← List.map_map] at this
      exact this.of_map
    · obtain ⟨t, ht, e⟩ := List.mem_map.mp (rowsPresent_sound h3 hm)
      exact ⟨t, ht, e⟩
    · have ha : area = 2 := ha
      subst ha
      rcases h4 with h4 | h4
      · cases h4
      · rw [any_beq] at h4
        obtain ⟨t, ht, e⟩ := List.mem_map.mp h4
        exact ⟨t, ht, e⟩

end Verif.LaFast
