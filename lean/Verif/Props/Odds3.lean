import Verif.Lemmas.Count
import Verif.Props.Gen3Util
import Verif.Props.Gen3Area
import Verif.Props.State3
import Mathlib.Data.Int.CardIntervalMod
/-
C98: how often shiny PIDs, Unown letters, natures, draws and encounter slots occur, over all PIDs or all seeds.
-/
namespace Verif.Gen3
open Spec.Gen3 Verif.Count
open Finset (range)

/-! ### PIDs -/

theorem sum_xor (f : Nat → Nat) (c : Nat) (hc : c < 2 ^ 16) : ∑ j ∈ range (2 ^ 16), f (c ^^^ j) = ∑ j ∈ range (2 ^ 16), f j := by
  have hm : ∀ j ∈ range (2 ^ 16), c ^^^ j ∈ range (2 ^ 16) := fun j hj =>
    Finset.mem_range.mpr (Nat.xor_lt_two_pow hc (Finset.mem_range.mp hj))
  have hi : ∀ j ∈ range (2 ^ 16), c ^^^ (c ^^^ j) = j := fun j _ => by
    rw [← Nat.xor_assoc, Nat.xor_self, Nat.zero_xor]
  exact Finset.sum_nbij' (fun j => c ^^^ j) (fun j => c ^^^ j) hm hm hi hi (fun j hj => by rfl)

theorem howMany_psv (p : Nat → Prop) [DecidablePred p] (tsv : BitVec 16) :
    howMany (fun pid => p ((pid.toNat / 2 ^ 16) ^^^ (pid.toNat % 2 ^ 16) ^^^ tsv.toNat)) = 2 ^ 16 * Nat.count p (2 ^ 16) := by
  unfold howMany
  rw [count_eq_sum, count_eq_sum, show (2 : Nat) ^ 32 = 2 ^ 16 * 2 ^ 16 by norm_num, sum_split]
  have : ∀ i ∈ range (2 ^ 16), ∑ j ∈ range (2 ^ 16), (if p (((BitVec.ofNat 32 (i * 2 ^ 16 + j)).toNat / 2 ^ 16) ^^^
      ((BitVec.ofNat 32 (i * 2 ^ 16 + j)).toNat % 2 ^ 16) ^^^ tsv.toNat) then 1 else 0)
      = ∑ j ∈ range (2 ^ 16), if p j then 1 else 0 := by
    intro i hi
    have hi := Finset.mem_range.mp hi
    rw [← sum_xor (fun j => if p j then 1 else 0) (i ^^^ tsv.toNat) (Nat.xor_lt_two_pow hi tsv.isLt)]
    apply Finset.sum_congr rfl
    intro j hj
    have hj := Finset.mem_range.mp hj
    rw [BitVec.toNat_ofNat, Nat.mod_eq_of_lt (by omega), show (i * 2 ^ 16 + j) / 2 ^ 16 = i by omega,
      show (i * 2 ^ 16 + j) % 2 ^ 16 = j by omega, Nat.xor_assoc, Nat.xor_comm j, ← Nat.xor_assoc]
  rw [Finset.sum_congr rfl this, Finset.sum_const, Finset.card_range, Nat.nsmul_eq_mul]

theorem howMany_congr {p q : BitVec 32 → Prop} [DecidablePred p] [DecidablePred q] (h : ∀ x, p x ↔ q x) :
    howMany p = howMany q := by
  unfold howMany
  congr 1
  funext n
  exact propext (h _)

theorem count_below (p : Nat → Prop) [DecidablePred p] (a b : Nat) (h : ∀ x, p x ↔ a ≤ x ∧ x < b) (n : Nat) (hn : b ≤ n) :
    Nat.count p n = b - a := by
  rw [Nat.count_eq_card_filter_range, ← Nat.card_Ico]
  congr 1
  ext x
  simp only [Finset.mem_filter, Finset.mem_range, Finset.mem_Ico, h]
  omega

/-- **C98**: for every trainer, of the `2^32` PIDs exactly 65536 are square shiny and 7 * 65536 star shiny, so 1 in 8192 is
shiny. -/
theorem C98_shiny (tsv : BitVec 16) : howMany (fun pid => getShiny pid tsv = 2) = 65536 ∧
    howMany (fun pid => getShiny pid tsv = 1) = 7 * 65536 ∧
    8192 * (howMany (fun pid => getShiny pid tsv = 2) + howMany (fun pid => getShiny pid tsv = 1)) = 2 ^ 32 := by
  have h0 : howMany (fun pid => getShiny pid tsv = 2) = 65536 := by
    rw [howMany_congr (q := fun pid => (pid.toNat / 2 ^ 16) ^^^ (pid.toNat % 2 ^ 16) ^^^ tsv.toNat = 0)]
    · rw [howMany_psv (fun x => x = 0), count_below _ 0 1 (fun x => by omega) _ (by norm_num)]; norm_num
    · intro pid
      rw [C49_shiny pid tsv]
      split_ifs <;> simp_all
  have h1 : howMany (fun pid => getShiny pid tsv = 1) = 7 * 65536 := by
    rw [howMany_congr (q := fun pid => (pid.toNat / 2 ^ 16) ^^^ (pid.toNat % 2 ^ 16) ^^^ tsv.toNat ≠ 0 ∧
      (pid.toNat / 2 ^ 16) ^^^ (pid.toNat % 2 ^ 16) ^^^ tsv.toNat < 8)]
    · rw [howMany_psv (fun x => x ≠ 0 ∧ x < 8), count_below _ 1 8 (fun x => by omega) _ (by norm_num)]; norm_num
    · intro pid
      rw [C49_shiny pid tsv]
      split_ifs <;> simp_all
  rw [h0, h1]
  exact ⟨rfl, rfl, by norm_num⟩

/-- one PID of each kind -/
example : getShiny 0x12345678 0x444C = 2 ∧ getShiny 0x12345679 0x444C = 1 ∧ getShiny 0x12345670 0x444C = 0 := by decide

/-- is the state created, and with this nature? -/
def hasNature (n : Nat) (r : Except PyErr State) : Bool :=
  match r with
  | .ok st => st.nature.toNat = n
  | .error _ => false

/-- **C98**: of the states created from the `2^32` PIDs, whatever the other arguments, a nature is in 171798692 if its number is
below 21, and in one less otherwise. -/
theorem C98_nature (mode : Mode) (advance species form : Nat) (ivs : Vector (BitVec 8) 6) (ability : Nat) (level shiny : BitVec 8)
    (info : Personal) (n : Nat) (hn : n < 25) :
    howMany (fun pid => hasNature n (State.new mode advance pid.toNat species form ivs ability level shiny info) = true) =
      if n < 21 then 171798692 else 171798691 := by
  rw [howMany_congr (q := fun pid => pid.toNat % 25 = n)]
  swap
  · intro pid
    have := pid.isLt
    rw [new_eq, hasNature, decide_eq_true_iff, BitVec.toNat_ofNat]
    omega
  have h : Nat.count (· ≡ n [MOD 25]) (2 ^ 32) = 2 ^ 32 / 25 + if n % 25 < 2 ^ 32 % 25 then 1 else 0 :=
    Nat.count_modEq_card (2 ^ 32) (by norm_num : 0 < 25) n
  have e : howMany (fun pid => pid.toNat % 25 = n) = Nat.count (· ≡ n [MOD 25]) (2 ^ 32) := by
    unfold howMany
    rw [count_eq_sum, count_eq_sum]
    apply Finset.sum_congr rfl
    intro k hk
    have hk := Finset.mem_range.mp hk
    simp only [BitVec.toNat_ofNat, Nat.mod_eq_of_lt hk, Nat.ModEq, Nat.mod_eq_of_lt hn]
  rw [e, h, Nat.mod_eq_of_lt hn, show (2 : Nat) ^ 32 / 25 = 171798691 by norm_num, show (2 : Nat) ^ 32 % 25 = 21 by norm_num]
  split_ifs <;> rfl

example : hasNature 21 (State.new .numba 0 0x12345678 25 0 (Vector.replicate 6 31) 0 50 0 sampleInfo) = true := by
  rw [new_eq]; rfl

/-- a sum over the low two bits of the four bytes -/
theorem sum_bytes (F : Nat → Nat → Nat → Nat → Nat) :
    ∑ n ∈ range (2 ^ 32), F (n / 2 ^ 24 % 4) (n / 2 ^ 16 % 4) (n / 2 ^ 8 % 4) (n % 4) =
      2 ^ 24 * ∑ a ∈ range 4, ∑ b ∈ range 4, ∑ c ∈ range 4, ∑ d ∈ range 4, F a b c d := by
  have low : ∀ G : Nat → Nat, ∑ n ∈ range 256, G (n % 4) = 64 * ∑ n ∈ range 4, G n := fun G => by
    rw [show (256 : Nat) = 64 * 4 by norm_num, sum_low]
  have l1 : ∀ a b c, ∑ n ∈ range (2 ^ 8), F a b c (n % 4) = 64 * ∑ d ∈ range 4, F a b c d := fun a b c => low (F a b c)
  have l2 : ∀ a b, ∑ n ∈ range (2 ^ 16), F a b (n / 2 ^ 8 % 4) (n % 4)
      = 64 * (64 * ∑ c ∈ range 4, ∑ d ∈ range 4, F a b c d) := by
    intro a b
    rw [show (2 : Nat) ^ 16 = 256 * 2 ^ 8 by norm_num, sum_split]
    have : ∀ i ∈ range 256, ∑ j ∈ range (2 ^ 8), F a b ((i * 2 ^ 8 + j) / 2 ^ 8 % 4) ((i * 2 ^ 8 + j) % 4)
        = 64 * ∑ d ∈ range 4, F a b (i % 4) d := by
      intro i _
      rw [← l1]
      apply Finset.sum_congr rfl
      intro j hj
      have hj := Finset.mem_range.mp hj
      rw [show (i * 2 ^ 8 + j) / 2 ^ 8 = i by omega, show (i * 2 ^ 8 + j) % 4 = j % 4 by omega]
    rw [Finset.sum_congr rfl this, low (fun i => 64 * ∑ d ∈ range 4, F a b i d), Finset.mul_sum, Finset.mul_sum, Finset.mul_sum]
  have l3 : ∀ a, ∑ n ∈ range (2 ^ 24), F a (n / 2 ^ 16 % 4) (n / 2 ^ 8 % 4) (n % 4)
      = 64 * (64 * (64 * ∑ b ∈ range 4, ∑ c ∈ range 4, ∑ d ∈ range 4, F a b c d)) := by
    intro a
    rw [show (2 : Nat) ^ 24 = 256 * 2 ^ 16 by norm_num, sum_split]
    have : ∀ i ∈ range 256, ∑ j ∈ range (2 ^ 16), F a ((i * 2 ^ 16 + j) / 2 ^ 16 % 4) ((i * 2 ^ 16 + j) / 2 ^ 8 % 4)
        ((i * 2 ^ 16 + j) % 4) = 64 * (64 * ∑ c ∈ range 4, ∑ d ∈ range 4, F a (i % 4) c d) := by
      intro i _
      rw [← l2]
      apply Finset.sum_congr rfl
      intro j hj
      have hj := Finset.mem_range.mp hj
      rw [show (i * 2 ^ 16 + j) / 2 ^ 16 = i by omega, show (i * 2 ^ 16 + j) / 2 ^ 8 % 4 = j / 2 ^ 8 % 4 by omega,
        show (i * 2 ^ 16 + j) % 4 = j % 4 by omega]
    rw [Finset.sum_congr rfl this, low (fun i => 64 * (64 * ∑ c ∈ range 4, ∑ d ∈ range 4, F a i c d))]
    simp only [Finset.mul_sum]
  rw [show (2 : Nat) ^ 32 = 256 * 2 ^ 24 by norm_num, sum_split]
  have : ∀ i ∈ range 256, ∑ j ∈ range (2 ^ 24), F ((i * 2 ^ 24 + j) / 2 ^ 24 % 4) ((i * 2 ^ 24 + j) / 2 ^ 16 % 4)
      ((i * 2 ^ 24 + j) / 2 ^ 8 % 4) ((i * 2 ^ 24 + j) % 4)
      = 64 * (64 * (64 * ∑ b ∈ range 4, ∑ c ∈ range 4, ∑ d ∈ range 4, F (i % 4) b c d)) := by
    intro i _
    rw [← l3]
    apply Finset.sum_congr rfl
    intro j hj
    have hj := Finset.mem_range.mp hj
    rw [show (i * 2 ^ 24 + j) / 2 ^ 24 = i by omega, show (i * 2 ^ 24 + j) / 2 ^ 16 % 4 = j / 2 ^ 16 % 4 by omega,
      show (i * 2 ^ 24 + j) / 2 ^ 8 % 4 = j / 2 ^ 8 % 4 by omega, show (i * 2 ^ 24 + j) % 4 = j % 4 by omega]
  rw [Finset.sum_congr rfl this,
    low (fun i => 64 * (64 * (64 * ∑ b ∈ range 4, ∑ c ∈ range 4, ∑ d ∈ range 4, F i b c d)))]
  simp only [← Finset.mul_sum, ← Nat.mul_assoc]
  norm_num

/-- **C98**: Unown letters. The letters A to D are slightly more frequent. -/
theorem C98_unown (form : BitVec 8) (hf : form.toNat < 28) :
    howMany (fun pid => unownCheck pid form = true) = if form.toNat < 4 then 10 * 2 ^ 24 else 9 * 2 ^ 24 := by
  have e : ∀ pid : BitVec 32, unownCheck pid form = true ↔ (64 * (pid.toNat / 2 ^ 24 % 4) + 16 * (pid.toNat / 2 ^ 16 % 4) +
      4 * (pid.toNat / 2 ^ 8 % 4) + pid.toNat % 4) % 28 = form.toNat := by
    intro pid
    constructor
    · intro h; exact (C50_letter pid form h).symm
    · intro h
      obtain ⟨f, h1, -⟩ := C50_unique pid
      have := C50_letter pid f h1
      have : f = form := BitVec.eq_of_toNat_eq (this.trans h)
      rwa [← this]
  rw [howMany_congr e]
  unfold howMany
  rw [count_eq_sum]
  have : ∀ n ∈ range (2 ^ 32), (if (64 * ((BitVec.ofNat 32 n).toNat / 2 ^ 24 % 4) +
      16 * ((BitVec.ofNat 32 n).toNat / 2 ^ 16 % 4) + 4 * ((BitVec.ofNat 32 n).toNat / 2 ^ 8 % 4) +
      (BitVec.ofNat 32 n).toNat % 4) % 28 = form.toNat then 1 else 0)
      = (fun a b c d => if (64 * a + 16 * b + 4 * c + d) % 28 = form.toNat then 1 else 0)
        (n / 2 ^ 24 % 4) (n / 2 ^ 16 % 4) (n / 2 ^ 8 % 4) (n % 4) := by
    intro n hn
    have hn := Finset.mem_range.mp hn
    rw [BitVec.toNat_ofNat, Nat.mod_eq_of_lt hn]
  rw [Finset.sum_congr rfl this, sum_bytes (fun a b c d => if (64 * a + 16 * b + 4 * c + d) % 28 = form.toNat then 1 else 0)]
  have fin : ∀ f < 28, (∑ a ∈ range 4, ∑ b ∈ range 4, ∑ c ∈ range 4, ∑ d ∈ range 4,
      if (64 * a + 16 * b + 4 * c + d) % 28 = f then 1 else 0) = if f < 4 then 10 else 9 := by decide +kernel
  rw [fin _ hf]
  split_ifs <;> rfl

/-- 256 residues, 28 letters -/
example : unownCheck 0x03020100 4 = true ∧ 4 * (10 * 2 ^ 24) + 24 * (9 * 2 ^ 24) = 2 ^ 32 := by decide

/-! ### draws and slots -/

/-- the value of a draw -/
def drawValue (maximum : BitVec 16) (seed : BitVec 32) : Option Nat :=
  match draw maximum seed with
  | .ok (_, v) => some v.toNat
  | _ => none

/-- **C98**: over all seeds a draw below `maximum` gives each value equally often, up to one part in `2^16`. -/
theorem C98_draw (maximum : BitVec 16) (h0 : maximum ≠ 0) (v : Nat) (hv : v < maximum.toNat) :
    howMany (fun seed => drawValue maximum seed = some v) =
      2 ^ 16 * (2 ^ 16 / maximum.toNat + if v < 2 ^ 16 % maximum.toNat then 1 else 0) := by
  have hm := maximum.isLt
  have h := Nat.count_modEq_card (2 ^ 16) (by omega : 0 < maximum.toNat) v
  rw [Nat.mod_eq_of_lt hv] at h
  rw [← h, howMany_congr (q := fun seed => out 1 seed ≡ v [MOD maximum.toNat])]
  · exact howMany_out (fun w => w ≡ v [MOD maximum.toNat]) 1
  · intro seed
    have hlt : out 1 seed % maximum.toNat < maximum.toNat := Nat.mod_lt _ (by omega)
    rw [drawValue, draw_eq maximum h0]
    simp only [Option.some.injEq, BitVec.toNat_ofNat, Nat.ModEq, Nat.mod_eq_of_lt hv]
    rw [Nat.mod_eq_of_lt (by omega)]

/-- A draw below 100: 36 of the values have 656 * 2^16 seeds, the others 655 * 2^16. -/
example : drawValue 100 0 = some 0 ∧ drawValue 100 1 = some 38 ∧ 2 ^ 16 / 100 = 655 ∧ 2 ^ 16 % 100 = 36 := by decide +kernel

/-- does the chosen slot have the property? -/
def hits (area : EncounterArea3) (encounter : BitVec 8) (q : Slot3 → Bool) (seed : BitVec 32) : Bool :=
  match calculateHslot area encounter seed with
  | .ok (_, s) => q s
  | _ => false

/-- The shares of the slots, in 65536ths. The nominal percentages are 20, 20, 10, ... -/
def shares (encounter : BitVec 8) : List Nat :=
  match encounter.toNat with
  | 3 => [38681, 19650, 3275, 2620, 1310]
  | 4 => [38681, 19650, 3275, 2620, 1310]
  | 6 => [45231, 20305]
  | 7 => [38681, 13100, 13755]
  | 8 => [25581, 26200, 9825, 2620, 1310]
  | _ => [12464, 13117, 6550, 6550, 6550, 6550, 3275, 3275, 2620, 2620, 655, 1310]

theorem count_fibers (B : Nat → Bool) (idx : Nat → Nat) (k N : Nat) (h : ∀ r, idx r < k) :
    Nat.count (fun r => B (idx r) = true) N =
      ∑ i ∈ range k, if B i = true then Nat.count (fun r => idx r = i) N else 0 := by
  rw [count_eq_sum]
  have : ∀ i ∈ range k, (if B i = true then Nat.count (fun r => idx r = i) N else 0)
      = ∑ r ∈ range N, if idx r = i then (if B (idx r) = true then 1 else 0) else 0 := by
    intro i _
    by_cases hb : B i = true
    · rw [if_pos hb, count_eq_sum]
      apply Finset.sum_congr rfl
      intro r _
      by_cases hr : idx r = i
      · rw [if_pos hr, if_pos hr, hr, if_pos hb]
      · rw [if_neg hr, if_neg hr]
    · rw [if_neg hb]
      symm
      apply Finset.sum_eq_zero
      intro r _
      by_cases hr : idx r = i
      · rw [if_pos hr, hr, if_neg hb]
      · rw [if_neg hr]
  rw [Finset.sum_congr rfl this, Finset.sum_comm]
  apply Finset.sum_congr rfl
  intro r _
  rw [Finset.sum_ite_eq, if_pos (Finset.mem_range.mpr (h r))]

theorem sum_zip {α : Type} (f : α → Nat → Nat) (L : List α) : ∀ (W : List Nat) (g : Nat → Nat), W.length = L.length →
    (∀ (i : Nat) (a : α) (w : Nat), L[i]? = some a → W[i]? = some w → g i = f a w) →
    ((L.zip W).map fun x => f x.1 x.2).sum = ∑ i ∈ range L.length, g i := by
  induction L with
  | nil => intro W g _ _; simp
  | cons a L ih =>
    intro W g hl h
    cases W with
    | nil => simp at hl
    | cons w W =>
      rw [List.length_cons, Finset.sum_range_succ', List.zip_cons_cons, List.map_cons, List.sum_cons,
        ih W (fun i => g (i + 1)) (by simpa using hl) (fun i a w h1 h2 => h (i + 1) a w (by simpa using h1) (by simpa using h2)),
        h 0 a w rfl rfl, Nat.add_comm]

theorem slots_sum (L : List Slot3) (l W : List Nat) (hlen : L.length = l.length) (hb : Boundaries l) (hw : W.length = L.length)
    (hW : ∀ i < l.length, W[i]? = some (655 * Nat.count (fun r => tableIndex l r = i) 100 +
      Nat.count (fun r => tableIndex l r = i) 36)) (q : Slot3 → Bool) :
    655 * Nat.count (fun r => (L[tableIndex l r]?.any q) = true) 100 + Nat.count (fun r => (L[tableIndex l r]?.any q) = true) 36
      = ((L.zip W).map fun x => if q x.1 then x.2 else 0).sum := by
  rw [count_fibers (fun i => L[i]?.any q) (tableIndex l) L.length 100 (fun r => by rw [hlen]; exact tableIndex_lt l hb r),
    count_fibers (fun i => L[i]?.any q) (tableIndex l) L.length 36 (fun r => by rw [hlen]; exact tableIndex_lt l hb r),
    Finset.mul_sum, ← Finset.sum_add_distrib]
  symm
  apply sum_zip (fun a w => if q a then w else 0) L W _ hw
  intro i a w h1 h2
  have hi : i < l.length := by rw [← hlen]; exact (List.getElem?_eq_some_iff.mp h1).1
  have h3 := hW i hi
  rw [h2, Option.some.injEq] at h3
  rw [h1, Option.any_some, h3]
  split <;> simp

theorem shares_ok : ∀ e : BitVec 8, (shares e).length = (boundariesOf e).length ∧ ∀ i < (boundariesOf e).length,
    (shares e)[i]? = some (655 * Nat.count (fun r => tableIndex (boundariesOf e) r = i) 100 +
      Nat.count (fun r => tableIndex (boundariesOf e) r = i) 36) := by
  apply split_encounter
  · decide +kernel
  · decide +kernel
  · decide +kernel
  · decide +kernel
  · decide +kernel
  · intro e h3 h4 h6 h7 h8
    have f : ∀ k : Nat, k < 256 → e ≠ BitVec.ofNat 8 k → e.toNat ≠ k := by
      intro k hk hne h
      apply hne
      apply BitVec.eq_of_toNat_eq
      rw [h, BitVec.toNat_ofNat, Nat.mod_eq_of_lt hk]
    have g3 := f 3 (by omega) h3
    have g4 := f 4 (by omega) h4
    have g6 := f 6 (by omega) h6
    have g7 := f 7 (by omega) h7
    have g8 := f 8 (by omega) h8
    have es : shares e = shares 0 := by simp only [shares]; rfl
    have eb : boundariesOf e = boundariesOf 0 := by simp only [boundariesOf]; rfl
    rw [eb, es]
    decide +kernel

theorem lists_ok (area : EncounterArea3) : ∀ e : BitVec 8, (slotList area e).length = (boundariesOf e).length ∧
    Boundaries (boundariesOf e) := by
  apply split_encounter
  · exact ⟨by simp [slotList, boundariesOf], shipped_boundaries _ (by decide)⟩
  · exact ⟨by simp [slotList, boundariesOf], shipped_boundaries _ (by decide)⟩
  · exact ⟨by simp [slotList, boundariesOf], shipped_boundaries _ (by decide)⟩
  · exact ⟨by simp [slotList, boundariesOf], shipped_boundaries _ (by decide)⟩
  · exact ⟨by simp [slotList, boundariesOf], shipped_boundaries _ (by decide)⟩
  · intro e h3 h4 h6 h7 h8
    obtain ⟨h1, h2⟩ := slotList_other area e h3 h4 h6 h7 h8
    rw [h1, h2]
    exact ⟨by simp, shipped_boundaries _ (by decide)⟩

/-- **C98**: of the `2^32` seeds, the slots with a property `q` are chosen for exactly `2^16` times the sum of their shares. -/
theorem C98_slot (area : EncounterArea3) (encounter : BitVec 8) (q : Slot3 → Bool) :
    howMany (fun seed => hits area encounter q seed = true) =
      2 ^ 16 * (((slotList area encounter).zip (shares encounter)).map fun x => if q x.1 then x.2 else 0).sum := by
  obtain ⟨l1, l2⟩ := lists_ok area encounter
  obtain ⟨s1, s2⟩ := shares_ok encounter
  rw [← slots_sum (slotList area encounter) (boundariesOf encounter) (shares encounter) l1 l2 (by rw [s1, l1]) s2 q,
    ← count_mod100 (fun r => ((slotList area encounter)[tableIndex (boundariesOf encounter) r]?.any q) = true),
    ← howMany_out (fun w => ((slotList area encounter)[tableIndex (boundariesOf encounter) (w % 100)]?.any q) = true) 1]
  apply howMany_congr
  intro seed
  obtain ⟨s, h1, h2⟩ := C53_hslot area encounter seed
  rw [hits, h1, h2, Option.any_some]

/-- The shares add up: some slot is chosen for every seed. -/
theorem C98_shares_total (encounter : BitVec 8) : (shares encounter).sum = 65536 := by
  revert encounter
  apply split_encounter
  iterate 5 decide +kernel
  intro e h3 h4 h6 h7 h8
  have f : ∀ k : Nat, k < 256 → e ≠ BitVec.ofNat 8 k → e.toNat ≠ k := by
    intro k hk hne h
    apply hne
    apply BitVec.eq_of_toNat_eq
    rw [h, BitVec.toNat_ofNat, Nat.mod_eq_of_lt hk]
  have g3 := f 3 (by omega) h3
  have g4 := f 4 (by omega) h4
  have g6 := f 6 (by omega) h6
  have g7 := f 7 (by omega) h7
  have g8 := f 8 (by omega) h8
  have es : shares e = shares 0 := by simp only [shares]; rfl
  rw [es]
  decide +kernel

/-- grass: the first two slots are chosen for 39.03 % of the seeds, the rock smash slots by fifths -/
example : (shares 0).take 2 = [12464, 13117] ∧ (12464 + 13117) * 10000 / 65536 = 3903 ∧ (shares 3).length = 5 := by decide

end Verif.Gen3
