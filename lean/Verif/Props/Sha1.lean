import Verif.Model.Sha1
import Verif.Spec.Sha1
import Verif.Props.Util
import Mathlib.Logic.Function.Iterate
/-
C38 - C41: sha1.py against FIPS 180-4.
-/
namespace Verif.Sha1
open Verif.Util (changeEndian)

/-! ### rotations -/

theorem rotl_eq (mode : Mode) (v : BitVec 32) (c : Nat) (h : c < 32) : rotl mode v c = v.rotateLeft c := by
  rw [rotl, Util.rotateLeft32_eq mode v c (by omega), Option.getD_some, BitVec.rotateLeft_def, Nat.mod_eq_of_lt h]

theorem rotr_eq (mode : Mode) (v : BitVec 32) : rotr mode v 2 = v.rotateLeft 30 := by
  rw [rotr, Util.rotateRight32_eq mode v 2 (by omega), Option.getD_some, BitVec.rotateLeft_def]

theorem rot1_xor (x y : BitVec 32) : (x ^^^ y).rotateLeft 1 = x.rotateLeft 1 ^^^ y.rotateLeft 1 := by
  apply BitVec.eq_of_getLsbD_eq
  intro i hi
  simp only [BitVec.getLsbD_rotateLeft, BitVec.getLsbD_xor]
  interval_cases i <;> simp

theorem rot1_rot1 (x : BitVec 32) : (x.rotateLeft 1).rotateLeft 1 = x.rotateLeft 2 := by
  apply BitVec.eq_of_getLsbD_eq
  intro i hi
  simp only [BitVec.getLsbD_rotateLeft]
  interval_cases i <;> simp

/-! ### message schedule -/

open Spec.Sha1 (W)

theorem W_lt (M : Nat → BitVec 32) {t : Nat} (h : t < 16) : W M t = M t := by rw [W, dif_pos h]

theorem W_ge (M : Nat → BitVec 32) {t : Nat} (h : 16 ≤ t) :
    W M t = (W M (t - 3) ^^^ W M (t - 8) ^^^ W M (t - 14) ^^^ W M (t - 16)).rotateLeft 1 := by
  rw [W, dif_neg (by omega)]

theorem xor16 (a b c d e f g h i j : BitVec 32) :
    (a ^^^ b ^^^ c ^^^ d) ^^^ (b ^^^ e ^^^ f ^^^ g) ^^^ (c ^^^ f ^^^ h ^^^ i) ^^^ (d ^^^ g ^^^ i ^^^ j) =
      a ^^^ e ^^^ h ^^^ j := by
  apply BitVec.eq_of_getLsbD_eq
  intro k _
  simp only [BitVec.getLsbD_xor]
  generalize a.getLsbD k = a, b.getLsbD k = b, c.getLsbD k = c, d.getLsbD k = d, e.getLsbD k = e, f.getLsbD k = f,
    g.getLsbD k = g, h.getLsbD k = h, i.getLsbD k = i, j.getLsbD k = j
  revert a b c d e f g h i j
  decide +kernel

/-- The "SIMD" form of the schedule agrees with the standard one from word 32 on. -/
theorem W_simd (M : Nat → BitVec 32) {t : Nat} (h : 32 ≤ t) :
    W M t = (W M (t - 6) ^^^ W M (t - 16) ^^^ W M (t - 28) ^^^ W M (t - 32)).rotateLeft 2 := by
  rw [W_ge M (t := t) (by omega)]
  have h3 := W_ge M (t := t - 3) (by omega)
  have h8 := W_ge M (t := t - 8) (by omega)
  have h14 := W_ge M (t := t - 14) (by omega)
  have h16 := W_ge M (t := t - 16) (by omega)
  simp only [Nat.sub_sub, Nat.reduceAdd] at h3 h8 h14 h16
  have key : ∀ p q r s : BitVec 32, (p ^^^ q ^^^ r ^^^ s).rotateLeft 1 =
      p.rotateLeft 1 ^^^ q.rotateLeft 1 ^^^ r.rotateLeft 1 ^^^ s.rotateLeft 1 := by
    intro p q r s
    rw [rot1_xor, rot1_xor, rot1_xor]
  have e : (W M (t - 6) ^^^ W M (t - 16) ^^^ W M (t - 28) ^^^ W M (t - 32)).rotateLeft 1 =
      W M (t - 3) ^^^ W M (t - 8) ^^^ W M (t - 14) ^^^ W M (t - 16) := by
    rw [← xor16 (W M (t - 6)) (W M (t - 11)) (W M (t - 17)) (W M (t - 19)) (W M (t - 16)) (W M (t - 22))
      (W M (t - 24)) (W M (t - 28)) (W M (t - 30)) (W M (t - 32)), key, ← h3, ← h8, ← h14, ← h16]
  rw [← rot1_rot1, e]

/-- the words `S` of the array hold the schedule of message `M` -/
def Good (M : Nat → BitVec 32) (data : Mem) (S : List Nat) : Prop := ∀ i ∈ S, data i = W M i

theorem calcW_good {M : Nat → BitVec 32} {data : Mem} {S : List Nat} (mode : Mode) (h : Good M data S) {i : Nat}
    (hi : 16 ≤ i) (h3 : i - 3 ∈ S) (h8 : i - 8 ∈ S) (h14 : i - 14 ∈ S) (h16 : i - 16 ∈ S) :
    Good M (calcW mode data i) (i :: S) := by
  intro j hj
  unfold calcW
  by_cases e : j = i
  · subst e
    rw [Mem.set_same, rotl_eq mode _ 1 (by omega), h _ h3, h _ h8, h _ h14, h _ h16, ← W_ge M hi]
  · rw [Mem.set_ne _ _ e]
    exact h j (by simpa [e] using hj)

/-- every word computed by `calc_w` finds its inputs among the words already valid -/
def closed (S : List Nat) : List Nat → Bool
  | [] => true
  | i :: l => 16 ≤ i && S.contains (i - 3) && S.contains (i - 8) && S.contains (i - 14) && S.contains (i - 16) &&
      closed (i :: S) l

theorem calcW_fold {M : Nat → BitVec 32} (mode : Mode) (l : List Nat) : ∀ {data : Mem} {S : List Nat}, Good M data S →
    closed S l = true → Good M (l.foldl (calcW mode) data) (l.reverse ++ S) := by
  induction l with
  | nil => intro data S h _; simpa using h
  | cons i l ih =>
    intro data S h hc
    simp only [closed, Bool.and_eq_true, decide_eq_true_eq, List.contains_iff_mem] at hc
    obtain ⟨⟨⟨⟨⟨hi, h3⟩, h8⟩, h14⟩, h16⟩, hr⟩ := hc
    have := ih (calcW_good mode h hi h3 h8 h14 h16) hr
    simpa using this

theorem calcW_frame (mode : Mode) (l : List Nat) (j : Nat) (hj : j ∉ l) : ∀ data : Mem,
    (l.foldl (calcW mode) data) j = data j := by
  induction l with
  | nil => intro data; rfl
  | cons i l ih =>
    intro data
    rw [List.foldl_cons, ih (by simp_all)]
    exact Mem.set_ne _ _ (by simp_all)

theorem simd_fold {M : Nat → BitVec 32} (mode : Mode) (n : Nat) : ∀ (data : Mem) (t : Nat), 32 ≤ t →
    (∀ i < t, data i = W M i) → ∀ i < t + n, ((List.range' t n).foldl (calcWSimd mode) data) i = W M i := by
  induction n with
  | zero => intro data t _ h; exact h
  | succ n ih =>
    intro data t ht h i hi
    rw [List.range'_succ, List.foldl_cons]
    apply ih _ (t + 1) (by omega) _ i (by omega)
    intro j hj
    unfold calcWSimd
    by_cases e : j = t
    · subst e
      rw [Mem.set_same, rotl_eq mode _ 2 (by omega), h _ (by omega), h _ (by omega), h _ (by omega), h _ (by omega),
        ← W_simd M ht]
    · rw [Mem.set_ne _ _ e]
      exact h j (by omega)

theorem simd_frame (mode : Mode) (n : Nat) : ∀ (data : Mem) (t j : Nat), j < t →
    ((List.range' t n).foldl (calcWSimd mode) data) j = data j := by
  induction n with
  | zero => intro data t j _; rfl
  | succ n ih =>
    intro data t j h
    rw [List.range'_succ, List.foldl_cons, ih _ (t + 1) j (by omega)]
    exact Mem.set_ne _ _ (by omega)

/-! ### rounds -/

open Spec.Sha1 (Hash rounds round)

/-- which register holds which working variable before a line of the given form -/
def view (l : Line) (r : Regs) : Hash :=
  match l with
  | .tb => { a := r.a, b := r.b, c := r.c, d := r.d, e := r.e }
  | .ea => { a := r.t, b := r.a, c := r.b, d := r.c, e := r.d }
  | .dt => { a := r.e, b := r.t, c := r.a, d := r.b, e := r.c }
  | .ce => { a := r.d, b := r.e, c := r.t, d := r.a, e := r.b }
  | .bd => { a := r.c, b := r.d, c := r.e, d := r.t, e := r.a }
  | .ac => { a := r.b, b := r.c, c := r.d, d := r.e, e := r.t }

/-- the form of the following line -/
def nextLine : Line → Line
  | .tb => .ea | .ea => .dt | .dt => .ce | .ce => .bd | .bd => .ac | .ac => .tb

/-- the section function for round `t` -/
def secOf (t : Nat) : Sec := if t < 20 then .s1 else if t < 40 then .s2 else if t < 60 then .s3 else .s4

theorem ch_eq (x y z : BitVec 32) : (x &&& y) ||| (~~~x &&& z) = (x &&& y) ^^^ (~~~x &&& z) := by
  apply BitVec.eq_of_getLsbD_eq
  intro k hk
  simp only [BitVec.getLsbD_or, BitVec.getLsbD_and, BitVec.getLsbD_xor, BitVec.getLsbD_not, hk, decide_true,
    Bool.true_and]
  cases x.getLsbD k <;> cases y.getLsbD k <;> cases z.getLsbD k <;> rfl

theorem maj_eq (x y z : BitVec 32) :
    (x &&& y) ||| ((x ||| y) &&& z) = (x &&& y) ^^^ (x &&& z) ^^^ (y &&& z) := by
  apply BitVec.eq_of_getLsbD_eq
  intro k hk
  simp only [BitVec.getLsbD_or, BitVec.getLsbD_and, BitVec.getLsbD_xor]
  cases x.getLsbD k <;> cases y.getLsbD k <;> cases z.getLsbD k <;> rfl

theorem calc_eq (mode : Mode) (t : Nat) (a b c d e w : BitVec 32) :
    (secOf t).calc mode a b c d e w =
      (a.rotateLeft 5 + Spec.Sha1.f t b c d + e + Spec.Sha1.K t + w, b.rotateLeft 30) := by
  unfold secOf Spec.Sha1.f Spec.Sha1.K
  split
  · simp only [Sec.calc, section1, rotl_eq mode _ 5 (by omega), rotr_eq, ch_eq]
  split
  · simp only [Sec.calc, section2, rotl_eq mode _ 5 (by omega), rotr_eq]
  split
  · simp only [Sec.calc, section3, rotl_eq mode _ 5 (by omega), rotr_eq, maj_eq]
  · simp only [Sec.calc, section4, rotl_eq mode _ 5 (by omega), rotr_eq]

theorem line_eq (mode : Mode) (l : Line) (t : Nat) (w : BitVec 32) (r : Regs) :
    view (nextLine l) (l.exec mode (secOf t) w r) = round t w (view l r) := by
  cases l <;> simp only [view, nextLine, Line.exec, calc_eq, round]

/-- the lines are the rounds `t`, `t+1`, .. in the standard order, starting with a line of form `l` -/
def inOrder (l : Line) (t : Nat) : List (Line × Sec × Nat) → Bool
  | [] => true
  | q :: qs => q.1 = l && q.2.1 = secOf t && q.2.2 = t && inOrder (nextLine l) (t + 1) qs

theorem exec_eq (mode : Mode) (M : Nat → BitVec 32) (data : Mem) (prog : List (Line × Sec × Nat)) :
    ∀ (l : Line) (t : Nat) (r : Regs), inOrder l t prog = true → (∀ i < t + prog.length, data i = W M i) →
      view (nextLine^[prog.length] l) (exec mode data prog r) = rounds M t prog.length (view l r) := by
  induction prog with
  | nil => intro l t r _ _; rfl
  | cons q qs ih =>
    intro l t r h hd
    obtain ⟨ql, qs', qi⟩ := q
    simp only [inOrder, Bool.and_eq_true, decide_eq_true_eq] at h
    obtain ⟨⟨⟨h1, h2⟩, h3⟩, h4⟩ := h
    subst h1; subst h2; subst h3
    simp only [List.length_cons] at hd
    have := ih (nextLine ql) (qi + 1) (ql.exec mode (secOf qi) (data qi) r) h4 (fun i hi => hd i (by omega))
    rw [List.length_cons, Function.iterate_succ, Function.comp, rounds, ← hd qi (by omega), ← line_eq mode]
    exact this

/-! ### digest to seed -/

open Spec.Sha1 (beBytes leNat gen5Seed compress H0 sha1 word pad)

theorem changeEndian_append (v : BitVec 32) : changeEndian v =
    (v.extractLsb' 0 8 ++ v.extractLsb' 8 8 ++ v.extractLsb' 16 8 ++ v.extractLsb' 24 8 : BitVec 32) := by
  apply BitVec.eq_of_getLsbD_eq
  intro i hi
  simp only [changeEndian, BitVec.getLsbD_or, BitVec.getLsbD_and, BitVec.getLsbD_shiftLeft, BitVec.getLsbD_ushiftRight,
    BitVec.getLsbD_append, BitVec.getLsbD_extractLsb']
  interval_cases i <;> simp

theorem append_beBytes (v : BitVec 32) :
    (v.extractLsb' 24 8 ++ v.extractLsb' 16 8 ++ v.extractLsb' 8 8 ++ v.extractLsb' 0 8 : BitVec 32) = v := by
  apply BitVec.eq_of_getLsbD_eq
  intro i hi
  simp only [BitVec.getLsbD_append, BitVec.getLsbD_extractLsb']
  interval_cases i <;> simp

theorem toNat_append' {n m : Nat} (x : BitVec n) (y : BitVec m) : (x ++ y).toNat = 2 ^ m * x.toNat + y.toNat := by
  rw [BitVec.toNat_append, ← Nat.shiftLeft_add_eq_or_of_lt y.isLt, Nat.shiftLeft_eq, Nat.mul_comm]

theorem le_changeEndian (v : BitVec 32) (l : List (BitVec 8)) :
    leNat (beBytes v ++ l) = (changeEndian v).toNat + 2 ^ 32 * leNat l := by
  rw [changeEndian_append, toNat_append', toNat_append', toNat_append']
  simp only [beBytes, List.cons_append, List.nil_append, leNat]
  omega

theorem seed_eq (h : Hash) :
    Lcrng.next Lcrng.bwrngParams (((changeEndian h.b).setWidth 64 <<< 32) ||| (changeEndian h.a).setWidth 64) =
      gen5Seed h := by
  have e : ((changeEndian h.b).setWidth 64 <<< 32) ||| (changeEndian h.a).setWidth 64 =
      BitVec.ofNat 64 (leNat (beBytes h.a ++ beBytes h.b)) := by
    have l := le_changeEndian h.b []
    rw [List.append_nil] at l
    rw [le_changeEndian, l]
    apply BitVec.eq_of_toNat_eq
    have h1 := (changeEndian h.a).isLt
    have h2 := (changeEndian h.b).isLt
    rw [BitVec.toNat_or, BitVec.toNat_shiftLeft, BitVec.toNat_setWidth, BitVec.toNat_setWidth, BitVec.toNat_ofNat, leNat,
      Nat.mod_eq_of_lt (a := (changeEndian h.b).toNat) (by omega), Nat.mod_eq_of_lt (a := (changeEndian h.a).toNat) (by omega),
      Nat.mod_eq_of_lt (by rw [Nat.shiftLeft_eq]; omega), ← Nat.shiftLeft_add_eq_or_of_lt h1, Nat.shiftLeft_eq]
    omega
  rw [e, gen5Seed, Lcrng.next, Lcrng.bwrngParams, BitVec.ofNat_add, BitVec.ofNat_mul]
  rfl

/-- The seed of a message block according to the standard. -/
def specSeed (M : Nat → BitVec 32) : BitVec 64 := gen5Seed (compress M H0)

theorem rounds_add (M : Nat → BitVec 32) (m n : Nat) : ∀ (t : Nat) (h : Hash),
    rounds M t (m + n) h = rounds M (t + m) n (rounds M t m h) := by
  induction m with
  | zero => intro t h; rw [Nat.zero_add]; rfl
  | succ m ih =>
    intro t h
    rw [show m + 1 + n = (m + n) + 1 by omega, rounds, ih, rounds, show t + 1 + m = t + (m + 1) by omega]

theorem W_congr {M M' : Nat → BitVec 32} (h : ∀ i < 16, M i = M' i) (t : Nat) : W M t = W M' t := by
  induction t using Nat.strongRecOn with
  | ind t ih =>
    by_cases ht : t < 16
    · rw [W_lt M ht, W_lt M' ht, h t ht]
    · rw [W_ge M (by omega), W_ge M' (by omega), ih _ (by omega), ih _ (by omega), ih _ (by omega), ih _ (by omega)]

theorem rounds_congr {M M' : Nat → BitVec 32} (h : ∀ i < 16, M i = M' i) (n : Nat) : ∀ t q,
    rounds M t n q = rounds M' t n q := by
  induction n with
  | zero => intro t q; rfl
  | succ n ih => intro t q; rw [rounds, rounds, W_congr h, ih]

theorem compress_congr {M M' : Nat → BitVec 32} (h : ∀ i < 16, M i = M' i) (q : Hash) :
    compress M q = compress M' q := by
  unfold compress
  rw [rounds_congr h]

theorem specSeed_congr {M M' : Nat → BitVec 32} (h : ∀ i < 16, M i = M' i) : specSeed M = specSeed M' := by
  rw [specSeed, specSeed, compress_congr h]

/-! ### `precompute` and `hash_seed` -/

/-- the alpha array as working variables -/
def Alpha.hash (v : Alpha) : Hash := { a := v.v0, b := v.v1, c := v.v2, d := v.v3, e := v.v4 }

/-- the schedule words computed before `hash_seed` -/
def early : List Nat := [16, 18, 19, 21, 22, 24, 27, 30]

/-- `alpha` and the early schedule words belong to the current message -/
structure Valid (data : Mem) (alpha : Alpha) : Prop where
  sched : ∀ i ∈ early, data i = W data i
  alpha : alpha.hash = rounds data 0 9 H0

theorem precompute_frame (mode : Mode) (o : Obj) (j : Nat) (hj : j ∉ [16, 19, 21, 22, 24, 27, 30]) :
    (precompute mode o).1.data j = o.data j := calcW_frame mode _ j hj o.data

theorem hash_frame (mode : Mode) (o : Obj) (alpha : Alpha) (j : Nat) (h : j < 32)
    (hj : j ∉ [17, 20, 23, 25, 26, 28, 29, 31]) : (hashSeed mode o alpha).1.data j = o.data j := by
  unfold hashSeed
  rw [simd_frame mode 48 _ 32 j h, calcW_frame mode _ j hj]

theorem good16 (data : Mem) : Good data data (List.range 16) := by
  intro i hi
  rw [W_lt _ (by simpa using hi)]

theorem precompute_valid (mode : Mode) (o : Obj) (h : o.data 18 = W o.data 18) :
    Valid (precompute mode o).1.data (precompute mode o).2 := by
  have hM : ∀ i < 16, (precompute mode o).1.data i = o.data i := by
    intro i hi
    exact precompute_frame mode o i (by simp; omega)
  constructor
  · intro i hi
    rw [W_congr hM]
    have h0 : Good o.data o.data (18 :: List.range 16) := by
      intro i hi
      rcases List.mem_cons.mp hi with e | e
      · rw [e]; exact h
      · exact good16 _ i e
    exact calcW_fold mode [16, 19, 21, 22, 24, 27, 30] h0 (by decide +kernel) i (by
      simp [early] at hi
      simp
      omega)
  · rw [rounds_congr hM]
    have e := exec_eq mode o.data o.data precomputeLines .tb 0
      { a := 0x67452301, b := 0xEFCDAB89, c := 0x98BADCFE, d := 0x10325476, e := 0xC3D2E1F0, t := 0 }
      (by decide +kernel) (fun i hi => (W_lt _ (by simp [precomputeLines] at hi; omega)).symm)
    rw [show nextLine^[precomputeLines.length] Line.tb = Line.ce by decide +kernel] at e
    exact e

theorem hash_valid (mode : Mode) (o : Obj) (alpha : Alpha) (h : Valid o.data alpha) :
    (hashSeed mode o alpha).2 = specSeed o.data := by
  unfold hashSeed
  dsimp only
  have h0 : Good o.data o.data (early ++ List.range 16) := by
    intro i hi
    rcases List.mem_append.mp hi with e | e
    · exact h.sched i e
    · exact good16 _ i e
  have h1 := calcW_fold mode [17, 20, 23, 25, 26, 28, 29, 31] h0 (by decide +kernel)
  have h2 : ∀ i < 32, (List.foldl (calcW mode) o.data [17, 20, 23, 25, 26, 28, 29, 31]) i = W o.data i := by
    intro i hi
    apply h1 i
    revert i
    decide +kernel
  have h3 := simd_fold (M := o.data) mode 48 _ 32 (by omega) h2
  generalize List.foldl (calcWSimd mode) (List.foldl (calcW mode) o.data [17, 20, 23, 25, 26, 28, 29, 31])
    (List.range' 32 48) = data at h3 ⊢
  have e := exec_eq mode o.data data hashLines .tb 9
      { a := alpha.v0, b := alpha.v1, c := alpha.v2, d := alpha.v3, e := alpha.v4, t := 0 }
      (by decide +kernel) (fun i hi => h3 i (by rw [show hashLines.length = 71 by decide +kernel] at hi; omega))
  rw [show nextLine^[hashLines.length] Line.tb = Line.ac by decide +kernel,
    show hashLines.length = 71 by decide +kernel] at e
  have e2 : view Line.tb { a := alpha.v0, b := alpha.v1, c := alpha.v2, d := alpha.v3, e := alpha.v4, t := 0 } =
      alpha.hash := rfl
  rw [e2, h.alpha] at e
  have e3 := rounds_add o.data 9 71 0 H0
  rw [Nat.zero_add, ← e] at e3
  rw [specSeed, ← seed_eq, compress, show (80 : Nat) = 9 + 71 by rfl, e3]
  simp only [view, H0]

/-! ### C38 -/

/-- C38: for every object whose precomputed word 18 is right, the seed is that of the standard compression function. -/
theorem C38_seed (mode : Mode) (o : Obj) (h : o.data 18 = W o.data 18) :
    (hashSeed mode (precompute mode o).1 (precompute mode o).2).2 = specSeed o.data := by
  rw [hash_valid mode _ _ (precompute_valid mode o h)]
  exact specSeed_congr fun i hi => precompute_frame mode o i (by simp; omega)

/-- the method calls -/
inductive Op where
  | setButton (button : BitVec 32)
  | setDate (year : BitVec 16) (month day dayOfWeek : BitVec 8)
  | setTimer0 (timer0 : BitVec 32) (vcount : BitVec 8)
  | setTime (hour minute second : BitVec 8)
  | precompute
  | hashSeed (alpha : Alpha)

/-- effect on the object; a call that raises leaves it unchanged -/
def Op.run (mode : Mode) (o : Obj) : Op → Obj
  | .setButton b => Sha1.setButton o b
  | .setDate y m d w => match Sha1.setDate o y m d w with | .ok o' => o' | .error _ => o
  | .setTimer0 t v => Sha1.setTimer0 o t v
  | .setTime h m s => match Sha1.setTime o h m s with | .ok o' => o' | .error _ => o
  | .precompute => (Sha1.precompute mode o).1
  | .hashSeed alpha => (Sha1.hashSeed mode o alpha).1

theorem setDate_cases (o o' : Obj) (y : BitVec 16) (m d w : BitVec 8) (h : setDate o y m d w = .ok o') :
    ∃ v, o' = { o with data := o.data.set 8 v } := by
  unfold setDate at h
  cases e1 : bcd (y - 2000).toNat with
  | error => rw [e1] at h; cases h
  | ok a =>
    cases e2 : bcd m.toNat with
    | error => rw [e1, e2] at h; cases h
    | ok b =>
      cases e3 : bcd d.toNat with
      | error => rw [e1, e2, e3] at h; cases h
      | ok c => rw [e1, e2, e3] at h; cases h; exact ⟨_, rfl⟩

theorem setTime_cases (o o' : Obj) (y m d : BitVec 8) (h : setTime o y m d = .ok o') :
    ∃ v, o' = { o with data := o.data.set 9 v } := by
  unfold setTime at h
  cases e1 : bcd y.toNat with
  | error => rw [e1] at h; cases h
  | ok a =>
    cases e2 : bcd m.toNat with
    | error => rw [e1, e2] at h; cases h
    | ok b =>
      cases e3 : bcd d.toNat with
      | error => rw [e1, e2, e3] at h; cases h
      | ok c => rw [e1, e2, e3] at h; cases h; exact ⟨_, rfl⟩

/-- words written once by the constructor -/
def fixedWords : List Nat := [0, 1, 2, 3, 4, 6, 7, 10, 11, 13, 14, 15, 18]

theorem run_fixed (mode : Mode) (o : Obj) (op : Op) (i : Nat) (hi : i ∈ fixedWords) :
    (op.run mode o).data i = o.data i := by
  have n8 : i ≠ 8 := by rintro rfl; revert hi; decide
  have n5 : i ≠ 5 := by rintro rfl; revert hi; decide
  have n9 : i ≠ 9 := by rintro rfl; revert hi; decide
  have n12 : i ≠ 12 := by rintro rfl; revert hi; decide
  cases op with
  | setButton b => exact Mem.set_ne _ _ n12
  | setDate y m d w =>
    simp only [Op.run]
    cases e : setDate o y m d w with
    | error => rfl
    | ok o' => obtain ⟨v, rfl⟩ := setDate_cases o o' y m d w e; exact Mem.set_ne _ _ n8
  | setTimer0 t v => exact Mem.set_ne _ _ n5
  | setTime h m s =>
    simp only [Op.run]
    cases e : setTime o h m s with
    | error => rfl
    | ok o' => obtain ⟨v, rfl⟩ := setTime_cases o o' h m s e; exact Mem.set_ne _ _ n9
  | precompute =>
    exact precompute_frame mode o i (by rintro h; revert i; decide)
  | hashSeed alpha =>
    exact hash_frame mode o alpha i (by revert i; decide) (by rintro h; revert i; decide)

theorem history_fixed (mode : Mode) (ops : List Op) : ∀ (o : Obj), ∀ i ∈ fixedWords,
    (ops.foldl (Op.run mode) o).data i = o.data i := by
  induction ops with
  | nil => intro o i _; rfl
  | cons op ops ih => intro o i hi; rw [List.foldl_cons, ih _ i hi, run_fixed mode o op i hi]

theorem new_18 (mode : Mode) (junk : Mem) (version : Version) (language : Language) (dsType : DSType) (mac : BitVec 64)
    (softReset : Bool) (vFrame gxState : BitVec 8) :
    let o := new mode junk version language dsType mac softReset vFrame gxState
    o.data 18 = (o.data 15 ^^^ o.data 10 ^^^ o.data 4 ^^^ o.data 2).rotateLeft 1 := by
  cases softReset <;> simp [new, Mem.set, rotl_eq]

theorem new_padding (mode : Mode) (junk : Mem) (version : Version) (language : Language) (dsType : DSType)
    (mac : BitVec 64) (softReset : Bool) (vFrame gxState : BitVec 8) :
    let o := new mode junk version language dsType mac softReset vFrame gxState
    o.data 10 = 0 ∧ o.data 11 = 0 ∧ o.data 13 = 0x80000000 ∧ o.data 14 = 0 ∧ o.data 15 = 0x1A0 := by
  cases softReset <;> simp [new, Mem.set]

/-- the 52 message bytes held by the object: words 0..12, most significant byte first -/
def message (o : Obj) : List (BitVec 8) := (List.range 13).flatMap fun i => beBytes (o.data i)

theorem sha1_message (o : Obj) (h13 : o.data 13 = 0x80000000) (h14 : o.data 14 = 0) (h15 : o.data 15 = 0x1A0) :
    sha1 (message o) = compress o.data H0 := by
  have hl : (message o).length = 52 := rfl
  have hp : pad (message o) = message o ++ [0x80, 0, 0, 0, 0, 0, 0, 0, 0, 0, 1, 0xA0] := by
    rw [pad, hl, List.append_assoc, List.append_assoc, List.append_assoc]
    congr 1
  have g : ∀ i k, i = 52 + k → (pad (message o)).getD i 0 =
      [0x80, 0, 0, 0, 0, 0, 0, 0, 0, 0, 1, 0xA0].getD k (0 : BitVec 8) := by
    intro i k hi
    rw [hp, hi, List.getD_eq_getElem?_getD, List.getD_eq_getElem?_getD, List.getElem?_append_right (by omega), hl,
      Nat.add_sub_cancel_left]
  have e : ∀ i < 16, word (pad (message o)) i = o.data i := by
    intro i hi
    by_cases h : i < 13
    · rw [hp, ← append_beBytes (o.data i)]
      interval_cases i <;> rfl
    · have hi2 : i = 13 ∨ i = 14 ∨ i = 15 := by omega
      rcases hi2 with rfl | rfl | rfl
      · rw [h13, word, g _ 0 rfl, g _ 1 rfl, g _ 2 rfl, g _ 3 rfl]; decide
      · rw [h14, word, g _ 4 rfl, g _ 5 rfl, g _ 6 rfl, g _ 7 rfl]; decide
      · rw [h15, word, g _ 8 rfl, g _ 9 rfl, g _ 10 rfl, g _ 11 rfl]; decide
  have l : (pad (message o)).length / 64 = 1 := by rw [hp, List.length_append, hl]; rfl
  rw [sha1, l]
  exact compress_congr e H0

/-- C38 in full: construct an object, call any sequence of methods; then `hash_seed(precompute())` is the Gen 5 seed of
the standard SHA-1 digest (padding included) of the 52 message bytes. -/
theorem C38_history (mode : Mode) (junk : Mem) (version : Version) (language : Language) (dsType : DSType)
    (mac : BitVec 64) (softReset : Bool) (vFrame gxState : BitVec 8) (ops : List Op) :
    let o := ops.foldl (Op.run mode) (new mode junk version language dsType mac softReset vFrame gxState)
    (hashSeed mode (precompute mode o).1 (precompute mode o).2).2 = gen5Seed (sha1 (message o)) := by
  intro o
  have hf := history_fixed mode ops (new mode junk version language dsType mac softReset vFrame gxState)
  obtain ⟨-, -, p13, p14, p15⟩ := new_padding mode junk version language dsType mac softReset vFrame gxState
  rw [sha1_message o ((hf 13 (by decide)).trans p13) ((hf 14 (by decide)).trans p14) ((hf 15 (by decide)).trans p15)]
  apply C38_seed
  rw [W_ge _ (by omega), W_lt _ (by omega), W_lt _ (by omega), W_lt _ (by omega), W_lt _ (by omega)]
  have e18 := new_18 mode junk version language dsType mac softReset vFrame gxState
  have h2 : o.data 2 = _ := hf 2 (by decide)
  have h4 : o.data 4 = _ := hf 4 (by decide)
  have h10 : o.data 10 = _ := hf 10 (by decide)
  have h15 : o.data 15 = _ := hf 15 (by decide)
  have h18 : o.data 18 = _ := hf 18 (by decide)
  rw [h18, e18, h2, h4, h10, h15]

/-! ### C39 -/

/-- calls that do not invalidate `alpha` -/
inductive LightOp where
  | setButton (button : BitVec 32)
  | setTime (hour minute second : BitVec 8)
  | hashSeed

/-- the corresponding call, with the given `alpha` -/
def LightOp.op (alpha : Alpha) : LightOp → Op
  | .setButton b => .setButton b
  | .setTime h m s => .setTime h m s
  | .hashSeed => .hashSeed alpha

/-- words on which alpha and the early schedule words depend -/
theorem valid_of_agree {data data' : Mem} {alpha : Alpha} (h : Valid data alpha)
    (e : ∀ i, i < 32 → i ∉ [9, 12, 17, 20, 23, 25, 26, 28, 29, 31] → data' i = data i) : Valid data' alpha := by
  have w : ∀ i < 16, i ≠ 9 → i ≠ 12 → W data' i = W data i := by
    intro i hi h9 h12
    rw [W_lt _ hi, W_lt _ hi]
    exact e i (by omega) (by simp; omega)
  have step : ∀ i, 16 ≤ i → W data' (i - 3) = W data (i - 3) → W data' (i - 8) = W data (i - 8) →
      W data' (i - 14) = W data (i - 14) → W data' (i - 16) = W data (i - 16) → W data' i = W data i := by
    intro i hi h3 h8 h14 h16
    rw [W_ge _ hi, W_ge data hi, h3, h8, h14, h16]
  have w16 := step 16 (by omega) (w _ (by omega) (by omega) (by omega)) (w _ (by omega) (by omega) (by omega))
    (w _ (by omega) (by omega) (by omega)) (w _ (by omega) (by omega) (by omega))
  have w18 := step 18 (by omega) (w _ (by omega) (by omega) (by omega)) (w _ (by omega) (by omega) (by omega))
    (w _ (by omega) (by omega) (by omega)) (w _ (by omega) (by omega) (by omega))
  have w19 := step 19 (by omega) w16 (w _ (by omega) (by omega) (by omega))
    (w _ (by omega) (by omega) (by omega)) (w _ (by omega) (by omega) (by omega))
  have w21 := step 21 (by omega) w18 (w _ (by omega) (by omega) (by omega))
    (w _ (by omega) (by omega) (by omega)) (w _ (by omega) (by omega) (by omega))
  have w22 := step 22 (by omega) w19 (w _ (by omega) (by omega) (by omega))
    (w _ (by omega) (by omega) (by omega)) (w _ (by omega) (by omega) (by omega))
  have w24 := step 24 (by omega) w21 w16 (w _ (by omega) (by omega) (by omega)) (w _ (by omega) (by omega) (by omega))
  have w27 := step 27 (by omega) w24 w19 (w _ (by omega) (by omega) (by omega)) (w _ (by omega) (by omega) (by omega))
  have w30 := step 30 (by omega) w27 w22 w16 (w _ (by omega) (by omega) (by omega))
  constructor
  · intro i hi
    rw [e i (by revert i; decide) (by intro hh; revert i; decide), h.sched i hi]
    simp only [early, List.mem_cons, List.not_mem_nil, or_false] at hi
    rcases hi with rfl | rfl | rfl | rfl | rfl | rfl | rfl | rfl
    exacts [w16.symm, w18.symm, w19.symm, w21.symm, w22.symm, w24.symm, w27.symm, w30.symm]
  · rw [h.alpha]
    simp only [rounds, w _ (show (0 : Nat) < 16 by omega) (by omega) (by omega), w 1 (by omega) (by omega) (by omega),
      w (0 + 1 + 1) (by omega) (by omega) (by omega),
      w (0 + 1 + 1 + 1) (by omega) (by omega) (by omega), w (0 + 1 + 1 + 1 + 1) (by omega) (by omega) (by omega),
      w (0 + 1 + 1 + 1 + 1 + 1) (by omega) (by omega) (by omega),
      w (0 + 1 + 1 + 1 + 1 + 1 + 1) (by omega) (by omega) (by omega),
      w (0 + 1 + 1 + 1 + 1 + 1 + 1 + 1) (by omega) (by omega) (by omega),
      w (0 + 1 + 1 + 1 + 1 + 1 + 1 + 1 + 1) (by omega) (by omega) (by omega)]

theorem light_agree (mode : Mode) (o : Obj) (alpha : Alpha) (op : LightOp) (i : Nat) (hi : i < 32)
    (h : i ∉ [9, 12, 17, 20, 23, 25, 26, 28, 29, 31]) : ((op.op alpha).run mode o).data i = o.data i := by
  cases op with
  | setButton b => exact Mem.set_ne _ _ (by rintro rfl; simp at h)
  | setTime hh m s =>
    simp only [LightOp.op, Op.run]
    cases e : setTime o hh m s with
    | error => rfl
    | ok o' =>
      obtain ⟨v, rfl⟩ := setTime_cases o o' hh m s e
      exact Mem.set_ne _ _ (by rintro rfl; simp at h)
  | hashSeed => exact hash_frame mode o alpha i hi (by simp at h ⊢; omega)

/-- C39: construct an object, call any methods, then `alpha = precompute()`, then any `set_time`, `set_button` and
`hash_seed(alpha)` calls: `hash_seed(alpha)` is still the Gen 5 seed of the SHA-1 digest of the current message. -/
theorem C39_history (mode : Mode) (junk : Mem) (version : Version) (language : Language) (dsType : DSType)
    (mac : BitVec 64) (softReset : Bool) (vFrame gxState : BitVec 8) (ops : List Op) (light : List LightOp) :
    let o := ops.foldl (Op.run mode) (new mode junk version language dsType mac softReset vFrame gxState)
    let alpha := (precompute mode o).2
    let o' := (light.map (LightOp.op alpha)).foldl (Op.run mode) (precompute mode o).1
    (hashSeed mode o' alpha).2 = gen5Seed (sha1 (message o')) := by
  intro o alpha o'
  have hf : ∀ i ∈ fixedWords, o'.data i = _ := history_fixed mode (ops ++ [.precompute] ++ light.map (LightOp.op alpha))
    (new mode junk version language dsType mac softReset vFrame gxState) |> fun h i hi => by
      have := h i hi
      rw [List.foldl_append, List.foldl_append] at this
      exact this
  have hf0 := history_fixed mode ops (new mode junk version language dsType mac softReset vFrame gxState)
  obtain ⟨-, -, p13, p14, p15⟩ := new_padding mode junk version language dsType mac softReset vFrame gxState
  rw [sha1_message o' ((hf 13 (by decide)).trans p13) ((hf 14 (by decide)).trans p14) ((hf 15 (by decide)).trans p15)]
  apply hash_valid
  have h0 : Valid (precompute mode o).1.data alpha := by
    apply precompute_valid
    rw [W_ge _ (by omega), W_lt _ (by omega), W_lt _ (by omega), W_lt _ (by omega), W_lt _ (by omega)]
    have e18 := new_18 mode junk version language dsType mac softReset vFrame gxState
    have h2 : o.data 2 = _ := hf0 2 (by decide)
    have h4 : o.data 4 = _ := hf0 4 (by decide)
    have h10 : o.data 10 = _ := hf0 10 (by decide)
    have h15 : o.data 15 = _ := hf0 15 (by decide)
    have h18 : o.data 18 = _ := hf0 18 (by decide)
    rw [h18, e18, h2, h4, h10, h15]
  have go : ∀ (l : List LightOp) (q : Obj), Valid q.data alpha →
      Valid ((l.map (LightOp.op alpha)).foldl (Op.run mode) q).data alpha := by
    intro l
    induction l with
    | nil => intro q h; exact h
    | cons op l ih =>
      intro q h
      rw [List.map_cons, List.foldl_cons]
      exact ih _ (valid_of_agree h (light_agree mode q alpha op))
  exact go light _ h0

/-- The restriction to `set_time`/`set_button` is needed: changing the date after `precompute` makes `alpha` stale. -/
theorem C39_date_makes_stale :
    let o := new .numba ⟨fun _ => 0⟩ .black .english .ds 0x9BF123456 false 6 6
    let p := precompute .numba o
    let o' := Op.run .numba p.1 (.setDate 2010 1 1 5)
    (hashSeed .numba o' p.2).2 ≠ (hashSeed .numba (precompute .numba o').1 (precompute .numba o').2).2 := by
  decide +kernel

/-! ### C40 -/

open Verif.Util (byte)

/-- reading a binary-coded decimal byte -/
def unbcd (b : BitVec 8) : Nat := 10 * (b.toNat / 16) + b.toNat % 16

theorem bcd_ok (n : Nat) (h : n < 100) :
    ∃ b : BitVec 8, bcd n = .ok (b.setWidth 32) ∧ unbcd b = n ∧ b.toNat % 16 < 10 ∧ b.toNat / 16 = n / 10 := by
  refine ⟨BitVec.ofNat 8 ((n / 10) <<< 4 ||| n % 10), ?_⟩
  revert n
  decide +kernel

theorem pack_bytes (a b c d : BitVec 8) :
    byte ((a.setWidth 32 <<< 24) ||| (b.setWidth 32 <<< 16) ||| (c.setWidth 32 <<< 8) ||| d.setWidth 32) 3 = a ∧
    byte ((a.setWidth 32 <<< 24) ||| (b.setWidth 32 <<< 16) ||| (c.setWidth 32 <<< 8) ||| d.setWidth 32) 2 = b ∧
    byte ((a.setWidth 32 <<< 24) ||| (b.setWidth 32 <<< 16) ||| (c.setWidth 32 <<< 8) ||| d.setWidth 32) 1 = c ∧
    byte ((a.setWidth 32 <<< 24) ||| (b.setWidth 32 <<< 16) ||| (c.setWidth 32 <<< 8) ||| d.setWidth 32) 0 = d := by
  refine ⟨?_, ?_, ?_, ?_⟩
  all_goals
    apply BitVec.eq_of_getLsbD_eq
    intro i hi
    simp only [byte, BitVec.getLsbD_extractLsb', BitVec.getLsbD_or, BitVec.getLsbD_shiftLeft, BitVec.getLsbD_setWidth]
    interval_cases i <;> simp

/-- C40: the date word holds year (since 2000), month and day in binary-coded decimal and the day of the week; nothing
else changes. -/
theorem C40_date (o : Obj) (year : BitVec 16) (month day dayOfWeek : BitVec 8)
    (hy : 2000 ≤ year.toNat ∧ year.toNat < 2100) (hm : month.toNat < 100) (hd : day.toNat < 100) :
    ∃ o', setDate o year month day dayOfWeek = .ok o' ∧
      2000 + unbcd (byte (o'.data 8) 3) = year.toNat ∧ unbcd (byte (o'.data 8) 2) = month.toNat ∧
      unbcd (byte (o'.data 8) 1) = day.toNat ∧ byte (o'.data 8) 0 = dayOfWeek ∧
      (∀ i, i ≠ 8 → o'.data i = o.data i) ∧ o'.dsType = o.dsType := by
  have ey : (year - 2000).toNat = year.toNat - 2000 := by
    rw [BitVec.toNat_sub, show (2000 : BitVec 16).toNat = 2000 by rfl]
    omega
  obtain ⟨by', e1, d1, -⟩ := bcd_ok (year - 2000).toNat (by omega)
  obtain ⟨bm, e2, d2, -⟩ := bcd_ok month.toNat hm
  obtain ⟨bd, e3, d3, -⟩ := bcd_ok day.toNat hd
  obtain ⟨p3, p2, p1, p0⟩ := pack_bytes by' bm bd dayOfWeek
  refine ⟨_, by rw [setDate, e1, e2, e3]; rfl, ?_⟩
  simp only [Mem.set_same, p3, p2, p1, p0, d1, d2, d3]
  refine ⟨by omega, trivial, trivial, trivial, fun i hi => Mem.set_ne _ _ hi, trivial⟩

/-- Different dates give different message words. -/
theorem C40_date_injective (o o1 o2 : Obj) (y y' : BitVec 16) (m m' d d' w w' : BitVec 8)
    (hy : 2000 ≤ y.toNat ∧ y.toNat < 2100) (hm : m.toNat < 100) (hd : d.toNat < 100)
    (hy' : 2000 ≤ y'.toNat ∧ y'.toNat < 2100) (hm' : m'.toNat < 100) (hd' : d'.toNat < 100)
    (h1 : setDate o y m d w = .ok o1) (h2 : setDate o y' m' d' w' = .ok o2) (h : o1.data 8 = o2.data 8) :
    y = y' ∧ m = m' ∧ d = d' ∧ w = w' := by
  obtain ⟨q1, f1, a1, b1, c1, e1, -⟩ := C40_date o y m d w hy hm hd
  obtain ⟨q2, f2, a2, b2, c2, e2, -⟩ := C40_date o y' m' d' w' hy' hm' hd'
  rw [h1] at f1
  rw [h2] at f2
  cases f1
  cases f2
  rw [h] at a1 b1 c1 e1
  exact ⟨BitVec.eq_of_toNat_eq (by omega), BitVec.eq_of_toNat_eq (by omega), BitVec.eq_of_toNat_eq (by omega),
    by rw [← e1, ← e2]⟩

/-- C40: the time word holds hour, minute, second in binary-coded decimal; bit 6 of the hour byte is set exactly for
hours from 12 on a console other than the 3DS; nothing else changes. -/
theorem C40_time (o : Obj) (hour minute second : BitVec 8) (hh : hour.toNat < 24) (hm : minute.toNat < 60)
    (hs : second.toNat < 60) :
    ∃ o', setTime o hour minute second = .ok o' ∧
      unbcd (byte (o'.data 9) 3 &&& 0x3F) = hour.toNat ∧
      ((byte (o'.data 9) 3).getLsbD 6 = true ↔ 12 ≤ hour.toNat ∧ o.dsType ≠ .ds3) ∧
      (byte (o'.data 9) 3).getLsbD 7 = false ∧
      unbcd (byte (o'.data 9) 2) = minute.toNat ∧ unbcd (byte (o'.data 9) 1) = second.toNat ∧ byte (o'.data 9) 0 = 0 ∧
      (∀ i, i ≠ 9 → o'.data i = o.data i) ∧ o'.dsType = o.dsType := by
  obtain ⟨bh, e1, d1, n1, t1⟩ := bcd_ok hour.toNat (by omega)
  obtain ⟨bm, e2, d2, -⟩ := bcd_ok minute.toNat (by omega)
  obtain ⟨bs, e3, d3, -⟩ := bcd_ok second.toNat (by omega)
  have hb : bh.toNat < 64 := by unfold unbcd at d1; omega
  have hge : (hour ≥ 12) ↔ 12 ≤ hour.toNat := by
    rw [ge_iff_le, BitVec.le_def]; rfl
  have key : ∀ pm : Prop, [Decidable pm] →
      (bh.setWidth 32 + if pm then 0x40 else 0 : BitVec 32) = (bh + if pm then 0x40 else 0 : BitVec 8).setWidth 32 ∧
      ((bh + if pm then 0x40 else 0 : BitVec 8) &&& 0x3F) = bh ∧
      ((bh + if pm then 0x40 else 0 : BitVec 8).getLsbD 6 = true ↔ pm) ∧
      (bh + if pm then 0x40 else 0 : BitVec 8).getLsbD 7 = false := by
    intro pm _
    clear e1 d1 n1 t1
    by_cases h : pm
    · simp only [h, if_true, iff_true]
      revert bh
      decide +kernel
    · simp only [h, if_false, iff_false]
      revert bh
      decide +kernel
  obtain ⟨k1, k2, k3, k4⟩ := key (hour ≥ 12 ∧ o.dsType ≠ .ds3)
  obtain ⟨p3, p2, p1, p0⟩ := pack_bytes (bh + if hour ≥ 12 ∧ o.dsType ≠ .ds3 then 0x40 else 0 : BitVec 8) bm bs 0
  have z : ∀ x : BitVec 32, x ||| (0 : BitVec 8).setWidth 32 = x := by intro x; simp
  rw [z] at p3 p2 p1 p0
  refine ⟨_, by rw [setTime, e1, e2, e3]; rfl, ?_⟩
  simp only [Mem.set_same, k1, p3, p2, p1, p0, d1, d2, d3, k2, k3, k4, ← hge]
  refine ⟨trivial, trivial, trivial, trivial, trivial, trivial, fun i hi => Mem.set_ne _ _ hi, trivial⟩

/-- Different times give different message words. -/
theorem C40_time_injective (o o1 o2 : Obj) (h h' m m' s s' : BitVec 8) (hh : h.toNat < 24) (hm : m.toNat < 60)
    (hs : s.toNat < 60) (hh' : h'.toNat < 24) (hm' : m'.toNat < 60) (hs' : s'.toNat < 60)
    (h1 : setTime o h m s = .ok o1) (h2 : setTime o h' m' s' = .ok o2) (e : o1.data 9 = o2.data 9) :
    h = h' ∧ m = m' ∧ s = s' := by
  obtain ⟨q1, f1, a1, -, -, b1, c1, -⟩ := C40_time o h m s hh hm hs
  obtain ⟨q2, f2, a2, -, -, b2, c2, -⟩ := C40_time o h' m' s' hh' hm' hs'
  rw [h1] at f1
  rw [h2] at f2
  cases f1
  cases f2
  rw [e] at a1 b1 c1
  exact ⟨BitVec.eq_of_toNat_eq (by omega), BitVec.eq_of_toNat_eq (by omega), BitVec.eq_of_toNat_eq (by omega)⟩

/-- Values that have no two-digit BCD form raise; the object is not changed. -/
theorem C40_out_of_range (o : Obj) (year : BitVec 16) (month day dayOfWeek : BitVec 8)
    (h : year.toNat < 2000 ∨ 2100 ≤ year.toNat ∨ 100 ≤ month.toNat ∨ 100 ≤ day.toNat) :
    setDate o year month day dayOfWeek = .error .indexError := by
  have bad : ∀ n, ¬ n < 100 → bcd n = .error .indexError := fun n hn => if_neg hn
  have e2000 : (2000 : BitVec 16).toNat = 2000 := rfl
  have hy := year.isLt
  have sub : (year - 2000).toNat = (65536 - 2000 + year.toNat) % 65536 := by rw [BitVec.toNat_sub, e2000]
  unfold setDate
  by_cases g1 : (year - 2000).toNat < 100
  · obtain ⟨b1, e1, -⟩ := bcd_ok _ g1
    by_cases g2 : month.toNat < 100
    · obtain ⟨b2, e2, -⟩ := bcd_ok _ g2
      rw [e1, e2, bad day.toNat (by omega)]
      rfl
    · rw [e1, bad _ g2]; rfl
  · rw [bad _ g1]; rfl

/-! ### C41 -/

/-- C41: contents of the message words after construction, byte by byte (`mac` bytes 0 = least significant). -/
theorem C41_words (mode : Mode) (junk : Mem) (version : Version) (language : Language) (dsType : DSType)
    (mac : BitVec 64) (softReset : Bool) (vFrame gxState : BitVec 8) :
    let o := new mode junk version language dsType mac softReset vFrame gxState
    let n := getNazo version language dsType
    let macByte := fun k => mac.extractLsb' (8 * k) 8
    o.dsType = dsType ∧
    [o.data 0, o.data 1, o.data 2, o.data 3, o.data 4] = [n.n0, n.n1, n.n2, n.n3, n.n4] ∧
    (byte (o.data 6) 0 = macByte 0 ∧ byte (o.data 6) 1 = macByte 1 ∧ byte (o.data 6) 2 = 0 ∧
      byte (o.data 6) 3 = if softReset then 1 else 0) ∧
    (byte (o.data 7) 0 = macByte 2 ^^^ gxState ∧ byte (o.data 7) 1 = macByte 3 ∧ byte (o.data 7) 2 = macByte 4 ∧
      byte (o.data 7) 3 = macByte 5 ^^^ vFrame) ∧
    (o.data 10 = 0 ∧ o.data 11 = 0) ∧
    beBytes (o.data 13) ++ beBytes (o.data 14) ++ beBytes (o.data 15) = (pad (List.replicate 52 0)).drop 52 := by
  intro o n macByte
  obtain ⟨p10, p11, p13, p14, p15⟩ := new_padding mode junk version language dsType mac softReset vFrame gxState
  have e6 : o.data 6 = if softReset then (mac &&& 0xFFFF).setWidth 32 ^^^ 0x1000000 else (mac &&& 0xFFFF).setWidth 32 := by
    show (new ..).data 6 = _
    cases softReset <;> simp [new, Mem.set]
  have e7 : o.data 7 = (mac >>> 16).setWidth 32 ^^^ (vFrame.setWidth 32 <<< 24) ^^^ gxState.setWidth 32 := by
    show (new ..).data 7 = _
    cases softReset <;> simp [new, Mem.set]
  refine ⟨rfl, ?_, ?_, ?_, ⟨p10, p11⟩, ?_⟩
  · show [(new ..).data 0, (new ..).data 1, (new ..).data 2, (new ..).data 3, (new ..).data 4] = _
    cases softReset <;> simp [new, Mem.set, n]
  · rw [e6]
    refine ⟨?_, ?_, ?_, ?_⟩
    all_goals
      apply BitVec.eq_of_getLsbD_eq
      intro i hi
      cases softReset <;>
      simp only [byte, macByte, BitVec.getLsbD_extractLsb', BitVec.getLsbD_xor, BitVec.getLsbD_and,
        BitVec.getLsbD_setWidth, if_true, if_false, Bool.false_eq_true] <;>
      interval_cases i <;> simp
  · rw [e7]
    refine ⟨?_, ?_, ?_, ?_⟩
    all_goals
      apply BitVec.eq_of_getLsbD_eq
      intro i hi
      simp only [byte, macByte, BitVec.getLsbD_extractLsb', BitVec.getLsbD_xor,
        BitVec.getLsbD_setWidth, BitVec.getLsbD_shiftLeft, BitVec.getLsbD_ushiftRight]
      interval_cases i <;> simp
  · show beBytes ((new ..).data 13) ++ beBytes ((new ..).data 14) ++ beBytes ((new ..).data 15) = _
    rw [p13, p14, p15]
    decide +kernel

/-- C41: the nazo words depend on the console only through "DS or not". -/
theorem C41_console (version : Version) (language : Language) (t t' : DSType) (h : t = .ds ↔ t' = .ds) :
    getNazo version language t = getNazo version language t' := by
  cases t <;> cases t' <;> first | rfl | simp at h

/-- C41: zeros for every other game. -/
theorem C41_other (language : Language) (t : DSType) :
    getNazo .other language t = { n0 := 0, n1 := 0, n2 := 0, n3 := 0, n4 := 0 } := by
  cases language <;> rfl

/-- C41: shape of the nazo words, as numbers in the game's byte order: Black/White repeat `n + 0xFC` and `n + 0x148`
after `n`; Black 2/White 2 repeat `n + 0x54` after two other words and `n`. -/
theorem C41_shape (language : Language) (t : DSType) :
    (∀ v, v = .black ∨ v = .white → let n := getNazo v language t
      changeEndian n.n1 = changeEndian n.n0 + 0xFC ∧ n.n2 = n.n1 ∧
      changeEndian n.n3 = changeEndian n.n0 + 0x148 ∧ n.n4 = n.n3) ∧
    (∀ v, v = .black2 ∨ v = .white2 → let n := getNazo v language t
      changeEndian n.n3 = changeEndian n.n2 + 0x54 ∧ n.n4 = n.n3) := by
  constructor
  · rintro v (rfl | rfl) <;> cases language <;> cases t <;> decide +kernel
  · rintro v (rfl | rfl) <;> cases language <;> cases t <;> decide +kernel

/-- C41: for Black 2/White 2, a different version, language or DS/not-DS always means different nazo words. (Several
Black/White entries of the source coincide, e.g. Korean Black and White.) -/
theorem C41_distinct (v v' : Version) (l l' : Language) (t t' : DSType) (hv : v = .black2 ∨ v = .white2)
    (hv' : v' = .black2 ∨ v' = .white2) (h : getNazo v l t = getNazo v' l' t') :
    v = v' ∧ l = l' ∧ (t = .ds ↔ t' = .ds) := by
  have all : ∀ v ∈ [Version.black2, .white2],
      ∀ l ∈ [Language.english, .french, .german, .italian, .japanese, .korean, .spanish], ∀ t ∈ [DSType.ds, .dsi, .ds3],
      ∀ v' ∈ [Version.black2, .white2],
      ∀ l' ∈ [Language.english, .french, .german, .italian, .japanese, .korean, .spanish],
      ∀ t' ∈ [DSType.ds, .dsi, .ds3], getNazo v l t = getNazo v' l' t' →
        v = v' ∧ l = l' ∧ decide (t = .ds) = decide (t' = .ds) := by
    decide +kernel
  obtain ⟨h1, h2, h3⟩ := all v (by simpa using hv) l (by cases l <;> simp) t (by cases t <;> simp)
    v' (by simpa using hv') l' (by cases l' <;> simp) t' (by cases t' <;> simp) h
  exact ⟨h1, h2, by simpa using h3⟩

/-- C41: for each game and language the DS words differ from the DSi/3DS words. -/
theorem C41_ds_differs (v : Version) (l : Language) (hv : v ≠ .other) : getNazo v l .ds ≠ getNazo v l .dsi := by
  cases v <;> cases l <;> first | decide +kernel | exact absurd rfl hv

/-! ### C87: the table of addresses -/

/-- the main address of an entry: the first word for Black/White, the third for Black 2/White 2 -/
def mainAddress (v : Version) (l : Language) (t : DSType) : Nat :=
  let n := getNazo v l t
  (changeEndian (if v = .black2 ∨ v = .white2 then n.n2 else n.n0)).toNat

/-- the address lies in the main memory of a DS game, or in the higher area used on the DSi -/
def InArea (t : DSType) (a : Nat) : Prop :=
  if t = .ds then 0x021F0000 ≤ a ∧ a < 0x02220000 else 0x02760000 ≤ a ∧ a < 0x027B0000

instance : Decidable (InArea t a) := by unfold InArea; infer_instance

/-- C87 in full: every address belongs to the console it is listed for. -/
def C87_full : Prop := ∀ v l t, v ≠ .other → InArea t (mainAddress v l t)

/-- C87 is false: the Korean Black 2 entry for the DSi has an address of the DS area, that of Korean White 2 on the DS. -/
theorem C87_full_false : ¬ C87_full := fun h =>
  absurd (h .black2 .korean .dsi (by decide)) (by decide +kernel)

theorem C87_korean : mainAddress .black2 .korean .dsi = mainAddress .white2 .korean .ds := by decide +kernel

/-- C87 (partial): every other entry is right. -/
theorem C87_partial (v : Version) (l : Language) (t : DSType) (hv : v ≠ .other)
    (h : ¬ (v = .black2 ∧ l = .korean ∧ t ≠ .ds)) : InArea t (mainAddress v l t) := by
  cases v <;> cases l <;> cases t <;> first | decide +kernel | exact absurd rfl hv | simp at h

/-- C87 (the entries of a language fit together): White on the DS lies 0x20 above Black, or at the same address (Spanish,
Korean); Black 2 and White 2 have the same distance between first word and DS address, second words 0x2C apart, and first
and second words that do not depend on the console. -/
theorem C87_consistent (l : Language) :
    mainAddress .white l .ds = mainAddress .black l .ds + (if l = .spanish ∨ l = .korean then 0 else 0x20) ∧
    (∀ t, mainAddress .white l t = mainAddress .black l t + (if l = .english ∨ l = .french then 0x20 else 0) ∨ t = .ds) ∧
    (mainAddress .white2 l .ds - (changeEndian (getNazo .white2 l .ds).n0).toNat =
      mainAddress .black2 l .ds - (changeEndian (getNazo .black2 l .ds).n0).toNat) ∧
    (changeEndian (getNazo .white2 l .ds).n1).toNat = (changeEndian (getNazo .black2 l .ds).n1).toNat + 0x2C ∧
    ∀ t, ∀ v, v = .black2 ∨ v = .white2 →
      (getNazo v l t).n0 = (getNazo v l .ds).n0 ∧ (getNazo v l t).n1 = (getNazo v l .ds).n1 := by
  refine ⟨?_, ?_, ?_, ?_, ?_⟩
  · cases l <;> decide +kernel
  · intro t; cases l <;> cases t <;> decide +kernel
  · cases l <;> decide +kernel
  · cases l <;> decide +kernel
  · rintro t v (rfl | rfl) <;> cases l <;> cases t <;> decide +kernel

/-! ### Concrete instances -/

/-- an object as in tests/_test_sha1.py -/
def exampleObj : Obj :=
  [Op.setButton 0xFF2F0000, .setTimer0 0x666 0x3F, .setDate 2067 10 31 1, .setTime 16 12 20].foldl (Op.run .numba)
    (new .numba ⟨fun _ => 0xDEADBEEF⟩ .black .english .ds 0x9BF123456 false 6 6)

/-- C38/C39 are about values such as this one (the first expected value of the repository's test). -/
example : (hashSeed .numba (precompute .numba exampleObj).1 (precompute .numba exampleObj).2).2 =
    14644003586327074781#64 := by
  decide +kernel

example : gen5Seed (sha1 (message exampleObj)) = 14644003586327074781#64 := by
  have h := C38_history .numba ⟨fun _ => 0xDEADBEEF⟩ .black .english .ds 0x9BF123456 false 6 6
    [Op.setButton 0xFF2F0000, .setTimer0 0x666 0x3F, .setDate 2067 10 31 1, .setTime 16 12 20]
  refine Eq.trans h.symm ?_
  decide +kernel

example : exampleObj.data 18 = W exampleObj.data 18 := by
  rw [W_ge _ (by omega), W_lt _ (by omega), W_lt _ (by omega), W_lt _ (by omega), W_lt _ (by omega)]
  decide +kernel

example : (2000 ≤ (2067 : BitVec 16).toNat ∧ (2067 : BitVec 16).toNat < 2100) ∧ (10 : BitVec 8).toNat < 100 ∧
    (31 : BitVec 8).toNat < 100 := by decide
example : exampleObj.data 8 = 0x67103101 ∧ exampleObj.data 9 = 0x56122000 := by decide +kernel
example : getNazo .black .english .dsi = getNazo .black .english .ds3 ∧
    getNazo .black .english .ds ≠ getNazo .black .english .dsi := by decide +kernel

end Verif.Sha1
