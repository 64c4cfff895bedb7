import Verif.Props.Sha1
/-
C95: the message that is hashed, byte by byte, after any sequence of calls.
-/
namespace Verif.Sha1
open Spec.Sha1

/-! ### the settings in force -/

/-- the button word set by a call -/
def Op.button : Op → Option (BitVec 32)
  | .setButton b => some b
  | _ => none

/-- the timer values set by a call -/
def Op.timer : Op → Option (BitVec 32 × BitVec 8)
  | .setTimer0 t v => some (t, v)
  | _ => none

/-- the date (year, month, day, day of week) set by a call; a date without two-digit parts is refused -/
def Op.date : Op → Option (Nat × Nat × Nat × BitVec 8)
  | .setDate y m d w =>
    if 2000 ≤ y.toNat ∧ y.toNat < 2100 ∧ m.toNat < 100 ∧ d.toNat < 100 then some (y.toNat, m.toNat, d.toNat, w) else none
  | _ => none

/-- the time set by a call; a time without two-digit parts is refused -/
def Op.time : Op → Option (Nat × Nat × Nat)
  | .setTime h m s =>
    if h.toNat < 100 ∧ m.toNat < 100 ∧ s.toNat < 100 then some (h.toNat, m.toNat, s.toNat) else none
  | _ => none

/-- the last value set in a sequence of calls -/
def last (f : Op → Option α) (ops : List Op) : Option α := (ops.filterMap f).getLast?

/-- two decimal digits in one byte -/
def digits (n : Nat) : BitVec 8 := BitVec.ofNat 8 (16 * (n / 10) + n % 10)

/-- byte `k` of the MAC address, 0 is the least significant -/
def macByte (mac : BitVec 64) (k : Nat) : BitVec 8 := BitVec.ofNat 8 (mac.toNat / 2 ^ (8 * k))

/-- the 52 bytes of the message -/
def specMessage (n : Nazo) (dsType : DSType) (mac : BitVec 64) (softReset : Bool) (vFrame gxState : BitVec 8)
    (button : BitVec 32) (timer : BitVec 32 × BitVec 8) (date : Nat × Nat × Nat × BitVec 8) (time : Nat × Nat × Nat) :
    List (BitVec 8) :=
  beBytes n.n0 ++ beBytes n.n1 ++ beBytes n.n2 ++ beBytes n.n3 ++ beBytes n.n4 ++
  [BitVec.ofNat 8 timer.1.toNat, BitVec.ofNat 8 (timer.1.toNat / 256), timer.2, 0] ++
  [if softReset then 1 else 0, 0, macByte mac 1, macByte mac 0] ++
  [macByte mac 5 ^^^ vFrame, macByte mac 4, macByte mac 3, macByte mac 2 ^^^ gxState] ++
  [digits (date.1 - 2000), digits date.2.1, digits date.2.2.1, date.2.2.2] ++
  [digits time.1 + (if 12 ≤ time.1 ∧ dsType ≠ .ds3 then 0x40 else 0), digits time.2.1, digits time.2.2, 0] ++
  [0, 0, 0, 0, 0, 0, 0, 0] ++ beBytes button

/-! ### words after a history -/

theorem run_dsType (mode : Mode) (o : Obj) (op : Op) : (op.run mode o).dsType = o.dsType := by
  cases op with
  | setDate y m d w =>
    simp only [Op.run]
    cases e : Sha1.setDate o y m d w with
    | error => rfl
    | ok o' => obtain ⟨v, rfl⟩ := setDate_cases o o' y m d w e; rfl
  | setTime h m s =>
    simp only [Op.run]
    cases e : Sha1.setTime o h m s with
    | error => rfl
    | ok o' => obtain ⟨v, rfl⟩ := setTime_cases o o' h m s e; rfl
  | _ => rfl

theorem history_dsType (mode : Mode) (ops : List Op) : ∀ o : Obj, (ops.foldl (Op.run mode) o).dsType = o.dsType := by
  induction ops with
  | nil => intro o; rfl
  | cons op ops ih => intro o; rw [List.foldl_cons, ih, run_dsType]

theorem last_cons (f : Op → Option α) (op : Op) (ops : List Op) :
    last f (op :: ops) = (last f ops).or (f op) := by
  unfold last
  cases h : f op with
  | none => rw [List.filterMap_cons_none h, Option.or_none]
  | some a =>
    rw [List.filterMap_cons_some h]
    rcases hl : List.filterMap f ops with _ | ⟨b, l⟩
    · rfl
    · rw [List.getLast?_cons_cons]
      have : (b :: l).getLast? = some ((b :: l).getLast (by simp)) := List.getLast?_eq_some_getLast _
      rw [this]; rfl

/-- Word `i` is what the last call that sets it says. -/
theorem history_word (mode : Mode) (i : Nat) (f : Op → Option α) (word : DSType → α → BitVec 32)
    (h : ∀ (o : Obj) (op : Op), (op.run mode o).data i = ((f op).map (word o.dsType)).getD (o.data i)) (ops : List Op) :
    ∀ o : Obj, (ops.foldl (Op.run mode) o).data i = ((last f ops).map (word o.dsType)).getD (o.data i) := by
  induction ops with
  | nil => intro o; rfl
  | cons op ops ih =>
    intro o
    rw [List.foldl_cons, ih, run_dsType, h, last_cons]
    cases last f ops with
    | none => cases f op <;> rfl
    | some a => rfl

theorem run_frame (mode : Mode) (o : Obj) (op : Op) (i : Nat) (hi : i < 16)
    (h : (∀ b, op ≠ .setButton b) ∨ i ≠ 12) (h5 : (∀ t v, op ≠ .setTimer0 t v) ∨ i ≠ 5)
    (h8 : (∀ y m d w, op ≠ .setDate y m d w) ∨ i ≠ 8) (h9 : (∀ x m s, op ≠ .setTime x m s) ∨ i ≠ 9) :
    (op.run mode o).data i = o.data i := by
  cases op with
  | setButton b =>
    rcases h with h | h
    · exact absurd rfl (h b)
    · exact Mem.set_ne _ _ h
  | setTimer0 t v =>
    rcases h5 with h | h
    · exact absurd rfl (h t v)
    · exact Mem.set_ne _ _ h
  | setDate y m d w =>
    rcases h8 with h | h
    · exact absurd rfl (h y m d w)
    · simp only [Op.run]
      cases e : Sha1.setDate o y m d w with
      | error => rfl
      | ok o' => obtain ⟨v, rfl⟩ := setDate_cases o o' y m d w e; exact Mem.set_ne _ _ h
  | setTime x m s =>
    rcases h9 with h | h
    · exact absurd rfl (h x m s)
    · simp only [Op.run]
      cases e : Sha1.setTime o x m s with
      | error => rfl
      | ok o' => obtain ⟨v, rfl⟩ := setTime_cases o o' x m s e; exact Mem.set_ne _ _ h
  | precompute => exact precompute_frame mode o i (by simp; omega)
  | hashSeed alpha => exact hash_frame mode o alpha i (by omega) (by simp; omega)

theorem bcd_digits (n : Nat) (h : n < 100) : bcd n = .ok ((digits n).setWidth 32) := by
  revert n; decide +kernel

theorem bcd_error (n : Nat) (h : ¬ n < 100) : bcd n = .error .indexError := if_neg h

/-- four bytes as a word -/
def ofBytes (a b c d : BitVec 8) : BitVec 32 :=
  (a.setWidth 32 <<< 24) ||| (b.setWidth 32 <<< 16) ||| (c.setWidth 32 <<< 8) ||| d.setWidth 32

theorem beBytes_ofBytes (a b c d : BitVec 8) : beBytes (ofBytes a b c d) = [a, b, c, d] := by
  obtain ⟨h3, h2, h1, h0⟩ := pack_bytes a b c d
  show [_, _, _, _] = [_, _, _, _]
  exact congrArg₂ _ h3 (congrArg₂ _ h2 (congrArg₂ _ h1 (congrArg₂ _ h0 rfl)))

theorem run_button (mode : Mode) (o : Obj) (op : Op) :
    (op.run mode o).data 12 = ((op.button).map fun b => b).getD (o.data 12) := by
  cases op with
  | setButton b => exact Mem.set_same _ _ _
  | _ => exact run_frame mode o _ 12 (by omega) (.inl fun _ => by simp) (.inr (by omega)) (.inr (by omega)) (.inr (by omega))

theorem run_timer (mode : Mode) (o : Obj) (op : Op) : (op.run mode o).data 5 =
    ((op.timer).map fun x : BitVec 32 × BitVec 8 => Util.changeEndian ((x.2.setWidth 32 <<< 16) ||| x.1)).getD (o.data 5) := by
  cases op with
  | setTimer0 t v => exact Mem.set_same o.data 5 _
  | _ => exact run_frame mode o _ 5 (by omega) (.inr (by omega)) (.inl fun _ _ => by simp) (.inr (by omega)) (.inr (by omega))

theorem run_date (mode : Mode) (o : Obj) (op : Op) : (op.run mode o).data 8 =
    ((op.date).map fun x => ofBytes (digits (x.1 - 2000)) (digits x.2.1) (digits x.2.2.1) x.2.2.2).getD (o.data 8) := by
  cases op with
  | setDate y m d w =>
    have hs : (2000 : BitVec 16).toNat = 2000 := rfl
    have hy := y.isLt
    by_cases h : 2000 ≤ y.toNat ∧ y.toNat < 2100 ∧ m.toNat < 100 ∧ d.toNat < 100
    · have e : (y - 2000).toNat = y.toNat - 2000 := by rw [BitVec.toNat_sub, hs]; omega
      have hd : Sha1.setDate o y m d w = .ok
          ⟨o.data.set 8 (ofBytes (digits (y.toNat - 2000)) (digits m.toNat) (digits d.toNat) w), o.dsType⟩ := by
        rw [Sha1.setDate, e, bcd_digits _ (by omega), bcd_digits _ h.2.2.1, bcd_digits _ h.2.2.2]; rfl
      simp only [Op.run, Op.date, hd, if_pos h]
      exact Mem.set_same _ _ _
    · simp only [Op.run, Op.date, if_neg h, C40_out_of_range o y m d w (by omega)]
      rfl
  | _ => exact run_frame mode o _ 8 (by omega) (.inr (by omega)) (.inr (by omega)) (.inl fun _ _ _ _ => by simp) (.inr (by omega))

theorem digits_add (n : Nat) (h : n < 100) : (digits n).setWidth 32 + (0x40 : BitVec 32) = (digits n + 0x40 : BitVec 8).setWidth 32 := by
  revert n; decide +kernel

theorem run_time (mode : Mode) (o : Obj) (op : Op) : (op.run mode o).data 9 =
    ((op.time).map fun x => ofBytes (digits x.1 + (if 12 ≤ x.1 ∧ o.dsType ≠ .ds3 then 0x40 else 0)) (digits x.2.1)
      (digits x.2.2) 0).getD (o.data 9) := by
  cases op with
  | setTime x m s =>
    have hge : (x ≥ 12 ∧ o.dsType ≠ .ds3) ↔ (12 ≤ x.toNat ∧ o.dsType ≠ .ds3) := by
      rw [ge_iff_le, BitVec.le_def]; rfl
    by_cases h : x.toNat < 100 ∧ m.toNat < 100 ∧ s.toNat < 100
    · have hd : Sha1.setTime o x m s = .ok ⟨o.data.set 9
          (ofBytes (digits x.toNat + (if 12 ≤ x.toNat ∧ o.dsType ≠ .ds3 then 0x40 else 0)) (digits m.toNat) (digits s.toNat) 0),
          o.dsType⟩ := by
        rw [Sha1.setTime, bcd_digits _ h.1, bcd_digits _ h.2.1, bcd_digits _ h.2.2]
        show Except.ok _ = _
        have : ((digits x.toNat).setWidth 32 + (if x ≥ 12 ∧ o.dsType ≠ .ds3 then (0x40 : BitVec 32) else 0)) =
            (digits x.toNat + (if 12 ≤ x.toNat ∧ o.dsType ≠ .ds3 then (0x40 : BitVec 8) else 0)).setWidth 32 := by
          by_cases hc : 12 ≤ x.toNat ∧ o.dsType ≠ .ds3
          · rw [if_pos hc, if_pos (hge.mpr hc), digits_add _ h.1]
          · rw [if_neg hc, if_neg (fun hx => hc (hge.mp hx)), add_zero, add_zero]
        rw [this]
        unfold ofBytes
        have z : ∀ v : BitVec 32, v ||| (0 : BitVec 8).setWidth 32 = v := by intro v; simp
        rw [z]
      simp only [Op.run, Op.time, hd, if_pos h]
      exact Mem.set_same _ _ _
    · have he : Sha1.setTime o x m s = .error .indexError := by
        unfold Sha1.setTime
        by_cases h1 : x.toNat < 100
        · by_cases h2 : m.toNat < 100
          · rw [bcd_digits _ h1, bcd_digits _ h2, bcd_error s.toNat (by omega)]; rfl
          · rw [bcd_digits _ h1, bcd_error _ h2]; rfl
        · rw [bcd_error _ h1]; rfl
      simp only [Op.run, Op.time, if_neg h, he]
      rfl
  | _ => exact run_frame mode o _ 9 (by omega) (.inr (by omega)) (.inr (by omega)) (.inr (by omega)) (.inl fun _ _ _ => by simp)

theorem timer_bytes (t : BitVec 32) (v : BitVec 8) (ht : t.toNat < 65536) :
    beBytes (Util.changeEndian ((v.setWidth 32 <<< 16) ||| t)) =
      [BitVec.ofNat 8 t.toNat, BitVec.ofNat 8 (t.toNat / 256), v, 0] := by
  obtain ⟨u, rfl⟩ : ∃ u : BitVec 16, t = u.setWidth 32 :=
    ⟨t.setWidth 16, BitVec.eq_of_toNat_eq (by simp; omega)⟩
  have e1 : BitVec.ofNat 8 (u.setWidth 32).toNat = u.extractLsb' 0 8 := by
    apply BitVec.eq_of_toNat_eq
    simp [BitVec.extractLsb'_toNat]
  have e2 : BitVec.ofNat 8 ((u.setWidth 32).toNat / 256) = u.extractLsb' 8 8 := by
    apply BitVec.eq_of_toNat_eq
    simp [BitVec.extractLsb'_toNat, Nat.shiftRight_eq_div_pow]; omega
  rw [e1, e2]
  unfold beBytes
  have key : ∀ j < 32, (Util.changeEndian ((v.setWidth 32 <<< 16) ||| u.setWidth 32)).getLsbD j =
      ((v.setWidth 32 <<< 16) ||| u.setWidth 32 : BitVec 32).getLsbD (24 - 8 * (j / 8) + j % 8) := by
    intro j hj
    unfold Util.changeEndian
    interval_cases j <;> simp
  congr 1
  · apply BitVec.eq_of_getLsbD_eq
    intro i hi
    rw [BitVec.getLsbD_extractLsb', key _ (by omega)]
    interval_cases i <;> simp
  congr 1
  · apply BitVec.eq_of_getLsbD_eq
    intro i hi
    rw [BitVec.getLsbD_extractLsb', key _ (by omega)]
    interval_cases i <;> simp
  congr 1
  · apply BitVec.eq_of_getLsbD_eq
    intro i hi
    rw [BitVec.getLsbD_extractLsb', key _ (by omega)]
    interval_cases i <;> simp
  congr 1
  · apply BitVec.eq_of_getLsbD_eq
    intro i hi
    rw [BitVec.getLsbD_extractLsb', key _ (by omega)]
    interval_cases i <;> simp

/-! ### C95 -/

/-- **C95**: construct an object and call any methods in any order, each of the four settings at least once (with a timer value
of 16 bits). The message held by the object is `specMessage` of the constructor's arguments and the last accepted values;
calls that raise, `precompute` and `hash_seed` leave no trace. -/
theorem C95_message (mode : Mode) (junk : Mem) (version : Version) (language : Language) (dsType : DSType)
    (mac : BitVec 64) (softReset : Bool) (vFrame gxState : BitVec 8) (ops : List Op)
    (button : BitVec 32) (hb : last Op.button ops = some button)
    (timer : BitVec 32 × BitVec 8) (ht : last Op.timer ops = some timer) (h16 : timer.1.toNat < 65536)
    (date : Nat × Nat × Nat × BitVec 8) (hd : last Op.date ops = some date)
    (time : Nat × Nat × Nat) (htm : last Op.time ops = some time) :
    message (ops.foldl (Op.run mode) (new mode junk version language dsType mac softReset vFrame gxState)) =
      specMessage (getNazo version language dsType) dsType mac softReset vFrame gxState button timer date time := by
  set o := new mode junk version language dsType mac softReset vFrame gxState with ho
  obtain ⟨w0, w1, ⟨a0, a1, a2, a3⟩, ⟨b0, b1, b2, b3⟩, ⟨z10, z11⟩, -⟩ :=
    C41_words mode junk version language dsType mac softReset vFrame gxState
  rw [← ho] at w0 w1 a0 a1 a2 a3 b0 b1 b2 b3 z10 z11
  simp only [List.cons.injEq, and_true] at w1
  have hf := history_fixed mode ops o
  have hmac : ∀ k < 8, mac.extractLsb' (8 * k) 8 = macByte mac k := by
    intro k hk
    apply BitVec.eq_of_toNat_eq
    rw [BitVec.extractLsb'_toNat, macByte, BitVec.toNat_ofNat, Nat.shiftRight_eq_div_pow]
  have h5 := history_word mode 5 Op.timer (fun _ x => Util.changeEndian ((x.2.setWidth 32 <<< 16) ||| x.1)) (fun o op => run_timer mode o op) ops o
  have h8 := history_word mode 8 Op.date (fun _ x => ofBytes (digits (x.1 - 2000)) (digits x.2.1) (digits x.2.2.1) x.2.2.2) (fun o op => run_date mode o op) ops o
  have h9 := history_word mode 9 Op.time (fun console x => ofBytes (digits x.1 + (if 12 ≤ x.1 ∧ console ≠ .ds3 then 0x40 else 0))
    (digits x.2.1) (digits x.2.2) 0) (fun o op => run_time mode o op) ops o
  have h12 := history_word mode 12 Op.button (fun _ b => b) (fun o op => run_button mode o op) ops o
  rw [ht] at h5
  rw [hd] at h8
  rw [htm, w0] at h9
  rw [hb] at h12
  simp only [Option.map_some, Option.getD_some] at h5 h8 h9 h12
  have f6 : beBytes (o.data 6) = [if softReset then 1 else 0, 0, macByte mac 1, macByte mac 0] := by
    rw [← hmac 1 (by omega), ← hmac 0 (by omega)]
    show [_, _, _, _] = [_, _, _, _]
    exact congrArg₂ _ a3 (congrArg₂ _ a2 (congrArg₂ _ a1 (congrArg₂ _ a0 rfl)))
  have f7 : beBytes (o.data 7) = [macByte mac 5 ^^^ vFrame, macByte mac 4, macByte mac 3, macByte mac 2 ^^^ gxState] := by
    rw [← hmac 5 (by omega), ← hmac 4 (by omega), ← hmac 3 (by omega), ← hmac 2 (by omega)]
    show [_, _, _, _] = [_, _, _, _]
    exact congrArg₂ _ b3 (congrArg₂ _ b2 (congrArg₂ _ b1 (congrArg₂ _ b0 rfl)))
  set q := ops.foldl (Op.run mode) o with hq
  have hm : message q = beBytes (q.data 0) ++ beBytes (q.data 1) ++ beBytes (q.data 2) ++ beBytes (q.data 3) ++
      beBytes (q.data 4) ++ beBytes (q.data 5) ++ beBytes (q.data 6) ++ beBytes (q.data 7) ++ beBytes (q.data 8) ++
      beBytes (q.data 9) ++ (beBytes (q.data 10) ++ beBytes (q.data 11)) ++ beBytes (q.data 12) := rfl
  rw [hm, hf 0 (by decide), hf 1 (by decide), hf 2 (by decide), hf 3 (by decide), hf 4 (by decide), hf 6 (by decide),
    hf 7 (by decide), hf 10 (by decide), hf 11 (by decide), h5, h8, h9, h12, w1.1, w1.2.1, w1.2.2.1, w1.2.2.2.1,
    w1.2.2.2.2, f6, f7, z10, z11, timer_bytes _ _ h16, beBytes_ofBytes, beBytes_ofBytes]
  rfl

/-- **C95**: hence the seed is the standard SHA-1 of these bytes. -/
theorem C95_seed (mode : Mode) (junk : Mem) (version : Version) (language : Language) (dsType : DSType)
    (mac : BitVec 64) (softReset : Bool) (vFrame gxState : BitVec 8) (ops : List Op)
    (button : BitVec 32) (hb : last Op.button ops = some button)
    (timer : BitVec 32 × BitVec 8) (ht : last Op.timer ops = some timer) (h16 : timer.1.toNat < 65536)
    (date : Nat × Nat × Nat × BitVec 8) (hd : last Op.date ops = some date)
    (time : Nat × Nat × Nat) (htm : last Op.time ops = some time) :
    let o := ops.foldl (Op.run mode) (new mode junk version language dsType mac softReset vFrame gxState)
    (hashSeed mode (precompute mode o).1 (precompute mode o).2).2 = gen5Seed (sha1 (specMessage
      (getNazo version language dsType) dsType mac softReset vFrame gxState button timer date time)) := by
  intro o
  rw [← C95_message mode junk version language dsType mac softReset vFrame gxState ops button hb timer ht h16 date hd time htm]
  exact C38_history mode junk version language dsType mac softReset vFrame gxState ops

/-- A history with a refused date, a repeated time and a computation in between. -/
example : let ops := [Op.setButton 0xFF2F0000, .setTimer0 0x666 0x3F, .setDate 2067 10 31 1, .setTime 1 2 3, .precompute,
      .setDate 1999 10 31 1, .setTime 16 12 20]
    last Op.button ops = some 0xFF2F0000 ∧ last Op.timer ops = some (0x666, 0x3F) ∧
    last Op.date ops = some (2067, 10, 31, 1) ∧ last Op.time ops = some (16, 12, 20) := by
  decide +kernel

end Verif.Sha1
