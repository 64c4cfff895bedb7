import Verif.Props.Sha1Message
/-
C128: which settings of a SHA-1 generator are hashed to the same message.
-/
namespace Verif.Sha1
open Spec.Sha1

/-- everything that is set: by the constructor, and last by the methods -/
structure Settings where
  version : Version
  language : Language
  dsType : DSType
  mac : BitVec 64
  softReset : Bool
  vFrame : BitVec 8
  gxState : BitVec 8
  button : BitVec 32
  timer0 : BitVec 32
  vCount : BitVec 8
  year : Nat
  month : Nat
  day : Nat
  weekday : BitVec 8
  hour : Nat
  minute : Nat
  second : Nat
  deriving DecidableEq

/-- an object with these settings: constructed and then changed by any sequence of calls whose last accepted values are these; the
timer has 16 bits, the hour is one of a day -/
def Settings.Of (s : Settings) (o : Obj) : Prop :=
  ∃ mode junk ops, o = List.foldl (Op.run mode) (new mode junk s.version s.language s.dsType s.mac s.softReset s.vFrame s.gxState) ops ∧
    last Op.button ops = some s.button ∧ last Op.timer ops = some (s.timer0, s.vCount) ∧
    last Op.date ops = some (s.year, s.month, s.day, s.weekday) ∧ last Op.time ops = some (s.hour, s.minute, s.second) ∧
    s.timer0.toNat < 65536 ∧ s.hour < 24

/-! ### parts of a message -/

theorem beBytes_inj (x y : BitVec 32) (h : beBytes x = beBytes y) : x = y := by
  simp only [beBytes, List.cons.injEq, and_true] at h
  obtain ⟨h3, h2, h1, h0⟩ := h
  apply BitVec.eq_of_getLsbD_eq
  intro i hi
  have g : ∀ k, x.extractLsb' k 8 = y.extractLsb' k 8 → ∀ j < 8, x.getLsbD (k + j) = y.getLsbD (k + j) := by
    intro k e j hj
    have := congrArg (fun b => BitVec.getLsbD b j) e
    simpa [BitVec.getLsbD_extractLsb', hj] using this
  rcases (by omega : i < 8 ∨ (8 ≤ i ∧ i < 16) ∨ (16 ≤ i ∧ i < 24) ∨ (24 ≤ i ∧ i < 32)) with h | h | h | h
  · simpa using g 0 h0 i h
  · have := g 8 h1 (i - 8) (by omega)
    rwa [show 8 + (i - 8) = i by omega] at this
  · have := g 16 h2 (i - 16) (by omega)
    rwa [show 16 + (i - 16) = i by omega] at this
  · have := g 24 h3 (i - 24) (by omega)
    rwa [show 24 + (i - 24) = i by omega] at this

theorem digits_inj (a b : Nat) (ha : a < 100) (hb : b < 100) (h : digits a = digits b) : a = b := by
  have := congrArg BitVec.toNat h
  simp only [digits, BitVec.toNat_ofNat] at this
  omega

theorem digits_toNat (a : Nat) (ha : a < 100) : (digits a).toNat = 16 * (a / 10) + a % 10 := by
  simp only [digits, BitVec.toNat_ofNat]
  omega

theorem last_mem {f : Op → Option α} {ops : List Op} {x : α} (h : last f ops = some x) : ∃ op ∈ ops, f op = some x := by
  have := List.mem_of_getLast? h
  rw [List.mem_filterMap] at this
  exact this

theorem date_ok {op : Op} {x} (h : op.date = some x) : 2000 ≤ x.1 ∧ x.1 < 2100 ∧ x.2.1 < 100 ∧ x.2.2.1 < 100 := by
  cases op <;> simp only [Op.date] at h
  case setDate y m d w =>
    split at h
    · rename_i hc
      cases h
      exact hc
    · cases h
  all_goals cases h

theorem time_ok {op : Op} {x} (h : op.time = some x) : x.1 < 100 ∧ x.2.1 < 100 ∧ x.2.2 < 100 := by
  cases op <;> simp only [Op.time] at h
  case setTime y m d =>
    split at h
    · rename_i hc
      cases h
      exact hc
    · cases h
  all_goals cases h

/-- the message with given settings -/
theorem Settings.Of.message {s : Settings} {o : Obj} (h : s.Of o) :
    Sha1.message o = specMessage (getNazo s.version s.language s.dsType) s.dsType s.mac s.softReset s.vFrame s.gxState s.button
      (s.timer0, s.vCount) (s.year, s.month, s.day, s.weekday) (s.hour, s.minute, s.second) ∧
    (2000 ≤ s.year ∧ s.year < 2100 ∧ s.month < 100 ∧ s.day < 100) ∧ s.minute < 100 ∧ s.second < 100 ∧ s.timer0.toNat < 65536 ∧
    s.hour < 24 := by
  obtain ⟨mode, junk, ops, rfl, h1, h2, h3, h4, h5, h6⟩ := h
  refine ⟨C95_message mode junk _ _ _ _ _ _ _ ops _ h1 _ h2 h5 _ h3 _ h4, ?_, ?_⟩
  · obtain ⟨op, -, h⟩ := last_mem h3
    exact date_ok h
  · obtain ⟨op, -, h⟩ := last_mem h4
    exact ⟨(time_ok h).2.1, (time_ok h).2.2, h5, h6⟩

/-- **C128**: two objects hash the same message exactly if they agree in everything but the following. Of version, language and
console only the nazo words count, and, in the afternoon, whether it is a 3DS. VFrame and GxStat are combined with the sixth and the
third byte of the MAC address, of which only six bytes count. -/
theorem C128_iff (s t : Settings) (o p : Obj) (hs : s.Of o) (ht : t.Of p) :
    message o = message p ↔
      getNazo s.version s.language s.dsType = getNazo t.version t.language t.dsType ∧ s.softReset = t.softReset ∧
      s.button = t.button ∧ s.timer0 = t.timer0 ∧ s.vCount = t.vCount ∧
      (s.year, s.month, s.day, s.weekday) = (t.year, t.month, t.day, t.weekday) ∧
      (s.hour, s.minute, s.second) = (t.hour, t.minute, t.second) ∧ (12 ≤ s.hour → (s.dsType = .ds3 ↔ t.dsType = .ds3)) ∧
      (∀ k ∈ [0, 1, 3, 4], macByte s.mac k = macByte t.mac k) ∧
      macByte s.mac 5 ^^^ s.vFrame = macByte t.mac 5 ^^^ t.vFrame ∧ macByte s.mac 2 ^^^ s.gxState = macByte t.mac 2 ^^^ t.gxState := by
  obtain ⟨hm, ⟨sy, sy', sm, sd⟩, smi, sse, st0, sh⟩ := hs.message
  obtain ⟨hm', ⟨ty, ty', tm, td⟩, tmi, tse, tt0, th⟩ := ht.message
  rw [hm, hm']
  constructor
  · intro h
    simp only [specMessage, List.append_assoc, List.cons_append, List.nil_append] at h
    have split4 : ∀ (x y : BitVec 32) (a b : List (BitVec 8)), beBytes x ++ a = beBytes y ++ b → x = y ∧ a = b := by
      intro x y a b h
      obtain ⟨h1, h2⟩ := List.append_inj h rfl
      exact ⟨beBytes_inj _ _ h1, h2⟩
    obtain ⟨n0, h⟩ := split4 _ _ _ _ h
    obtain ⟨n1, h⟩ := split4 _ _ _ _ h
    obtain ⟨n2, h⟩ := split4 _ _ _ _ h
    obtain ⟨n3, h⟩ := split4 _ _ _ _ h
    obtain ⟨n4, h⟩ := split4 _ _ _ _ h
    simp only [List.cons.injEq, true_and] at h
    obtain ⟨t1, t2, hv, hr, m1, m0, m5, m4, m3, m2, dy, dm, dd, dw, th', tm', ts', hb⟩ := h
    have hn : getNazo s.version s.language s.dsType = getNazo t.version t.language t.dsType := by
      cases h1 : getNazo s.version s.language s.dsType
      cases h2 : getNazo t.version t.language t.dsType
      rw [h1, h2] at n0 n1 n2 n3 n4
      simp only at n0 n1 n2 n3 n4
      rw [n0, n1, n2, n3, n4]
    have hr' : s.softReset = t.softReset := by
      cases hx : s.softReset <;> cases hy : t.softReset <;> rw [hx, hy] at hr <;> first | rfl | (exfalso; revert hr; decide)
    have htimer : s.timer0 = t.timer0 := by
      apply BitVec.eq_of_toNat_eq
      have e1 := congrArg BitVec.toNat t1
      have e2 := congrArg BitVec.toNat t2
      simp only [BitVec.toNat_ofNat] at e1 e2
      omega
    have hhour : s.hour = t.hour ∧ (12 ≤ s.hour → (s.dsType = .ds3 ↔ t.dsType = .ds3)) := by
      have e := congrArg BitVec.toNat th'
      have d1 := digits_toNat s.hour (by omega)
      have d2 := digits_toNat t.hour (by omega)
      have z0 : (0 : BitVec 8).toNat = 0 := rfl
      have z4 : (0x40 : BitVec 8).toNat = 64 := rfl
      rw [BitVec.toNat_add, BitVec.toNat_add, d1, d2] at e
      by_cases c1 : 12 ≤ s.hour ∧ s.dsType ≠ .ds3 <;> by_cases c2 : 12 ≤ t.hour ∧ t.dsType ≠ .ds3
      · rw [if_pos c1, if_pos c2] at e
        exact ⟨by omega, fun _ => ⟨fun h => absurd h c1.2, fun h => absurd h c2.2⟩⟩
      · rw [if_pos c1, if_neg c2, z0, z4] at e
        omega
      · rw [if_neg c1, if_pos c2, z0, z4] at e
        omega
      · rw [if_neg c1, if_neg c2] at e
        have he : s.hour = t.hour := by omega
        refine ⟨he, fun h12 => ?_⟩
        have a1 : s.dsType = .ds3 := by by_contra hc; exact c1 ⟨h12, hc⟩
        have a2 : t.dsType = .ds3 := by by_contra hc; exact c2 ⟨by omega, hc⟩
        exact ⟨fun _ => a2, fun _ => a1⟩
    have ey := digits_inj _ _ (by omega) (by omega) dy
    refine ⟨hn, hr', beBytes_inj _ _ hb, htimer, hv, ?_, ?_, hhour.2, ?_, m5, m2⟩
    · rw [show s.year = t.year by omega, digits_inj _ _ sm tm dm, digits_inj _ _ sd td dd, dw]
    · rw [hhour.1, digits_inj _ _ smi tmi tm', digits_inj _ _ sse tse ts']
    · intro k hk
      simp only [List.mem_cons, List.not_mem_nil, or_false] at hk
      rcases hk with rfl | rfl | rfl | rfl
      · exact m0
      · exact m1
      · exact m3
      · exact m4
  · rintro ⟨h1, h2, h3, h4, h5, h6, h7, h8, h9, h10, h11⟩
    simp only [Prod.mk.injEq] at h7
    have hif : (if 12 ≤ s.hour ∧ s.dsType ≠ .ds3 then (0x40 : BitVec 8) else 0) = if 12 ≤ t.hour ∧ t.dsType ≠ .ds3 then 0x40 else 0 := by
      rw [← h7.1]
      by_cases h12 : 12 ≤ s.hour
      · have := h8 h12
        simp only [h12, true_and, ne_eq, this]
      · rw [if_neg (fun h => h12 h.1), if_neg (fun h => h12 h.1)]
    unfold specMessage
    dsimp only
    rw [hif, h1, h2, h3, h4, h5, h10, h11, h9 0 (by simp), h9 1 (by simp), h9 3 (by simp), h9 4 (by simp), h7.1, h7.2.1, h7.2.2]
    simp only [Prod.mk.injEq] at h6
    rw [h6.1, h6.2.1, h6.2.2.1, h6.2.2.2]

/-- **C128**: on one console (same game, language, console type and MAC address) every setting shows in the message. -/
theorem C128_console (s t : Settings) (o p : Obj) (hs : s.Of o) (ht : t.Of p) (h1 : s.version = t.version)
    (h2 : s.language = t.language) (h3 : s.dsType = t.dsType) (h4 : s.mac = t.mac) : message o = message p ↔ s = t := by
  rw [C128_iff s t o p hs ht]
  constructor
  · rintro ⟨-, e2, e3, e4, e5, e6, e7, -, -, e10, e11⟩
    rw [h4] at e10 e11
    have x : ∀ a b c : BitVec 8, a ^^^ b = a ^^^ c → b = c := by
      intro a b c h
      have := congrArg (a ^^^ ·) h
      simpa [← BitVec.xor_assoc] using this
    have e10 := x _ _ _ e10
    have e11 := x _ _ _ e11
    cases s
    cases t
    simp only [Prod.mk.injEq] at *
    simp_all
  · rintro rfl
    simp

/-- **C128**: which games share their nazo words: only Black and White, if they are both for the DS or both not; Spanish and Korean
ones always, German, Italian and Japanese ones not on the DS; and there Japanese and Korean ones are the same, too. -/
theorem C128_games (v v' : Version) (l l' : Language) (t t' : DSType) (hv : v ≠ .other) (hv' : v' ≠ .other) :
    getNazo v l t = getNazo v' l' t' ↔ (t = .ds ↔ t' = .ds) ∧ ((v = v' ∧ l = l') ∨
      (v = .black ∨ v = .white) ∧ (v' = .black ∨ v' = .white) ∧
        ((l = l' ∧ (l = .spanish ∨ l = .korean)) ∨
         t ≠ .ds ∧ ((l = l' ∧ (l = .german ∨ l = .italian)) ∨ (l = .japanese ∨ l = .korean) ∧ (l' = .japanese ∨ l' = .korean)))) := by
  revert v v' l l' t t'
  have all : ∀ t ∈ [DSType.ds, .dsi, .ds3], ∀ t' ∈ [DSType.ds, .dsi, .ds3], ∀ v ∈ [Version.black, .white, .black2, .white2],
      ∀ v' ∈ [Version.black, .white, .black2, .white2],
      ([Language.english, .french, .german, .italian, .japanese, .korean, .spanish].all fun l =>
       [Language.english, .french, .german, .italian, .japanese, .korean, .spanish].all fun l' =>
        decide (getNazo v l t = getNazo v' l' t' ↔ (t = .ds ↔ t' = .ds) ∧ ((v = v' ∧ l = l') ∨
      (v = .black ∨ v = .white) ∧ (v' = .black ∨ v' = .white) ∧
        ((l = l' ∧ (l = .spanish ∨ l = .korean)) ∨
         t ≠ .ds ∧ ((l = l' ∧ (l = .german ∨ l = .italian)) ∨
           (l = .japanese ∨ l = .korean) ∧ (l' = .japanese ∨ l' = .korean)))))) = true := by
    decide +kernel
  intro v v' l l' t t' hv hv'
  have h := all t (by cases t <;> simp) t' (by cases t' <;> simp) v (by cases v <;> simp at hv ⊢) v' (by cases v' <;> simp at hv' ⊢)
  rw [List.all_eq_true] at h
  have h := h l (by cases l <;> simp)
  rw [List.all_eq_true] at h
  exact of_decide_eq_true (h l' (by cases l' <;> simp))

/-- the bytes of a MAC address of 48 bits -/
theorem mac_bytes (m m' : Nat) (h : m < 2 ^ 48) (h' : m' < 2 ^ 48)
    (e : ∀ k < 6, macByte (BitVec.ofNat 64 m) k = macByte (BitVec.ofNat 64 m') k) : m = m' := by
  have g : ∀ k < 6, m / 2 ^ (8 * k) % 256 = m' / 2 ^ (8 * k) % 256 := by
    intro k hk
    have := congrArg BitVec.toNat (e k hk)
    simpa only [macByte, BitVec.toNat_ofNat, Nat.mod_eq_of_lt (show m < 2 ^ 64 by omega),
      Nat.mod_eq_of_lt (show m' < 2 ^ 64 by omega)] using this
  have g0 := g 0 (by omega)
  have g1 := g 1 (by omega)
  have g2 := g 2 (by omega)
  have g3 := g 3 (by omega)
  have g4 := g 4 (by omega)
  have g5 := g 5 (by omega)
  norm_num at g0 g1 g2 g3 g4 g5 h h'
  omega

/-- **C128**: the MAC address cannot be told from VFrame and GxStat: for any other values of these two there is exactly one MAC
address of 48 bits with which the message is the same. -/
theorem C128_mac (s : Settings) (o : Obj) (hs : s.Of o) (vFrame gxState : BitVec 8) :
    ∃! m : Nat, m < 2 ^ 48 ∧ ∀ p, ({ s with mac := BitVec.ofNat 64 m, vFrame := vFrame, gxState := gxState } : Settings).Of p →
      message p = message o := by
  obtain ⟨mode, junk, ops, ho, r1, r2, r3, r4, r5, r6⟩ := id hs
  have ex : ∀ m, ∃ p, ({ s with mac := BitVec.ofNat 64 m, vFrame := vFrame, gxState := gxState } : Settings).Of p := fun m =>
    ⟨_, mode, junk, ops, rfl, r1, r2, r3, r4, r5, r6⟩
  have key : ∀ m, (∀ p, ({ s with mac := BitVec.ofNat 64 m, vFrame := vFrame, gxState := gxState } : Settings).Of p →
      message p = message o) ↔ (∀ k ∈ [0, 1, 3, 4], macByte (BitVec.ofNat 64 m) k = macByte s.mac k) ∧
        macByte (BitVec.ofNat 64 m) 5 ^^^ vFrame = macByte s.mac 5 ^^^ s.vFrame ∧
        macByte (BitVec.ofNat 64 m) 2 ^^^ gxState = macByte s.mac 2 ^^^ s.gxState := by
    intro m
    obtain ⟨p, hp⟩ := ex m
    constructor
    · intro h
      have := (C128_iff _ s p o hp hs).1 (h p hp)
      exact ⟨this.2.2.2.2.2.2.2.2.1, this.2.2.2.2.2.2.2.2.2.1, this.2.2.2.2.2.2.2.2.2.2⟩
    · rintro ⟨e1, e2, e3⟩ q hq
      exact (C128_iff _ s q o hq hs).2 ⟨rfl, rfl, rfl, rfl, rfl, rfl, rfl, fun _ => Iff.rfl, e1, e2, e3⟩
  have x : ∀ a b c : BitVec 8, a ^^^ b = c ↔ a = c ^^^ b := by
    intro a b c
    constructor
    · rintro rfl
      simp [BitVec.xor_assoc]
    · rintro rfl
      simp [BitVec.xor_assoc]
  -- the bytes of the address
  let b : Nat → BitVec 8 := fun k => if k = 5 then macByte s.mac 5 ^^^ s.vFrame ^^^ vFrame
    else if k = 2 then macByte s.mac 2 ^^^ s.gxState ^^^ gxState else macByte s.mac k
  have key' : ∀ m, (∀ p, ({ s with mac := BitVec.ofNat 64 m, vFrame := vFrame, gxState := gxState } : Settings).Of p →
      message p = message o) ↔ ∀ k < 6, macByte (BitVec.ofNat 64 m) k = b k := by
    intro m
    rw [key m, x, x]
    constructor
    · rintro ⟨e1, e2, e3⟩ k hk
      rcases (by omega : k = 0 ∨ k = 1 ∨ k = 2 ∨ k = 3 ∨ k = 4 ∨ k = 5) with rfl | rfl | rfl | rfl | rfl | rfl
      · exact e1 0 (by simp)
      · exact e1 1 (by simp)
      · exact e3
      · exact e1 3 (by simp)
      · exact e1 4 (by simp)
      · exact e2
    · intro e
      refine ⟨fun k hk => ?_, e 5 (by omega), e 2 (by omega)⟩
      simp only [List.mem_cons, List.not_mem_nil, or_false] at hk
      rcases hk with rfl | rfl | rfl | rfl
      · exact e 0 (by omega)
      · exact e 1 (by omega)
      · exact e 3 (by omega)
      · exact e 4 (by omega)
  have hb := fun k => (b k).isLt
  have hM : ∀ k < 6, macByte (BitVec.ofNat 64 ((b 0).toNat + 256 * ((b 1).toNat + 256 * ((b 2).toNat + 256 * ((b 3).toNat +
      256 * ((b 4).toNat + 256 * (b 5).toNat)))))) k = b k := by
    intro k hk
    have h0 := hb 0; have h1 := hb 1; have h2 := hb 2; have h3 := hb 3; have h4 := hb 4; have h5 := hb 5
    apply BitVec.eq_of_toNat_eq
    rw [macByte, BitVec.toNat_ofNat, BitVec.toNat_ofNat]
    clear key key' ex
    clear_value b
    rcases (by omega : k = 0 ∨ k = 1 ∨ k = 2 ∨ k = 3 ∨ k = 4 ∨ k = 5) with rfl | rfl | rfl | rfl | rfl | rfl <;> norm_num <;> omega
  refine ⟨(b 0).toNat + 256 * ((b 1).toNat + 256 * ((b 2).toNat + 256 * ((b 3).toNat + 256 * ((b 4).toNat + 256 * (b 5).toNat)))),
    ⟨?_, ?_⟩, ?_⟩
  · have := hb 0; have := hb 1; have := hb 2; have := hb 3; have := hb 4; have := hb 5
    omega
  · rw [key']
    exact hM
  · rintro m ⟨hm, e⟩
    rw [key'] at e
    refine mac_bytes _ _ hm ?_ fun k hk => by rw [e k hk, hM k hk]
    have := hb 0; have := hb 1; have := hb 2; have := hb 3; have := hb 4; have := hb 5
    omega

/-- Settings of a White game on a DSi at a quarter past four in the afternoon. -/
def sample : Settings :=
  { version := .white, language := .korean, dsType := .dsi, mac := 0x0009BF123456, softReset := false, vFrame := 6, gxState := 6,
    button := 0xFF2F0000, timer0 := 0x666, vCount := 0x3F, year := 2067, month := 10, day := 31, weekday := 1, hour := 16,
    minute := 15, second := 20 }

/-- a Japanese Black game on another DSi with other VFrame and GxStat -/
def sample' : Settings :=
  { sample with version := .black, language := .japanese, mac := 0x0709BF103456, vFrame := 1, gxState := 4 }

theorem sample_of (v : Version) (l : Language) (d : DSType) (m : BitVec 64) (f g : BitVec 8) :
    ∃ o, ({ sample with version := v, language := l, dsType := d, mac := m, vFrame := f, gxState := g } : Settings).Of o := by
  refine ⟨_, .numba, default, [.setButton 0xFF2F0000, .setTimer0 0x666 0x3F, .setTime 1 2 3, .setDate 2067 10 31 1,
    .setDate 1999 1 1 0, .setTime 16 15 20], rfl, ?_⟩
  dsimp only
  decide +kernel

/-- Both hash the same message. -/
example : ∃ o p, sample.Of o ∧ sample'.Of p ∧ message o = message p := by
  obtain ⟨o, ho⟩ := sample_of .white .korean .dsi 0x0009BF123456 6 6
  obtain ⟨p, hp⟩ := sample_of .black .japanese .dsi 0x0709BF103456 1 4
  exact ⟨o, p, ho, hp, (C128_iff sample sample' o p ho hp).2 (by decide +kernel)⟩

/-- On a 3DS the message of the same game is another one in the afternoon. -/
example : ∃ o p, sample.Of o ∧ ({ sample with dsType := .ds3 } : Settings).Of p ∧ message o ≠ message p ∧
    getNazo .white .korean .dsi = getNazo .white .korean .ds3 := by
  obtain ⟨o, ho⟩ := sample_of .white .korean .dsi 0x0009BF123456 6 6
  obtain ⟨p, hp⟩ := sample_of .white .korean .ds3 0x0009BF123456 6 6
  refine ⟨o, p, ho, hp, fun h => ?_, (C128_games _ _ _ _ _ _ (by decide) (by decide)).2 (by decide)⟩
  have := (C128_iff sample { sample with dsType := .ds3 } o p ho hp).1 h
  revert this
  decide +kernel

end Verif.Sha1
