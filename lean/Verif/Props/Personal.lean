import Verif.Model.Personal
import Mathlib.Tactic.Ring
import Mathlib.Tactic.Tauto
/-
C65, C66, C67: game identifiers, choice of the personal table, layout of personal records.
-/
namespace Verif.Personal

/-! ### layout (C67) -/

/-- Specification: offset of field `j`, the total size of the fields before it. -/
def offset (l : Layout) (j : Nat) : Nat := ((l.take j).map fun f => f.2.size).sum

/-- Specification: `v` is the value of type `t` stored at byte `pos` of the file (little-endian). -/
def StoredAt (file : List (BitVec 8)) (pos : Nat) (t : FieldTy) (v : Value) : Prop :=
  match t with
  | .u8 => ∃ x, v = .u8 x ∧ file[pos]? = some x
  | .u16 => ∃ x lo hi, v = .u16 x ∧ file[pos]? = some lo ∧ file[pos + 1]? = some hi ∧
      x.toNat = lo.toNat + 256 * hi.toNat
  | .bytes n => ∃ b, v = .bytes b ∧ b.length = n ∧ ∀ k < n, b[k]? = file[pos + k]?

theorem readField_spec (file : List (BitVec 8)) (pos : Nat) (t : FieldTy) (h : pos + t.size ≤ file.length) :
    StoredAt file pos t (readField t (file.drop pos)).1 ∧
      (readField t (file.drop pos)).2 = file.drop (pos + t.size) := by
  cases t with
  | u8 =>
    simp only [FieldTy.size] at h ⊢
    rw [List.drop_eq_getElem_cons (by omega)]
    exact ⟨⟨_, rfl, by rw [List.getElem?_eq_getElem]⟩, rfl⟩
  | u16 =>
    simp only [FieldTy.size] at h ⊢
    rw [List.drop_eq_getElem_cons (by omega), List.drop_eq_getElem_cons (i := pos + 1) (by omega)]
    refine ⟨⟨_, file[pos], file[pos + 1], rfl, by rw [List.getElem?_eq_getElem], by rw [List.getElem?_eq_getElem], ?_⟩,
      rfl⟩
    rw [BitVec.toNat_append, Nat.shiftLeft_eq, ← Nat.shiftLeft_eq, ← Nat.shiftLeft_add_eq_or_of_lt file[pos].isLt]
    rw [Nat.shiftLeft_eq]
    omega
  | bytes n =>
    simp only [FieldTy.size] at h ⊢
    refine ⟨⟨_, rfl, by simp; omega, fun k hk => ?_⟩, by simp [readField]⟩
    rw [List.getElem?_take, if_pos hk, List.getElem?_drop]

theorem readField_write (t : FieldTy) (bs : List (BitVec 8)) (h : t.size ≤ bs.length) :
    writeField (readField t bs).1 = bs.take t.size ∧ (readField t bs).2 = bs.drop t.size := by
  cases t with
  | u8 =>
    cases bs with
    | nil => simp [FieldTy.size] at h
    | cons b bs => simp [readField, writeField, FieldTy.size]
  | u16 =>
    match bs, h with
    | lo :: hi :: bs, _ =>
      simp only [readField, writeField, FieldTy.size, List.take_succ_cons, List.take_zero, List.drop_succ_cons,
        List.drop_zero, and_true, List.cons.injEq]
      constructor
      · ext i hi
        simp only [BitVec.getElem_setWidth]
        rw [BitVec.getLsbD_append]
        simp [hi]
      · ext i hi
        simp only [BitVec.getElem_setWidth, BitVec.getLsbD_ushiftRight, BitVec.getLsbD_append]
        simp [BitVec.getLsbD_eq_getElem hi]
  | bytes n => simp [readField, writeField, FieldTy.size]

theorem size_eq_sum (l : Layout) : l.size = (l.map fun f => f.2.size).sum := by
  induction l with
  | nil => rfl
  | cons f l ih => simp [Layout.size, ih]

theorem offset_succ (f : String × FieldTy) (l : Layout) (j : Nat) : offset (f :: l) (j + 1) = f.2.size + offset l j := by
  simp [offset]

theorem readRecord_spec (file : List (BitVec 8)) (l : Layout) (pos : Nat) (h : pos + l.size ≤ file.length) (j : Nat)
    (hj : j < l.length) :
    ∃ v, (readRecord l (file.drop pos))[j]? = some v ∧ StoredAt file (pos + offset l j) l[j].2 v := by
  induction l generalizing pos j with
  | nil => simp at hj
  | cons f l ih =>
    simp only [Layout.size] at h
    obtain ⟨h1, h2⟩ := readField_spec file pos f.2 (by omega)
    cases j with
    | zero => exact ⟨(readField f.2 (file.drop pos)).1, by simp [readRecord], by simpa [offset] using h1⟩
    | succ j =>
      simp only [readRecord, List.getElem?_cons_succ, List.getElem_cons_succ]
      rw [h2]
      obtain ⟨v, hv, hs⟩ := ih (pos + f.2.size) (by omega) j (by simpa using hj)
      refine ⟨v, hv, ?_⟩
      rw [offset_succ, ← Nat.add_assoc]
      exact hs

theorem readRecord_length (l : Layout) (bs : List (BitVec 8)) : (readRecord l bs).length = l.length := by
  induction l generalizing bs with
  | nil => rfl
  | cons f l ih => simp [readRecord, ih]

/-- reading depends only on the bytes of the record -/
theorem readRecord_take (l : Layout) (bs : List (BitVec 8)) (h : l.size ≤ bs.length) :
    readRecord l (bs.take l.size) = readRecord l bs := by
  suffices H : ∀ (l : Layout) (bs : List (BitVec 8)) (n : Nat), l.size ≤ n → n ≤ bs.length →
      readRecord l (bs.take n) = readRecord l bs from H l bs _ (Nat.le_refl _) h
  intro l
  induction l with
  | nil => intros; rfl
  | cons f l ih =>
    intro bs n hn hb
    simp only [Layout.size] at hn
    obtain ⟨s1, r1⟩ := readField_spec bs 0 f.2 (by omega)
    have e1 : (readField f.2 (bs.take n)).1 = (readField f.2 bs).1 := by
      cases hf : f.2 with
      | u8 =>
        rw [hf] at hn; simp only [FieldTy.size] at hn
        match bs, n, hb, hn with
        | b :: bs, n + 1, _, _ => rfl
        | [], n + 1, h, _ => simp at h
        | _, 0, _, h => omega
      | u16 =>
        rw [hf] at hn; simp only [FieldTy.size] at hn
        match bs, n, hb, hn with
        | b :: c :: bs, n + 2, _, _ => rfl
        | [b], n + 2, h, _ => simp at h
        | _, 0, _, h => omega
        | _, 1, _, h => omega
      | bytes k =>
        rw [hf] at hn; simp only [FieldTy.size] at hn
        simp only [readField, List.take_take]
        rw [Nat.min_eq_left (by omega)]
    have e2 : (readField f.2 (bs.take n)).2 = ((readField f.2 bs).2).take (n - f.2.size) := by
      have h1 := (readField_write f.2 bs (by omega)).2
      have h2 := (readField_write f.2 (bs.take n) (by simp; omega)).2
      rw [h1, h2, List.drop_take]
    have h1 := (readField_write f.2 bs (by omega)).2
    simp only [readRecord]
    rw [e1, e2, ih _ _ (by omega) (by rw [h1]; simp; omega)]

theorem readRecord_write (l : Layout) (bs : List (BitVec 8)) (h : l.size ≤ bs.length) :
    (readRecord l bs).flatMap writeField = bs.take l.size := by
  induction l generalizing bs with
  | nil => simp [readRecord, Layout.size]
  | cons f l ih =>
    simp only [Layout.size] at h ⊢
    obtain ⟨h1, h2⟩ := readField_write f.2 bs (by omega)
    simp only [readRecord, List.flatMap_cons, h1, h2]
    rw [ih _ (by simp; omega), List.take_add]

theorem readRecords_spec (l : Layout) (hl : 0 < l.size) (fuel : Nat) (bs : List (BitVec 8)) (hf : bs.length < fuel) :
    (readRecords l fuel bs).length = bs.length / l.size ∧
      ∀ i, i < bs.length / l.size → (readRecords l fuel bs)[i]? = some (readRecord l (bs.drop (i * l.size))) := by
  induction fuel generalizing bs with
  | zero => omega
  | succ fuel ih =>
    unfold readRecords
    split
    · rename_i h
      rw [Nat.div_eq_of_lt h]
      exact ⟨rfl, fun i hi => by omega⟩
    · rename_i h
      have hdiv : bs.length / l.size = (bs.length - l.size) / l.size + 1 := by
        rw [← Nat.add_div_right _ hl]; congr 1; omega
      obtain ⟨h1, h2⟩ := ih (bs.drop l.size) (by simp; omega)
      rw [List.length_drop] at h1 h2
      refine ⟨by simp [h1, hdiv], fun i hi => ?_⟩
      cases i with
      | zero => simp [readRecord_take l bs (by omega)]
      | succ i =>
        rw [List.getElem?_cons_succ, h2 i (by omega), List.drop_drop]
        congr 3
        ring

theorem readRecords_write (l : Layout) (hl : 0 < l.size) (fuel : Nat) (bs : List (BitVec 8)) (hf : bs.length < fuel) :
    writeRecords (readRecords l fuel bs) = bs.take (bs.length / l.size * l.size) := by
  induction fuel generalizing bs with
  | zero => omega
  | succ fuel ih =>
    unfold readRecords
    split
    · rename_i h
      rw [Nat.div_eq_of_lt h]
      simp [writeRecords]
    · rename_i h
      have hdiv : bs.length / l.size = (bs.length - l.size) / l.size + 1 := by
        rw [← Nat.add_div_right _ hl]; congr 1; omega
      have h1 := ih (bs.drop l.size) (by simp; omega)
      simp only [writeRecords, List.flatMap_cons] at h1 ⊢
      rw [h1, readRecord_take l bs (by omega), readRecord_write l bs (by omega), List.length_drop, hdiv, Nat.add_mul,
        Nat.one_mul, Nat.add_comm (_ * _), List.take_add]

/-- **C67**, reading: a file of `n` bytes gives `n / itemsize` records; field `j` of record `i` is the little-endian
value at byte `i * itemsize + offset j`. -/
theorem C67_load (l : Layout) (hl : 0 < l.size) (file : List (BitVec 8)) :
    ∃ rs, loadPersonal l file = .ok rs ∧ rs.length = file.length / l.size ∧
      ∀ (i : Nat) (hi : i < rs.length), rs[i].length = l.length ∧
        ∀ (j : Nat) (hj : j < l.length), ∃ v, rs[i][j]? = some v ∧ StoredAt file (i * l.size + offset l j) l[j].2 v := by
  obtain ⟨h1, h2⟩ := readRecords_spec l hl (file.length + 1) file (by omega)
  refine ⟨_, by rw [loadPersonal, if_neg (by omega)], h1, fun i hi => ?_⟩
  have h3 := h2 i (by omega)
  rw [List.getElem?_eq_getElem hi] at h3
  rw [Option.some.inj h3]
  refine ⟨readRecord_length _ _, fun j hj => readRecord_spec file l _ ?_ j hj⟩
  have := Nat.div_mul_le_self file.length l.size
  have h4 : (i + 1) * l.size ≤ file.length / l.size * l.size := Nat.mul_le_mul_right _ (by omega)
  rw [Nat.add_mul, Nat.one_mul] at h4
  omega

/-- **C67**, writing back: the records give the bytes of the complete records, which is the whole file if its length is
a multiple of the record size. -/
theorem C67_roundtrip (l : Layout) (hl : 0 < l.size) (file : List (BitVec 8)) (rs : List (List Value))
    (h : loadPersonal l file = .ok rs) :
    writeRecords rs = file.take (file.length / l.size * l.size) ∧ (l.size ∣ file.length → writeRecords rs = file) := by
  rw [loadPersonal, if_neg (by omega)] at h
  cases h
  have := readRecords_write l hl (file.length + 1) file (by omega)
  refine ⟨this, fun hd => ?_⟩
  rw [this, Nat.div_mul_cancel hd, List.take_length]

example : loadPersonal [("a", .u8), ("b", .u16), ("c", .bytes 1)] [1, 2, 3, 4, 5, 6, 7, 8, 9] =
    .ok [[.u8 1, .u16 0x302, .bytes [4]], [.u8 5, .u16 0x706, .bytes [8]]] := by decide

/-- The record sizes asserted in personal_info.py. -/
theorem C67_sizes : [layout1, layout2, layout3, layout4, layout5BW, layout5B2W2, layout6XY, layout6AO, layout7, layout7GG,
    layout8SWSH, layout8BDSP, layout8LA, layout9SV].map Layout.size =
    [0x1C, 0x20, 0x1C, 0x2C, 0x3C, 0x4C, 0x40, 0x50, 0x54, 0x54, 0xB0, 0x44, 0xB0, 0x44] := by decide

/-- offset and type of a named field -/
def find (l : Layout) (name : String) : Option (Nat × FieldTy) :=
  (l.findIdx? fun f => f.1 == name).bind fun j => l[j]?.map fun f => (offset l j, f.2)

/-- Where the base stats, the types, the gender ratio and the abilities are, in each loaded table. -/
theorem C67_offsets : ∀ l ∈ [layout3, layout4, layout5BW, layout5B2W2, layout6XY, layout6AO, layout7, layout8SWSH,
      layout8BDSP, layout8LA],
    ["hp", "attack", "defense", "speed", "special_attack", "special_defense", "type_1", "type_2"].map (find l) =
      (List.range 8).map (fun k => some (k, .u8)) ∧
    find l "gender_ratio" = some (if l ∈ [layout3, layout4] then 0x10 else 0x12, .u8) ∧
    [find l "ability_1", find l "ability_2"] =
      (if l ∈ [layout3, layout4] then [some (0x16, .u8), some (0x17, .u8)]
       else if l ∈ [layout8SWSH, layout8BDSP, layout8LA] then [some (0x18, .u16), some (0x1A, .u16)]
       else [some (0x18, .u8), some (0x19, .u8)]) := by
  decide +kernel

/-- sizes in bytes of the files `personal_<name>` in resources/bin/personal of the repository -/
def fileSizes : List (String × Nat) := [("ao", 66080), ("b2w2", 53884), ("bdsp", 38080), ("bw", 40080), ("c", 8064),
  ("dp", 22044), ("e", 10836), ("fr", 10836), ("gg", 82320), ("gs", 8064), ("hgss", 22352), ("la", 224576), ("lg", 10836),
  ("pt", 22352), ("rb", 4256), ("rs", 10836), ("sm", 80724), ("sv", 94996), ("swsh", 209792), ("uu", 81984), ("xy", 51136),
  ("y", 4256)]

/-- the number of entries (species and forms) of the personal tables of the games, and the highest number of a species -/
def entryCount : Table → Nat × Nat
  | .rs | .e | .fr | .lg => (387, 386)
  | .dp => (501, 493)
  | .pt => (508, 493)
  | .bw => (668, 649)
  | .b2w2 => (709, 649)
  | .xy => (799, 721)
  | .oras => (826, 721)
  | .sm => (961, 802)
  | .usum => (976, 807)
  | .swsh => (1192, 898)
  | .bdsp => (560, 493)
  | .la => (1276, 905)

/-- Every table is loaded from a shipped file of its own, which consists of complete records (so C67_roundtrip gives back
all of its bytes), as many as the games' table has entries; so there is a record for each species number. -/
theorem C67_shipped (t : Table) :
    fileSizes.lookup t.source.1 = some ((entryCount t).1 * t.source.2.size) ∧ 0 < t.source.2.size ∧
      (entryCount t).2 < (entryCount t).1 ∧ ∀ t' : Table, t'.source.1 = t.source.1 → t' = t := by
  refine ⟨by cases t <;> decide +kernel, by cases t <;> decide, by cases t <;> decide, fun t' h => ?_⟩
  cases t <;> cases t' <;> first | rfl | exact absurd h (by decide)

/-! ### game identifiers (C65) -/

/-- the games, by name -/
inductive Name where
  | ruby | sapphire | emerald | fireRed | leafGreen | gales | colosseum | diamond | pearl | platinum | heartGold
  | soulSilver | black | white | black2 | white2 | x | y | omegaRuby | alphaSapphire | sun | moon | ultraSun | ultraMoon
  | sword | shield | brilliantDiamond | shiningPearl | legendsArceus
  deriving DecidableEq, Repr

/-- `enums/game.py:10-38` -/
def Name.value : Name → BitVec 32
  | .ruby => Game.ruby
  | .sapphire => Game.sapphire
  | .emerald => Game.emerald
  | .fireRed => Game.fireRed
  | .leafGreen => Game.leafGreen
  | .gales => Game.gales
  | .colosseum => Game.colosseum
  | .diamond => Game.diamond
  | .pearl => Game.pearl
  | .platinum => Game.platinum
  | .heartGold => Game.heartGold
  | .soulSilver => Game.soulSilver
  | .black => Game.black
  | .white => Game.white
  | .black2 => Game.black2
  | .white2 => Game.white2
  | .x => Game.x
  | .y => Game.y
  | .omegaRuby => Game.omegaRuby
  | .alphaSapphire => Game.alphaSapphire
  | .sun => Game.sun
  | .moon => Game.moon
  | .ultraSun => Game.ultraSun
  | .ultraMoon => Game.ultraMoon
  | .sword => Game.sword
  | .shield => Game.shield
  | .brilliantDiamond => Game.brilliantDiamond
  | .shiningPearl => Game.shiningPearl
  | .legendsArceus => Game.legendsArceus

/-- all of them -/
def Name.all : List Name :=
  [.ruby, .sapphire, .emerald, .fireRed, .leafGreen, .gales, .colosseum, .diamond, .pearl, .platinum, .heartGold,
    .soulSilver, .black, .white, .black2, .white2, .x, .y, .omegaRuby, .alphaSapphire, .sun, .moon, .ultraSun,
    .ultraMoon, .sword, .shield, .brilliantDiamond, .shiningPearl, .legendsArceus]

theorem Name.mem_all (g : Name) : g ∈ Name.all := by cases g <;> decide

/-- Specification: the table made for a game, among the tables the package loads (`none`: no table is loaded). -/
def ownTable : Name → Option Table
  | .ruby | .sapphire => some .rs
  | .emerald => some .e
  | .fireRed => some .fr
  | .leafGreen => some .lg
  | .diamond | .pearl => some .dp
  | .platinum => some .pt
  | .black | .white => some .bw
  | .black2 | .white2 => some .b2w2
  | .x | .y => some .xy
  | .omegaRuby | .alphaSapphire => some .oras
  | .sun | .moon => some .sm
  | .ultraSun | .ultraMoon => some .usum
  | .sword | .shield => some .swsh
  | .brilliantDiamond | .shiningPearl => some .bdsp
  | .legendsArceus => some .la
  | .gales | .colosseum | .heartGold | .soulSilver => none

/-- The claim: identifiers are distinct single bits, and every game with a table finds it. -/
def C65Statement : Prop :=
  (∀ g : Name, ∃ i < 32, g.value = 1#32 <<< i) ∧ (∀ g h : Name, g.value = h.value → g = h) ∧
    ∀ g t, ownTable g = some t → getInfoTable g.value = .ok t

/-- **C65** (partial: all games but Platinum). -/
theorem C65_partial :
    (∀ g : Name, ∃ i < 32, g.value = 1#32 <<< i) ∧
    (∀ g h : Name, g ≠ .platinum → h ≠ .platinum → g.value = h.value → g = h) ∧
    (∀ g t, g ≠ .platinum → ownTable g = some t → getInfoTable g.value = .ok t) ∧
    ∀ g, ownTable g = none → getInfoTable g.value = .error .notImplemented := by
  refine ⟨fun g => ?_, fun g h hg hh e => ?_, ?_, ?_⟩
  · have h : ∀ g ∈ Name.all, ∃ i < 32, g.value = 1#32 <<< i := by decide +kernel
    exact h g (Name.mem_all g)
  · have H : ∀ g ∈ Name.all, ∀ h ∈ Name.all, g ≠ .platinum → h ≠ .platinum → g.value = h.value → g = h := by
      decide +kernel
    exact H g (Name.mem_all g) h (Name.mem_all h) hg hh e
  · intro g t
    cases g <;> cases t <;> decide +kernel
  · intro g
    cases g <;> decide +kernel

/-- **C65 is false as stated**: Diamond and Platinum have the same identifier, and Platinum is given the table of
Diamond and Pearl. -/
theorem C65_full_false : ¬ C65Statement := by
  intro h
  exact absurd (h.2.1 .diamond .platinum rfl) (by decide)

theorem C65_platinum_table : getInfoTable Name.platinum.value = .ok .dp ∧ ownTable .platinum = some .pt ∧
    ∀ game : BitVec 32, getInfoTable game ≠ .ok .pt := by
  refine ⟨by decide, rfl, fun game => ?_⟩
  have h : ∀ (c : Bool) (t : Table) (e : Except PyErr Table), t ≠ .pt → e ≠ .ok .pt → (if c then .ok t else e) ≠ .ok .pt := by
    intro c t e h1 h2
    cases c
    · simpa using h2
    · simpa using h1
  unfold getInfoTable
  iterate 14 refine h _ _ _ (by decide) ?_
  simp

example : getInfoTable Name.sword.value = .ok .swsh := (C65_partial.2.2.1 .sword .swsh (by decide) rfl)

/-! ### Gen 3 (C66) -/

/-- the Gen 3 games with a table -/
def gen3Mask : BitVec 32 := Game.ruby ||| Game.sapphire ||| Game.emerald ||| Game.fireRed ||| Game.leafGreen

theorem has_or (game a b : BitVec 32) : Game.has game (a ||| b) = (Game.has game a || Game.has game b) := by
  unfold Game.has
  rw [BitVec.and_or_distrib_left, Bool.eq_iff_iff]
  simp only [bne_iff_ne, ne_eq, Bool.or_eq_true]
  have h : game &&& a ||| game &&& b = 0 ↔ game &&& a = 0 ∧ game &&& b = 0 := BitVec.or_eq_zero_iff
  tauto

/-- **C66**: `get_info_table` and `get_info_table_3` agree on every Gen 3 game (even on every combination of
identifiers that contains one). -/
theorem C66_agree (game : BitVec 32) (h : Game.has game gen3Mask) : getInfoTable game = .ok (getInfoTable3 game) := by
  unfold gen3Mask at h
  rw [has_or, has_or, has_or] at h
  unfold getInfoTable getInfoTable3
  by_cases h1 : Game.has game (Game.ruby ||| Game.sapphire)
  · rw [if_pos h1, if_pos h1]
  by_cases h2 : Game.has game Game.emerald
  · rw [if_neg h1, if_neg h1, if_pos h2, if_pos h2]
  by_cases h3 : Game.has game Game.fireRed
  · rw [if_neg h1, if_neg h1, if_neg h2, if_neg h2, if_pos h3, if_pos h3]
  · have h4 : Game.has game Game.leafGreen := by
      simp only [Bool.not_eq_true] at h1 h2 h3
      simpa [h1, h2, h3] using h
    rw [if_neg h1, if_neg h1, if_neg h2, if_neg h2, if_neg h3, if_neg h3, if_pos h4]

example : getInfoTable Game.fireRed = .ok (getInfoTable3 Game.fireRed) ∧ getInfoTable3 Game.fireRed = .fr :=
  ⟨C66_agree _ (by decide), by decide⟩

/-- Each of the five games gets its own table from both. -/
theorem C66_own (g : Name) (t : Table) (hg : g ∈ [Name.ruby, .sapphire, .emerald, .fireRed, .leafGreen])
    (ht : ownTable g = some t) : getInfoTable3 g.value = t ∧ getInfoTable g.value = .ok t := by
  revert hg ht
  cases g <;> cases t <;> decide +kernel

example : getInfoTable3 Name.leafGreen.value = .lg := (C66_own .leafGreen .lg (by decide) rfl).1

/-- Outside Gen 3, `get_info_table_3` silently returns the LeafGreen table. -/
theorem C66_other (game : BitVec 32) (h : Game.has game gen3Mask = false) : getInfoTable3 game = .lg := by
  unfold gen3Mask at h
  rw [has_or, has_or, has_or, Bool.or_eq_false_iff, Bool.or_eq_false_iff, Bool.or_eq_false_iff] at h
  unfold getInfoTable3
  rw [h.1.1.1, h.1.1.2, h.1.2]
  rfl

example : getInfoTable3 Game.sword = .lg := C66_other _ (by decide)

end Verif.Personal
