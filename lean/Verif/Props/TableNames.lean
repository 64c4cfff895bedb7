import Verif.Lemmas.TableNamesText
import Verif.Props.ShippedLa
/-
C112: the names of the encounter tables of Legends Arceus that ship with the library.
-/
namespace Verif.TableNames
open TableNamesSpec
open Json (Str lookup lookup_nodup)
open JsonSpec (plainChar)

/-- the names of the file -/
private def inFile : List Str := families.flatMap fun f => f.2.map (f.1 ++ ·)

private theorem clean_name : ∀ n ∈ inFile, n.all plainChar = true := by
  have h := clean
  rw [cleanOk, List.all_eq_true] at h
  intro n hn
  obtain ⟨f, hf, hn⟩ := List.mem_flatMap.1 hn
  obtain ⟨s, hs, rfl⟩ := List.mem_map.1 hn
  have := h f hf
  rw [Bool.and_eq_true, List.all_eq_true (p := fun s : Str => s.all plainChar)] at this
  rw [List.all_append, this.1, this.2 s hs]
  rfl

private theorem keys_good : keysGood (inFile.map fnv).reverse = true := by
  have h := keys
  rw [keysOk, fastKeys_eq, List.append_nil] at h
  exact h

private theorem fnv_nodup : (inFile.map fnv).Nodup := by
  have h := keys_good
  rw [keysGood, Bool.and_eq_true] at h
  exact List.nodup_reverse.1 (joint_sound (by decide) h.2).1

/-- the number of tables of an area that have a name -/
def namedCount : Nat → Nat
  | 1 => 221
  | 2 => 253
  | 3 => 218
  | 4 => 189
  | 5 => 238
  | _ => 0

/-- the number of ids that are hashes -/
private def counted (ks l : List Nat) : Nat := (l.filter fun x => decide (x ∈ ks)).length

private theorem counted_reverse (ks l : List Nat) : counted ks.reverse l = counted ks l := by
  rw [counted, counted]
  congr 2
  funext x
  simp

private theorem total_ids (tag : Nat) {l : List Nat} (hl : idsOk l = true) (ks : List Nat) :
    total ks.reverse (tagged tag l) = counted ks l * 2 ^ (16 * tag) ∧ counted ks l < 65536 := by
  rw [idsOk, Bool.and_eq_true] at hl
  constructor
  · rw [total_tagged tag hl.1, ← counted_reverse]
    rfl
  · exact Nat.lt_of_le_of_lt (List.length_filter_le _ _) (Nat.blt_eq ▸ hl.2)

private theorem counts_of {ks : List Nat} (hk : keysGood ks.reverse = true) {area : Nat} (h : 1 ≤ area ∧ area ≤ 5) :
    ((ShippedLa.idsOf area).filter fun x => decide (x ∈ ks)).length = namedCount area := by
  rw [keysGood, Bool.and_eq_true] at hk
  have ht := Nat.eq_of_beq_eq_true (joint_sound (by decide) hk.2).2
  rw [tags, total_append, total_append, total_append, total_append] at ht
  obtain ⟨t1, b1⟩ := total_ids 1 ids1_ok ks
  obtain ⟨t2, b2⟩ := total_ids 2 ids2_ok ks
  obtain ⟨t3, b3⟩ := total_ids 3 ids3_ok ks
  obtain ⟨t4, b4⟩ := total_ids 4 ids4_ok ks
  obtain ⟨t5, b5⟩ := total_ids 5 ids5_ok ks
  rw [t1, t2, t3, t4, t5] at ht
  have hc : counted ks Data.ids1 = 221 ∧ counted ks Data.ids2 = 253 ∧ counted ks Data.ids3 = 218 ∧ counted ks Data.ids4 = 189 ∧
      counted ks Data.ids5 = 238 := by
    generalize counted ks Data.ids1 = c1 at *
    generalize counted ks Data.ids2 = c2 at *
    generalize counted ks Data.ids3 = c3 at *
    generalize counted ks Data.ids4 = c4 at *
    generalize counted ks Data.ids5 = c5 at *
    clear t1 t2 t3 t4 t5 hk
    norm_num at ht
    omega
  obtain ⟨a, b⟩ := h
  interval_cases area
  · exact hc.1
  · exact hc.2.1
  · exact hc.2.2.1
  · exact hc.2.2.2.1
  · exact hc.2.2.2.2

private theorem mem_inFile (n : Str) : n ∈ inFile ↔ n ∈ names := by
  have h1 : ∀ p k, (List.range 150).map (fun i => str p ++ str "_" ++ str k ++ str "_" ++ two i) =
      ((List.range 150).map two).map ((str p ++ str "_" ++ str k ++ str "_") ++ ·) := by
    intro p k
    rw [List.map_map]
    rfl
  have h2 : ∀ g i, below (str g) i = tails.map (gimmick (str g) i ++ ·) := by
    intro g i
    simp only [below, tails, List.map_flatMap, List.map_cons, List.map_map]
    simp [Function.comp_def]
  have hp : plain = (["eve", "fly", "gmk", "lnd", "mas", "oyb", "swm", "whl"].flatMap fun p => ["ex", "no", "ra"].map fun k =>
      (str p ++ str "_" ++ str k ++ str "_", (List.range 150).map two)).flatMap fun f => f.2.map (f.1 ++ ·) := by
    simp only [plain, List.flatMap_assoc, List.flatMap_map, h1]
  have hs : sky = ((List.range 6).map fun a => (str "sky_area" ++ [48 + a] ++ str "_", (List.range 10).map two)).flatMap
      fun f => f.2.map (f.1 ++ ·) := by
    simp only [sky, List.flatMap_map, List.map_map]
    rfl
  have hg : ∀ g, gimmicks (str g) = ((List.range 100).map fun i => (gimmick (str g) i, [] :: tails)).flatMap
      fun f => f.2.map (f.1 ++ ·) := by
    intro g
    simp only [gimmicks, List.flatMap_map, h2, List.map_cons, List.append_nil]
  have hn : ((List.range 100).map fun i => (gimmick (str "no") i, tails)).flatMap (fun f => f.2.map (f.1 ++ ·)) =
      (List.range 100).flatMap (below (str "no")) := by
    simp only [List.flatMap_map, ← h2]
  have he : inFile = plain ++ sky ++ single ++ (List.range 100).flatMap (below (str "no")) ++
      ["tree", "rock", "crystal", "snow", "box"].flatMap fun g => gimmicks (str g) := by
    rw [inFile, families, List.flatMap_append, List.flatMap_append, List.flatMap_append, List.flatMap_append, ← hp, ← hs, hn,
      List.flatMap_assoc]
    simp only [← hg]
    rfl
  have hm : ∀ i ∈ List.range 100, gimmick (str "no") i ∈ plain := by
    intro i hi
    rw [plain]
    refine List.mem_flatMap.2 ⟨"gmk", by simp, List.mem_flatMap.2 ⟨"no", by simp, List.mem_map.2 ⟨i, ?_, ?_⟩⟩⟩
    · rw [List.mem_range] at hi ⊢
      omega
    · rfl
  have hno : n ∈ gimmicks (str "no") ↔ (∃ i ∈ List.range 100, n = gimmick (str "no") i) ∨
      n ∈ (List.range 100).flatMap (below (str "no")) := by
    simp only [gimmicks, List.mem_flatMap, List.mem_cons]
    constructor
    · rintro ⟨i, hi, h | h⟩
      · exact .inl ⟨i, hi, h⟩
      · exact .inr ⟨i, hi, h⟩
    · rintro (⟨i, hi, h⟩ | ⟨i, hi, h⟩)
      · exact ⟨i, hi, .inl h⟩
      · exact ⟨i, hi, .inr h⟩
  have hnames : names = plain ++ sky ++ single ++ (gimmicks (str "no") ++
      ["tree", "rock", "crystal", "snow", "box"].flatMap fun g => gimmicks (str g)) := rfl
  rw [he, hnames]
  simp only [List.mem_append, hno]
  constructor
  · rintro (h | h)
    · rcases h with h | h
      · exact .inl h
      · exact .inr (.inl (.inr h))
    · exact .inr (.inr h)
  · rintro (h | (⟨i, hi, rfl⟩ | h) | h)
    · exact .inl (.inl h)
    · exact .inl (.inl (.inl (.inl (hm i hi))))
    · exact .inl (.inr h)
    · exact .inr h

private theorem loaded_eq : encounterTableNames = some (inFile.map fun n => (fnv n, n)) := by
  have hf : namesFile = joined [123] (membersOf inFile) ++ [125] := by
    have h := fastFile_sound (q := [123]) (by decide)
      (fun f hf s hs => clean_name _ (List.mem_flatMap.2 ⟨f, hf, List.mem_map.2 ⟨s, hs, rfl⟩⟩)) text_same
    rw [Nat.digits_zero, List.nil_append] at h
    exact h
  have hc : ∀ m ∈ membersOf inFile, m.1.all plainChar = true ∧ m.2.all plainChar = true := by
    intro m hm
    obtain ⟨n, hn, rfl⟩ := List.mem_map.1 hm
    exact ⟨dec_plain (fnv_lt n), clean_name n hn⟩
  have h0 : membersOf inFile ≠ [] := by
    intro h
    have hm := (mem_inFile (str "eve_ex_16_b")).2 (by simp [names, single])
    rw [membersOf, List.map_eq_nil_iff] at h
    rw [h] at hm
    exact absurd hm List.not_mem_nil
  rw [encounterTableNames, hf, loads_joined h0 hc (nodup_membersOf fnv_nodup), hook_membersOf fnv_nodup]

private theorem step (b : BitVec 64) (c P : Nat) :
    ((b ^^^ BitVec.ofNat 64 c) * BitVec.ofNat 64 P).toNat = (b.toNat ^^^ c) * P % 2 ^ 64 := by
  rw [BitVec.toNat_mul, BitVec.toNat_xor, BitVec.toNat_ofNat, BitVec.toNat_ofNat, Nat.mul_mod_mod,
    show b.toNat ^^^ c % 2 ^ 64 = (b.toNat ^^^ c) % 2 ^ 64 by rw [Nat.xor_mod_two_pow, Nat.mod_eq_of_lt b.isLt], Nat.mod_mul_mod]

/-- the model of `fnv1a_64` on a string is the hash -/
theorem fnv_model (s : Str) : (Util.fnv1a (s.map (BitVec.ofNat 64))).toNat = fnv s := by
  have h : ∀ (P : Nat) (s : Str) (b : BitVec 64), ((s.map (BitVec.ofNat 64)).foldl (fun h c => (h ^^^ c) * BitVec.ofNat 64 P) b).toNat =
      s.foldl (fun h c => (h ^^^ c) * P % 2 ^ 64) b.toNat := by
    intro P s
    induction s with
    | nil => intro b; rfl
    | cons c s ih =>
      intro b
      rw [List.map_cons, List.foldl_cons, ih, List.foldl_cons, step]
  exact h 0x100000001B3 s _

/-- **C112**: `ENCOUNTER_TABLE_NAMES_LA` loads, and maps the `fnv1a_64` of every name to the name, and nothing else to anything. The
names are those of the comment (`names`). -/
theorem C112_lookup : ∃ d, encounterTableNames = some d ∧ d.length = 11363 ∧
    ∀ k v, lookup d k = some v ↔ v ∈ names ∧ k = (Util.fnv1a (v.map (BitVec.ofNat 64))).toNat := by
  refine ⟨_, loaded_eq, ?_, fun k v => ?_⟩
  · rw [List.length_map]
    have h := keys_good
    rw [keysGood, Bool.and_eq_true] at h
    have := Nat.eq_of_beq_eq_true h.1
    rwa [List.length_reverse, List.length_map] at this
  · have hk : ((inFile.map fun n => (fnv n, n)).map (·.1)).Nodup := by
      have : (inFile.map fun n => (fnv n, n)).map (·.1) = inFile.map fnv := by
        rw [List.map_map]
        rfl
      rw [this]
      exact fnv_nodup
    rw [lookup_nodup hk, fnv_model, ← mem_inFile, List.mem_map]
    constructor
    · rintro ⟨n, hn, h⟩
      cases h
      exact ⟨hn, rfl⟩
    · rintro ⟨hn, rfl⟩
      exact ⟨v, hn, rfl⟩

/-- the name of the table with the odd levels (C105) -/
example : ∃ d, encounterTableNames = some d ∧ lookup d ShippedLaSpec.oddLevels.2 = some (str "mas_no_02") := by
  obtain ⟨d, h1, -, h2⟩ := C112_lookup
  refine ⟨d, h1, (h2 _ _).2 ⟨?_, by rw [fnv_model]; decide +kernel⟩⟩
  refine List.mem_append_left _ (List.mem_append_left _ (List.mem_append_left _ ?_))
  exact List.mem_flatMap.2 ⟨"mas", by simp, List.mem_flatMap.2 ⟨"no", by simp, List.mem_map.2 ⟨2, by simp, rfl⟩⟩⟩

/-- two names with the same hash are the same -/
theorem C112_distinct {v w : Str} (hv : v ∈ names) (hw : w ∈ names)
    (h : Util.fnv1a (v.map (BitVec.ofNat 64)) = Util.fnv1a (w.map (BitVec.ofNat 64))) : v = w := by
  obtain ⟨d, -, -, hd⟩ := C112_lookup
  have h1 := (hd _ v).2 ⟨hv, rfl⟩
  have h2 := (hd _ w).2 ⟨hw, rfl⟩
  rw [h, h2] at h1
  exact (Option.some.inj h1).symm

/-- of the encounter tables of an area that are loaded (C104), this many have a name; for the others the lookup raises
`KeyError` -/
theorem C112_tables (area : Nat) (h : 1 ≤ area ∧ area ≤ 5) :
    ∃ d L, encounterTableNames = some d ∧ ShippedLa.encounterTables area = .ok L ∧
      (L.filter fun t => (lookup d t.1.toNat).isSome).length = namedCount area := by
  obtain ⟨d, h1, -, h2⟩ := C112_lookup
  obtain ⟨L, h3, -⟩ := ShippedLa.C104_loads area h
  refine ⟨d, L, h1, h3, ?_⟩
  have hd : ∀ k, (lookup d k).isSome = decide (k ∈ inFile.map fnv) := by
    intro k
    rw [Bool.eq_iff_iff, Option.isSome_iff_exists, decide_eq_true_iff, List.mem_map]
    constructor
    · rintro ⟨v, hv⟩
      have := (h2 k v).1 hv
      exact ⟨v, (mem_inFile v).2 this.1, by rw [this.2, fnv_model]⟩
    · rintro ⟨v, hv, rfl⟩
      exact ⟨v, (h2 _ v).2 ⟨(mem_inFile v).1 hv, (fnv_model v).symm⟩⟩
  have he : (L.filter fun t => (lookup d t.1.toNat).isSome).length =
      ((ShippedLa.idsOf area).filter fun x => decide (x ∈ inFile.map fnv)).length := by
    rw [← ShippedLa.loaded_ids h h3, List.filter_map, List.length_map]
    refine congrArg List.length (List.filter_congr fun t _ => ?_)
    rw [Function.comp_apply]
    exact hd _
  rw [he]
  exact counts_of keys_good h

end Verif.TableNames
