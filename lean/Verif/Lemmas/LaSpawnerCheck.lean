import Verif.Lemmas.LaSpawner
/-
A check of the spawners and outbreaks of an area, evaluated by the kernel, and what it implies.
-/
namespace Verif.LaFast
open FlatBuffer FlatBufferSpec ShippedLa EncLoadLa ShippedLaSpec

/-! ### the check -/

/-- the keys of the elements, which must all be there -/
def keysOf {α : Type} (f : α → Option Int) : List α → Option (List Nat)
  | [] => some []
  | x :: xs =>
    match f x, keysOf f xs with
    | some (.ofNat n), some ns => force n fun n => some (n :: ns)
    | _, _ => none

def distinctBy {α : Type} (f : α → Option Int) (l : List α) : Bool :=
  match keysOf f l with
  | some ns => distinct ns
  | none => false

def findKey {α : Type} (f : α → Option Int) (k : Nat) : List α → Option α
  | [] => none
  | x :: xs =>
    match f x with
    | some (.ofNat n) =>
      match Nat.beq n k with
      | true => some x
      | false => findKey f k xs
    | _ => none

def isTrue : Option Bool → Bool
  | some true => true
  | _ => false

def placed : Option Vec3F → Bool
  | some ⟨some _, some _, some _⟩ => true
  | _ => false

def counts : Option Int → Option Int → Bool
  | some (.ofNat a), some (.ofNat b) => both (Nat.ble 1 a) (both (Nat.ble a b) (Nat.ble b 4))
  | _, _ => false

def tableIn (is : List Nat) : Option Int → Bool
  | some (.ofNat t) => force t fun t => any (Nat.beq t) is
  | _ => false

def spawnerOk (is lots : List Nat) (s : PlacementSpawner8a) : Bool :=
  both (placed s.coordinates) <| both (counts s.minSpawnCount s.maxSpawnCount) <|
    either (tableIn is s.encounterTableId) (both (isTrue s.isMassOutbreak) (tableIn lots s.encounterTableId))

def spawnersOk (count : Nat) (is lots : List Nat) (N len : Nat) : Bool :=
  match root (spawner N len) N len with
  | none => false
  | some S => both (Nat.beq (size S) count) <| both (distinctBy (·.spawnerId) S) <| both (distinctBy (·.groupId) S)
      (all (spawnerOk is lots) S)

def groupOk (is : List Nat) (g : NewHugeOutbreakGroup8a) : Bool :=
  both (tableIn is g.firstWaveTableId) (both (Nat.ble 1 (size g.waveDetails)) (all (tableIn is) g.waveDetails))

def groupAt (G : List NewHugeOutbreakGroup8a) (is : List Nat) (h : Nat) : Bool :=
  match findKey (·.hash) h G with
  | some g => groupOk is g
  | none => false

def commonOk (G : List NewHugeOutbreakGroup8a) (is : List Nat) : Option Int → Bool
  | some (.ofNat h) => force h fun h => groupAt G is h
  | _ => false

def rareOk (G : List NewHugeOutbreakGroup8a) (is : List Nat) : Option Int → Bool
  | some (.ofNat h) => force h fun h => either (Nat.beq h 0xcbf29ce484222645) (groupAt G is h)
  | _ => false

def lotteryOk (G : List NewHugeOutbreakGroup8a) (is : List Nat) (l : NewHugeOutbreakGroupLottery8a) : Bool :=
  both (Nat.ble 1 (size l.tableCommon)) <| both (all (commonOk G is) l.tableCommon) <|
    both (all (rareOk G is) l.tableRare1) (all (rareOk G is) l.tableRare2)

def lotteryAt (G : List NewHugeOutbreakGroup8a) (is : List Nat) (Ls : List NewHugeOutbreakGroupLottery8a) (h : Nat) : Bool :=
  match findKey (·.hash) h Ls with
  | some l => lotteryOk G is l
  | none => false

def outbreakOk (is lots : List Nat) : Bool :=
  match root (group Data.outbreakGroup 53424) Data.outbreakGroup 53424,
    root (lottery Data.outbreakLottery 10408) Data.outbreakLottery 10408 with
  | some G, some Ls => both (Nat.beq (size G) 166) <| both (Nat.beq (size Ls) 7) <| both (distinctBy (·.hash) G) <|
      both (distinctBy (·.hash) Ls) (all (lotteryAt G is Ls) lots)
  | _, _ => false

/-! ### what it implies -/

theorem keysOf_sound {α : Type} {f : α → Option Int} {l : List α} {ns : List Nat} (h : keysOf f l = some ns) :
    l.map f = ns.map fun n : Nat => some (n : Int) := by
  induction l generalizing ns with
  | nil => cases h; rfl
  | cons x l ih =>
    unfold keysOf at h
    split at h
    · rename_i n ns' hx hl
      rw [force_eq] at h
      cases h
      rw [List.map_cons, List.map_cons, ih hl, hx]
      rfl
    · cases h

/-- every element has a key, and no two have the same -/
def Keyed {α : Type} (f : α → Option Int) (l : List α) : Prop := (∀ x ∈ l, ∃ n : Nat, f x = some (n : Int)) ∧ (l.map f).Nodup

theorem distinctBy_sound {α : Type} {f : α → Option Int} {l : List α} (h : distinctBy f l = true) : Keyed f l := by
  unfold distinctBy at h
  split at h
  · rename_i ns hns
    have hk := keysOf_sound hns
    refine ⟨fun x hx => ?_, ?_⟩
    · have : f x ∈ l.map f := List.mem_map.mpr ⟨x, hx, rfl⟩
      rw [hk] at this
      obtain ⟨n, _, hn⟩ := List.mem_map.mp this
      exact ⟨n, hn.symm⟩
    · rw [hk]
      apply (distinct_sound h).map
      intro a b hab
      simpa using hab
  · cases h

theorem findKey_sound {α : Type} {f : α → Option Int} {k : Nat} {l : List α} {x : α} (h : findKey f k l = some x) :
    x ∈ l ∧ f x = some (k : Int) := by
  induction l with
  | nil => cases h
  | cons y l ih =>
    unfold findKey at h
    split at h
    · rename_i n hn
      split at h
      · rename_i hb
        cases h
        rw [beq_iff] at hb
        exact ⟨List.mem_cons_self, by rw [hn, hb]; rfl⟩
      · exact ⟨List.mem_cons_of_mem _ (ih h).1, (ih h).2⟩
    · cases h

theorem lookup_mem {α : Type} {f : α → Option Int} {l : List α} (h : (l.map f).Nodup) {x : α} (hx : x ∈ l) :
    lookupLast f (f x) l = some x := by
  rw [lookupLast_iff]
  obtain ⟨a, b, rfl⟩ := List.append_of_mem hx
  refine ⟨a, b, rfl, rfl, fun y hy he => ?_⟩
  rw [List.map_append, List.map_cons, List.nodup_append] at h
  have := (List.nodup_cons.mp h.2.1).1
  exact this (by rw [← he]; exact List.mem_map.mpr ⟨y, hy, rfl⟩)

theorem tableIn_sound {is : List Nat} {t : Option Int} (h : tableIn is t = true) : ∃ n ∈ is, t = some (n : Int) := by
  unfold tableIn at h
  split at h
  · rename_i n
    rw [force_eq, any_beq] at h
    exact ⟨n, h, rfl⟩
  · cases h

theorem placed_sound {c : Option Vec3F} (h : placed c = true) : ∃ x y z, c = some ⟨some x, some y, some z⟩ := by
  unfold placed at h
  split at h
  · exact ⟨_, _, _, rfl⟩
  · cases h

theorem counts_sound {a b : Option Int} (h : counts a b = true) :
    ∃ lo hi : Nat, a = some (lo : Int) ∧ b = some (hi : Int) ∧ 1 ≤ lo ∧ lo ≤ hi ∧ hi ≤ 4 := by
  unfold counts at h
  split at h
  · rename_i x y
    rw [both_eq, both_eq, ble_iff, ble_iff, ble_iff] at h
    exact ⟨x, y, rfl, rfl, h.1, h.2.1, h.2.2⟩
  · cases h

theorem isTrue_sound {b : Option Bool} (h : isTrue b = true) : b = some true := by
  unfold isTrue at h
  split at h
  · rfl
  · cases h

/-- what is checked of a spawner -/
structure SpawnerFacts (is lots : List Nat) (s : PlacementSpawner8a) : Prop where
  placed : ∃ x y z, s.coordinates = some ⟨some x, some y, some z⟩
  counts : ∃ lo hi : Nat, s.minSpawnCount = some (lo : Int) ∧ s.maxSpawnCount = some (hi : Int) ∧ 1 ≤ lo ∧ lo ≤ hi ∧ hi ≤ 4
  table : (∃ n ∈ is, s.encounterTableId = some (n : Int)) ∨
    (s.isMassOutbreak = some true ∧ ∃ n ∈ lots, s.encounterTableId = some (n : Int))

theorem spawnersOk_sound {count N len : Nat} {is lots : List Nat} (hl : len ≤ 4294967296)
    (h : spawnersOk count is lots N len = true) :
    ∃ S, rootArray placementSpawner8a (bytesOf len N) = .ok S ∧ S.length = count ∧ Keyed (·.spawnerId) S ∧
      Keyed (·.groupId) S ∧ ∀ s ∈ S, SpawnerFacts is lots s := by
  unfold spawnersOk at h
  split at h
  · cases h
  · rename_i S hS
    rw [both_eq, both_eq, both_eq, beq_iff, size_eq, all_eq] at h
    obtain ⟨h1, h2, h3, h4⟩ := h
    refine ⟨S, root_spawners hl hS, h1, distinctBy_sound h2, distinctBy_sound h3, fun s hs => ?_⟩
    have := h4 s hs
    rw [spawnerOk, both_eq, both_eq, either_eq, both_eq] at this
    obtain ⟨a, b, c⟩ := this
    exact ⟨placed_sound a, counts_sound b, c.imp tableIn_sound fun ⟨d, e⟩ => ⟨isTrue_sound d, tableIn_sound e⟩⟩

/-- what is checked of a group -/
def GroupFacts (is : List Nat) (g : NewHugeOutbreakGroup8a) : Prop :=
  (∃ n ∈ is, g.firstWaveTableId = some (n : Int)) ∧ g.waveDetails ≠ [] ∧ ∀ w ∈ g.waveDetails, ∃ n ∈ is, w = some (n : Int)

theorem groupAt_sound {G : List NewHugeOutbreakGroup8a} (hG : (G.map (·.hash)).Nodup) {is : List Nat} {k : Nat}
    (h : groupAt G is k = true) : ∃ g, groupLookup G (some (k : Int)) = some g ∧ GroupFacts is g := by
  unfold groupAt at h
  split at h
  · rename_i g hg
    obtain ⟨hm, hk⟩ := findKey_sound hg
    rw [groupOk, both_eq, both_eq, ble_iff, size_eq, all_eq] at h
    refine ⟨g, ?_, tableIn_sound h.1, fun hh => ?_, fun w hw => tableIn_sound (h.2.2 w hw)⟩
    · have := lookup_mem (f := (·.hash)) hG hm
      simp only [hk] at this
      exact this
    · have := h.2.1
      rw [hh] at this
      simp at this
  · cases h

/-- what is checked of an outbreak lottery -/
def LotteryFacts (G : List NewHugeOutbreakGroup8a) (is : List Nat) (l : NewHugeOutbreakGroupLottery8a) : Prop :=
  l.tableCommon ≠ [] ∧ (∀ e ∈ l.tableCommon, ∃ g, groupLookup G e = some g ∧ GroupFacts is g) ∧
    ∀ e ∈ l.tableRare1 ++ l.tableRare2, e = some noGroup ∨ ∃ g, groupLookup G e = some g ∧ GroupFacts is g

theorem rareOk_sound {G : List NewHugeOutbreakGroup8a} (hG : (G.map (·.hash)).Nodup) {is : List Nat} {e : Option Int}
    (h : rareOk G is e = true) : e = some noGroup ∨ ∃ g, groupLookup G e = some g ∧ GroupFacts is g := by
  unfold rareOk at h
  split at h
  · rename_i n
    rw [force_eq, either_eq, beq_iff] at h
    rcases h with rfl | h
    · exact .inl rfl
    · exact .inr (groupAt_sound hG h)
  · cases h

theorem commonOk_sound {G : List NewHugeOutbreakGroup8a} (hG : (G.map (·.hash)).Nodup) {is : List Nat} {e : Option Int}
    (h : commonOk G is e = true) : ∃ g, groupLookup G e = some g ∧ GroupFacts is g := by
  unfold commonOk at h
  split at h
  · rw [force_eq] at h
    exact groupAt_sound hG h
  · cases h

theorem outbreakOk_sound {is lots : List Nat} (h : outbreakOk is lots = true) :
    ∃ G Ls, groups = .ok G ∧ lotteries = .ok Ls ∧ G.length = 166 ∧ Ls.length = 7 ∧ Keyed (·.hash) G ∧ Keyed (·.hash) Ls ∧
      ∀ k ∈ lots, ∃ l, lotteryLookup Ls (some (k : Int)) = some l ∧ LotteryFacts G is l := by
  unfold outbreakOk at h
  split at h
  · rename_i G Ls hG hL
    rw [both_eq, both_eq, both_eq, both_eq, beq_iff, beq_iff, size_eq, size_eq, all_eq] at h
    obtain ⟨h1, h2, h3, h4, h5⟩ := h
    have kG := distinctBy_sound h3
    have kL := distinctBy_sound h4
    refine ⟨G, Ls, root_groups (by omega) hG, root_lotteries (by omega) hL, h1, h2, kG, kL, fun k hk => ?_⟩
    have := h5 k hk
    unfold lotteryAt at this
    split at this
    · rename_i l hl
      obtain ⟨hm, hkey⟩ := findKey_sound hl
      rw [lotteryOk, both_eq, both_eq, both_eq, ble_iff, size_eq, all_eq, all_eq, all_eq] at this
      obtain ⟨t1, t2, t3, t4⟩ := this
      refine ⟨l, ?_, fun hh => ?_, fun e he => commonOk_sound kG.2 (t2 e he), fun e he => ?_⟩
      · have := lookup_mem (f := (·.hash)) kL.2 hm
        simp only [hkey] at this
        exact this
      · rw [hh] at t1; simp at t1
      · rcases List.mem_append.mp he with he | he
        · exact rareOk_sound kG.2 (t3 e he)
        · exact rareOk_sound kG.2 (t4 e he)
    · cases this
  · cases h

end Verif.LaFast
