import Verif.Lemmas.PersonalTables
/-
C116: the personal tables of generations 4 to 8, as loaded from the shipped files.
-/
namespace Verif.ShippedPersonal
open Personal ShippedPersonalSpec

/-- **C116**, loading: every table loads, with the number of entries of the game's table; the lengths of the files are those
used for C67. -/
theorem C116_load (t : Table) (ht : t ∈ tables) :
    fileSizes.lookup t.source.1 = some (file t).length ∧ ∃ rs, load t = .ok rs ∧ rs.length = (entryCount t).1 := by
  have hl := (facts t ht).1
  refine ⟨?_, records t, load_eq t ht, hl⟩
  rw [(C67_shipped t).1, file_eq t ht, flatMap_length, ← records_length, hl, (size_eq t ht).1]

/-- **C116**, values: the base stats of an entry are all zero (an entry that the game does not have) or all nonzero; types,
gender threshold and growth rate are ones that exist; an entry that the game has has two egg groups, 1 to 28 forms and a yield of
experience. The game has all the entries but number 0, except in Sword/Shield and Legends Arceus. -/
theorem C116_records (t : Table) (ht : t ∈ tables) (rs : List (List Value)) (h : load t = .ok rs) (i : Nat) (hi : i < rs.length) :
    RecordFacts t rs i ∧ (i = 0 → ¬ Present t rs i) ∧ (i ≠ 0 → t ≠ .swsh → t ≠ .la → Present t rs i) := by
  rw [load_eq t ht] at h
  cases h
  obtain ⟨hl, h1, h2, _⟩ := facts t ht
  have hp := h2 i (by omega)
  have hi' : i < (pieces t).2.length := by rwa [records_length] at hi
  refine ⟨h1 i (by omega), ?_, ?_⟩
  · rintro rfl
    rw [Present, hp_eq t ht 0 hi', not_not]
    exact (isZero_eq _).1 hp
  · intro h0 hs hla
    rw [Present, hp_eq t ht i hi']
    obtain ⟨j, rfl⟩ := Nat.exists_eq_succ_of_ne_zero h0
    have : Nat.ble 1 (dig (piece t (j + 1)) 0 1) = true := by
      cases t <;> first | exact absurd rfl hs | exact absurd rfl hla | exact hp
    rw [Nat.ble_eq] at this
    exact Nat.pos_iff_ne_zero.1 this

/-- **C116**, forms: the records that the entries of a table refer to as their further forms exist and come after the entries; no
record is the one of two forms; and every record after the entries is the one of a form (except in Sword/Shield). -/
theorem C116_forms (t : Table) (ht : t ∈ tables) (rs : List (List Value)) (h : load t = .ok rs) :
    (∀ i j k, FormOf t rs i j k → firstForm t ≤ k ∧ k < rs.length) ∧
    (∀ i j i' j' k, FormOf t rs i j k → FormOf t rs i' j' k → i = i' ∧ j = j') ∧
    (t ≠ .swsh → ∀ k, firstForm t ≤ k → k < rs.length → ∃ i j, FormOf t rs i j k) ∧
    (∀ i < firstForm t, entry t rs i "form_stats_index" ≠ 0 → 2 ≤ entry t rs i "form_count") := by
  rw [load_eq t ht] at h
  cases h
  obtain ⟨hl, _, _, _, hf⟩ := facts t ht
  have hk : ∀ i j k, FormOf t (records t) i j k → firstForm t ≤ k ∧ k < (records t).length := by
    rintro i j k ⟨hi, hj, hj', hz, rfl⟩
    have := hf.range i hi hz
    omega
  exact ⟨hk, fun i j i' j' k h1 h2 => hf.one k (hk i j k h1).1 (hk i j k h1).2 i j i' j' h1 h2, hf.all,
    fun i hi hz => (hf.range i hi hz).2.1⟩

theorem place_species : place "species" layout8BDSP = some (60, .u16) ∧ place "species" layout8LA = some (92, .u16) ∧
    place "form" layout8LA = some (94, .u16) ∧ place "species" layout8SWSH = some (76, .u16) := by decide +kernel

/-- **C116**, the field `species` of Brilliant Diamond/Shining Pearl and Legends Arceus is the number of the species, also in the
records of further forms; in Legends Arceus, the field `form` is the number of the form. -/
theorem C116_species (t : Table) (ht : t = .bdsp ∨ t = .la) (rs : List (List Value)) (h : load t = .ok rs) :
    (∀ i < firstForm t, entry t rs i "species" = i ∧ (t = .la → entry t rs i "form" = 0)) ∧
    ∀ i j k, FormOf t rs i j k → entry t rs k "species" = i ∧ (t = .la → entry t rs k "form" = j) := by
  have ht' : t ∈ tables := by rcases ht with rfl | rfl <;> decide
  have hfk := (C116_forms t ht' rs h).1
  rw [load_eq t ht'] at h
  cases h
  obtain ⟨hl, _, _, hb, hf⟩ := facts t ht'
  have hn := (tablesOk t ht').2
  have hlen : (records t).length = (pieces t).2.length := records_length t
  rcases ht with rfl | rfl
  · have e : ∀ i < (records .bdsp).length, entry .bdsp (records .bdsp) i "species" = dig (piece .bdsp i) 60 2 := fun i hi =>
      entry_eq .bdsp i "species" _ _ (by omega) place_species.1 (.inr rfl)
    refine ⟨fun i hi => ⟨?_, fun h => by cases h⟩, fun i j k hk => ⟨?_, fun h => by cases h⟩⟩
    · rw [e i (by omega)]
      exact Nat.eq_of_beq_eq_true (hb i hi)
    · rw [e k (hfk i j k hk).2]
      have := hf.form i j k hk
      rw [formOk, both_eq, both_eq, Nat.beq_eq, Nat.beq_eq, Nat.beq_eq] at this
      exact this.2.2
  · have e : ∀ i < (records .la).length, entry .la (records .la) i "species" = dig (piece .la i) 92 2 := fun i hi =>
      entry_eq .la i "species" _ _ (by omega) place_species.2.1 (.inr rfl)
    have e' : ∀ i < (records .la).length, entry .la (records .la) i "form" = dig (piece .la i) 94 2 := fun i hi =>
      entry_eq .la i "form" _ _ (by omega) place_species.2.2.1 (.inr rfl)
    refine ⟨fun i hi => ?_, fun i j k hk => ?_⟩
    · rw [e i (by omega), e' i (by omega)]
      have := hb i hi
      rw [baseOk, both_eq, Nat.beq_eq, isZero_eq] at this
      exact ⟨this.1, fun _ => this.2⟩
    · rw [e k (hfk i j k hk).2, e' k (hfk i j k hk).2]
      have := hf.form i j k hk
      rw [formOk, both_eq, Nat.beq_eq, Nat.beq_eq] at this
      refine ⟨this.1, fun _ => ?_⟩
      have h2 : dig (piece .la k) 94 2 + entry .la (records .la) i "form_stats_index" = k + 1 := this.2
      obtain ⟨_, _, _, _, h3⟩ := hk
      omega

/-- **C116**, in Sun/Moon, Ultra Sun/Ultra Moon and Brilliant Diamond/Shining Pearl the records of further forms repeat the
number of forms and the position of their records. -/
theorem C116_repeat (t : Table) (ht : t ∈ [Table.sm, .usum, .bdsp]) (rs : List (List Value)) (h : load t = .ok rs) (i j k : Nat)
    (hk : FormOf t rs i j k) :
    entry t rs k "form_count" = entry t rs i "form_count" ∧ entry t rs k "form_stats_index" = entry t rs i "form_stats_index" := by
  have ht' : t ∈ tables := by
    simp only [List.mem_cons, List.not_mem_nil, or_false] at ht
    rcases ht with rfl | rfl | rfl <;> decide
  have hkn := ((C116_forms t ht' rs h).1 i j k hk).2
  rw [load_eq t ht'] at h
  cases h
  have := (facts t ht').2.2.2.2.form i j k hk
  rw [records_length] at hkn
  rw [count_eq t ht' k hkn, index_eq t ht' k hkn]
  simp only [List.mem_cons, List.not_mem_nil, or_false] at ht
  rcases ht with rfl | rfl | rfl <;> simp only [formOk, both_eq, Nat.beq_eq] at this
  · exact ⟨this.2, this.1⟩
  · exact ⟨this.2, this.1⟩
  · exact ⟨this.2.1, this.1⟩

/-- In Sword/Shield, the field called `species` is not the number of the species: record 659 is the one of Bunnelby, number 659,
and has the value 711 there. -/
theorem C116_swsh_species (rs : List (List Value)) (h : load .swsh = .ok rs) :
    Present .swsh rs 659 ∧ entry .swsh rs 659 "species" = 711 := by
  have ht : Table.swsh ∈ tables := by decide
  have hl := (facts .swsh ht).1
  have hn : 659 < (pieces .swsh).2.length := by rw [← records_length, hl]; decide
  rw [load_eq .swsh ht] at h
  cases h
  rw [Present, hp_eq .swsh ht 659 hn, entry_eq .swsh 659 "species" _ _ hn place_species.2.2.2 (.inr rfl), ← dig_eq]
  decide +kernel

/-- What Platinum loses by being given the table of Diamond and Pearl (C65): there, Rotom, Giratina and Shaymin have one form, in
the table made for Platinum six, two and two. -/
theorem C116_platinum (rs rs' : List (List Value)) (h : load .dp = .ok rs) (h' : load .pt = .ok rs') :
    getInfoTable Name.platinum.value = .ok .dp ∧
    [479, 487, 492].map (fun i => entry .dp rs i "form_count") = [1, 1, 1] ∧
    [479, 487, 492].map (fun i => entry .pt rs' i "form_count") = [6, 2, 2] ∧
    ∀ i j k, i ∈ [479, 487, 492] → ¬ FormOf .dp rs i j k := by
  have ht : Table.dp ∈ tables := by decide
  have ht' : Table.pt ∈ tables := by decide
  rw [load_eq _ ht] at h
  rw [load_eq _ ht'] at h'
  cases h
  cases h'
  have hn : (pieces .dp).2.length = 501 := by rw [← records_length, (facts .dp ht).1]; rfl
  have hn' : (pieces .pt).2.length = 508 := by rw [← records_length, (facts .pt ht').1]; rfl
  have e : [479, 487, 492].map (fun i => entry .dp (records .dp) i "form_count") = [1, 1, 1] := by
    simp only [List.map_cons, List.map_nil]
    rw [count_eq .dp ht _ (by omega), count_eq .dp ht _ (by omega), count_eq .dp ht _ (by omega)]
    decide +kernel
  refine ⟨C65_platinum_table.1, e, ?_, ?_⟩
  · simp only [List.map_cons, List.map_nil]
    rw [count_eq .pt ht' _ (by omega), count_eq .pt ht' _ (by omega), count_eq .pt ht' _ (by omega)]
    decide +kernel
  · rintro i j k hi ⟨_, h1, h2, _⟩
    simp only [List.map_cons, List.map_nil, List.cons.injEq] at e
    simp only [List.mem_cons, List.not_mem_nil, or_false] at hi
    rcases hi with rfl | rfl | rfl <;> omega

/-- Deoxys in Diamond and Pearl: record 496 is the one of its form 1. -/
example : FormOf .dp (records .dp) 386 1 496 := by
  have ht : Table.dp ∈ tables := by decide
  have hn : 386 < (pieces .dp).2.length := by rw [← records_length, (facts .dp ht).1]; decide
  rw [FormOf, count_eq .dp ht 386 hn, index_eq .dp ht 386 hn]
  decide +kernel

/-- A Hisuian form: record 914 of Legends Arceus is form 1 of Pikachu. -/
example : FormOf .la (records .la) 25 1 914 := by
  have ht : Table.la ∈ tables := by decide
  have hn : 25 < (pieces .la).2.length := by rw [← records_length, (facts .la ht).1]; decide
  rw [FormOf, count_eq .la ht 25 hn, index_eq .la ht 25 hn]
  decide +kernel

end Verif.ShippedPersonal
