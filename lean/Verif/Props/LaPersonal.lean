import Verif.Lemmas.LaPersonal
import Verif.Props.ShippedLa
import Verif.Props.ShippedPersonal
/-
C117: the slots of the encounter tables of Legends Arceus and the personal table of the game.
-/
namespace Verif.ShippedLa
open EncLoadLa Personal ShippedPersonal ShippedPersonalSpec

/-- **C117**: every slot of every encounter table of the five areas names a species and a form that the personal table of the
game has: there is a record of that form (for form 0 the one with the number of the species), its fields `species` and `form` say
so, its base stats are not zero; and if the slot fixes the gender then the species has both genders. -/
theorem C117_slots (area : Nat) (h : 1 ≤ area ∧ area ≤ 5) (L : List (BitVec 64 × List SlotLA)) (hL : encounterTables area = .ok L)
    (t : BitVec 64 × List SlotLA) (ht : t ∈ L) (s : SlotLA) (hs : s ∈ t.2) (rs : List (List Value)) (hr : load .la = .ok rs) :
    ∃ k < rs.length,
      ((s.form = 0#8 ∧ k = s.species.toNat) ∨ FormOf .la rs s.species.toNat s.form.toNat k) ∧
      entry .la rs k "species" = s.species.toNat ∧ entry .la rs k "form" = s.form.toNat ∧
      (∀ x ∈ stats, entry .la rs k x ≠ 0) ∧
      (s.gender ≠ 255#8 → 0 < entry .la rs k "gender_ratio" ∧ entry .la rs k "gender_ratio" < 254) := by
  have hk := loaded_known h hL t ht s hs
  have hf : s.form.toNat ≤ 27 := by
    obtain ⟨L', h1, _, _, h4⟩ := C104_loads area h
    rw [hL] at h1
    cases h1
    exact ((h4 t ht).2.2 s hs).form
  have hla : Table.la ∈ tables := by decide
  have hrec := C116_records .la hla rs hr
  have hsp := C116_species .la (.inr rfl) rs hr
  have hfo := C116_forms .la hla rs hr
  rw [load_eq .la hla] at hr
  cases hr
  have hlen : (records .la).length = 1276 := (ShippedPersonal.facts .la hla).1
  obtain ⟨hs906, k, h1, h2⟩ := la_known _ _ (by omega) hk.code
  have hkl : k < (records .la).length := by
    rcases h1 with ⟨_, rfl⟩ | h1
    · omega
    · exact (hfo.1 _ _ _ h1).2
  have hfs : entry .la (records .la) k "species" = s.species.toNat ∧ entry .la (records .la) k "form" = s.form.toNat := by
    rcases h1 with ⟨h0, rfl⟩ | h1
    · obtain ⟨a, b⟩ := hsp.1 _ (show s.species.toNat < firstForm .la from hs906)
      exact ⟨a, by rw [b rfl, h0]⟩
    · obtain ⟨a, b⟩ := hsp.2 _ _ _ h1
      exact ⟨a, b rfl⟩
  refine ⟨k, hkl, ?_, hfs.1, hfs.2, ?_, ?_⟩
  · rcases h1 with ⟨h0, rfl⟩ | h1
    · exact .inl ⟨BitVec.eq_of_toNat_eq h0, rfl⟩
    · exact .inr h1
  · rcases (hrec k hkl).1.stats with hst | hst
    · exact hst
    · exact absurd (hst "hp" (by decide)) h2
  · intro hg
    have hg' : s.gender.toNat ≠ 255 := fun h' => hg (BitVec.eq_of_toNat_eq h')
    obtain ⟨e1, e2⟩ := hk.gender.resolve_left hg'
    rcases h1 with ⟨h0, _⟩ | h1
    · omega
    · rw [e1, e2] at h1
      have hn : 550 < (pieces .la).2.length := by rw [← records_length, hlen]; decide
      obtain ⟨_, _, _, _, hk'⟩ := h1
      rw [index_eq .la hla 550 hn, show dig (piece .la 550) (places .la).index 2 = 1079 by decide +kernel] at hk'
      subst hk'
      rw [records_length] at hkl
      rw [entry_eq .la _ "gender_ratio" _ _ hkl (place_ok .la hla).2.2.2.1 (.inl rfl), ← dig_eq]
      decide +kernel

/-- All areas load, and their tables have slots, so the hypotheses of `C117_slots` are met; e.g. in area 1. -/
example : ∃ L rs, encounterTables 1 = .ok L ∧ load .la = .ok rs ∧ ∃ t ∈ L, ∃ s, s ∈ t.2 := by
  obtain ⟨L, h1, h2, _, h4⟩ := C104_loads 1 (by omega)
  obtain ⟨_, rs, h5, _⟩ := C116_load .la (by decide)
  obtain ⟨t, ht⟩ := List.exists_mem_of_ne_nil L (by intro h; rw [h] at h2; cases h2)
  exact ⟨L, rs, h1, h5, t, ht, List.exists_mem_of_ne_nil _ (h4 t ht).1⟩

end Verif.ShippedLa
