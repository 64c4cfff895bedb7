import Verif.Props.Odds3
/-
C129: every combination of nature, gender, ability and trainer has shiny PIDs in Gen 3.
-/
namespace Verif.Gen3
open Spec.Gen3

theorem xor_bytes (a b c d : Nat) (hb : b < 256) (hd : d < 256) : (256 * a + b) ^^^ (256 * c + d) = 256 * (a ^^^ c) + (b ^^^ d) := by
  have h1 := Nat.xor_div_two_pow (a := 256 * a + b) (b := 256 * c + d) (n := 8)
  have h2 := Nat.xor_mod_two_pow (a := 256 * a + b) (b := 256 * c + d) (n := 8)
  norm_num at h1 h2
  rw [show (256 * a + b) / 256 = a by omega, show (256 * c + d) / 256 = c by omega] at h1
  rw [Nat.mod_eq_of_lt hb, Nat.mod_eq_of_lt hd] at h2
  have := Nat.div_add_mod ((256 * a + b) ^^^ (256 * c + d)) 256
  rw [h1, h2] at this
  exact this.symm

/-- the upper byte of the lower half and three bits of the lower byte of the upper half, for every residue -/
theorem residues : ∀ t < 256, ∀ c < 25, ∃ h < 256, ∃ j < 8, (16 * (h ^^^ t) + 6 * h + 11 * j) % 25 = c := by
  have : (List.range 256).all (fun t => (List.range 25).all fun c => (List.range 256).any fun h => (List.range 8).any fun j =>
      (16 * (h ^^^ t) + 6 * h + 11 * j) % 25 == c) = true := by decide +kernel
  intro t ht c hc
  rw [List.all_eq_true] at this
  have := this t (List.mem_range.2 ht)
  rw [List.all_eq_true] at this
  have := this c (List.mem_range.2 hc)
  rw [List.any_eq_true] at this
  obtain ⟨h, hh, this⟩ := this
  rw [List.any_eq_true] at this
  obtain ⟨j, hj, this⟩ := this
  exact ⟨h, List.mem_range.1 hh, j, List.mem_range.1 hj, by simpa using this⟩

theorem near : ∀ z < 256, ∀ j < 8, (8 * (z / 8) + j) ^^^ z < 8 := by decide +kernel

/-- **C129**: for every trainer, every lowest byte of the PID (it decides gender and ability) and every nature there is a shiny PID. -/
theorem C129_byte (tsv : BitVec 16) (b : Nat) (hb : b < 256) (n : Nat) (hn : n < 25) :
    ∃ pid : BitVec 32, pid.toNat % 256 = b ∧ pid.toNat % 25 = n ∧ getShiny pid tsv ≠ 0 := by
  have ht := tsv.isLt
  obtain ⟨th, tl, hth, htl, e⟩ : ∃ th tl, th < 256 ∧ tl < 256 ∧ tsv.toNat = 256 * th + tl :=
    ⟨tsv.toNat / 256, tsv.toNat % 256, by omega, by omega, by omega⟩
  have hz : b ^^^ tl < 256 := Nat.xor_lt_two_pow (n := 8) hb htl
  obtain ⟨h, hh, j, hj, hr⟩ := residues th hth ((n + 25 * 256 - 11 * (8 * ((b ^^^ tl) / 8)) % 25 - b) % 25) (by omega)
  have hx : h ^^^ th < 256 := Nat.xor_lt_two_pow (n := 8) hh hth
  have hnear := near _ hz j hj
  generalize hy : 8 * ((b ^^^ tl) / 8) + j = y at hnear
  have hy' : y < 256 := by omega
  generalize hX : h ^^^ th = X at hr hx
  have hlt : 65536 * (256 * X + y) + (256 * h + b) < 2 ^ 32 := by omega
  refine ⟨BitVec.ofNat 32 (65536 * (256 * X + y) + (256 * h + b)), ?_, ?_, ?_⟩
  · rw [BitVec.toNat_ofNat, Nat.mod_eq_of_lt hlt]
    omega
  · rw [BitVec.toNat_ofNat, Nat.mod_eq_of_lt hlt]
    omega
  · rw [C49_shiny, BitVec.toNat_ofNat, Nat.mod_eq_of_lt hlt, show (65536 * (256 * X + y) + (256 * h + b)) / 2 ^ 16 = 256 * X + y by omega,
      show (65536 * (256 * X + y) + (256 * h + b)) % 2 ^ 16 = 256 * h + b by omega, e, xor_bytes _ _ _ _ hy' hb,
      xor_bytes _ _ _ _ (Nat.xor_lt_two_pow (n := 8) hy' hb) htl,
      Nat.xor_assoc y, Nat.xor_assoc X, hX, Nat.xor_self, Nat.mul_zero, Nat.zero_add]
    split_ifs
    · decide
    · decide

/-- **C129**: for every trainer and every species with both genders (from two females to two males in 256), every nature, gender and
ability number is found together in the state of a shiny PID, created as the generator does. With a ratio of 1 in 256 a female has
the first ability. -/
theorem C129_all (mode : Mode) (tsv : BitVec 16) (info : Personal) (h2 : 2 ≤ info.genderRatio.toNat) (h253 : info.genderRatio.toNat ≤ 253)
    (n g a : Nat) (hn : n < 25) (hg : g < 2) (ha : a < 2) (advance species form : Nat) (ivs : Vector (BitVec 8) 6) (level : BitVec 8) :
    ∃ pid : BitVec 32, ∃ st, State.new mode advance pid.toNat species form ivs (pid &&& 1).toNat level (getShiny pid tsv) info = .ok st ∧
      st.nature.toNat = n ∧ st.gender.toNat = g ∧ st.ability.toNat = a ∧ st.shiny ≠ 0 ∧
      st.abilityIndex = (if a = 0 then info.ability1 else info.ability2).setWidth 16 := by
  obtain ⟨pid, hb, hnat, hs⟩ := C129_byte tsv (if g = 1 then a else 254 + a) (by split <;> omega) n hn
  have hpid := pid.isLt
  have hab : (pid &&& 1).toNat = a := by
    rw [BitVec.toNat_and, show (1 : BitVec 32).toNat = 2 ^ 1 - 1 by rfl, Nat.and_two_pow_sub_one_eq_mod]
    split at hb <;> omega
  refine ⟨pid, _, new_eq _ _ _ _ _ _ _ _ _ _, ?_, ?_, ?_, hs, ?_⟩
  · show (BitVec.ofNat 8 (pid.toNat % 2 ^ 32 % 25)).toNat = n
    rw [BitVec.toNat_ofNat, Nat.mod_eq_of_lt hpid]
    omega
  · show (getGender (BitVec.ofNat 32 pid.toNat) info.genderRatio).toNat = g
    rw [C48_gender, specGender, if_neg (by omega), if_neg (by omega), if_neg (by omega), BitVec.toNat_ofNat, Nat.mod_eq_of_lt hpid, hb]
    split_ifs <;> omega
  · show (BitVec.ofNat 8 (pid &&& 1).toNat).toNat = a
    rw [hab, BitVec.toNat_ofNat]
    omega
  · show (if (pid &&& 1).toNat = 0 then info.ability1 else info.ability2).setWidth 16 = _
    rw [hab]

example : (2 : Nat) ≤ sampleInfo.genderRatio.toNat ∧ sampleInfo.genderRatio.toNat ≤ 253 := by decide

/-- Square shiny PIDs alone do not have this: with the trainer value `0xFF00` those with lowest byte 0 have only five natures. -/
theorem C129_square (pid : BitVec 32) (hb : pid.toNat % 256 = 0) (h : getShiny pid 0xFF00 = 2) : pid.toNat % 5 = 0 := by
  have hp := pid.isLt
  rw [C49_shiny] at h
  have h0 : pid.toNat / 2 ^ 16 ^^^ pid.toNat % 2 ^ 16 ^^^ (0xFF00 : BitVec 16).toNat = 0 := by
    by_contra hc
    rw [if_neg hc] at h
    split at h <;> exact absurd h (by decide)
  have h1 : pid.toNat / 2 ^ 16 = pid.toNat % 2 ^ 16 ^^^ 0xFF00 := by
    have := congrArg (· ^^^ (pid.toNat % 2 ^ 16 ^^^ 0xFF00)) h0
    simpa [Nat.xor_assoc] using this
  have fin : ∀ k < 256, (65536 * ((256 * k) ^^^ 0xFF00) + 256 * k) % 5 = 0 := by decide +kernel
  have := fin (pid.toNat % 2 ^ 16 / 256) (by omega)
  rw [show 256 * (pid.toNat % 2 ^ 16 / 256) = pid.toNat % 2 ^ 16 by omega, ← h1] at this
  omega

example : (0xFE000100 : BitVec 32).toNat % 256 = 0 ∧ getShiny 0xFE000100 0xFF00 = 2 := by decide

end Verif.Gen3
