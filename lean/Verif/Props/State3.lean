import Verif.Model.State3
import Verif.Spec.State3
import Verif.Props.Stat
/-
C46, C60, C61, C76: derived values of a generated state.
-/
namespace Verif.Gen3
open Fp Spec.State3

/-! ### the loop of `update_stats` -/

/-- the running maximum of lines 63-66 -/
def charStep (f : Nat → Nat) (start d : Nat) (a : Nat × Nat) : Nat × Nat :=
  if f d > a.2 then ((start + d) % 6, f d) else a

/-- the running maximum after `k` iterations -/
def charLoop (f : Nat → Nat) (start : Nat) : Nat → Nat × Nat
  | 0 => (start, 0)
  | k + 1 => charStep f start k (charLoop f start k)

theorem charLoop_spec (f : Nat → Nat) (start : Nat) (hs : start < 6) (k : Nat) :
    ∃ d < k + 1, (charLoop f start (k + 1)).1 = (start + d) % 6 ∧ (charLoop f start (k + 1)).2 = f d ∧
      (∀ d' < k + 1, f d' ≤ f d) ∧ ∀ d' < d, f d' < f d := by
  induction k with
  | zero =>
    refine ⟨0, by omega, ?_, ?_, fun d' hd' => ?_, fun d' hd' => by omega⟩
    · rw [charLoop, charStep, charLoop]
      by_cases h : f 0 > 0
      · rw [if_pos h]
      · rw [if_neg h]; show start = (start + 0) % 6; omega
    · rw [charLoop, charStep, charLoop]
      by_cases h : f 0 > 0
      · rw [if_pos h]
      · rw [if_neg h]; show 0 = f 0; omega
    · have : d' = 0 := by omega
      rw [this]
  | succ k ih =>
    obtain ⟨d, h1, h2, h3, h4, h5⟩ := ih
    rw [charLoop, charStep]
    by_cases h : f (k + 1) > (charLoop f start (k + 1)).2
    · rw [if_pos h]
      rw [h3] at h
      refine ⟨k + 1, by omega, rfl, rfl, fun d' hd' => ?_, fun d' hd' => ?_⟩
      · by_cases e : d' = k + 1
        · rw [e]
        · have := h4 d' (by omega); omega
      · have := h4 d' (by omega); omega
    · rw [if_neg h]
      rw [h3] at h
      refine ⟨d, by omega, h2, h3, fun d' hd' => ?_, h5⟩
      by_cases e : d' = k + 1
      · rw [e]; omega
      · exact h4 d' (by omega)

theorem char_order (ec : Nat) (hec : ec < 6) (i : Nat) (hi : i < 6) : CHAR_ORDER[ec + i]? = some ((ec + i) % 6) := by
  interval_cases ec <;> interval_cases i <;> rfl

/-- IV at a game-order position -/
def posIv (ivs : Vector (BitVec 8) 6) (p : Nat) : Nat := if h : p < 6 then (ivs[ORDER[p]]).toNat else 0

/-- the value stored into `stats[i]` -/
def storedStat (info : Personal) (ivs : Vector (BitVec 8) 6) (level : BitVec 8) (nature : Nat) (i : Fin 6) : Nat :=
  if i = 0 then (2 * (baseStats info)[i].toNat + ivs[i].toNat) * level.toNat / 100 + level.toNat + 10
  else ((2 * (baseStats info)[i].toNat + ivs[i].toNat) * level.toNat / 100 + 5) * Stat.percent nature (i.val - 1) / 100

theorem percent_le (n c : Nat) : Stat.percent n c ≤ 110 := by
  rw [Stat.percent]; split
  · omega
  · split
    · omega
    · split <;> omega

theorem raw_le (b iv l : BitVec 8) : (2 * b.toNat + iv.toNat) * l.toNat / 100 ≤ 1950 := by
  have h1 := b.isLt
  have h2 := iv.isLt
  have h3 := l.isLt
  have : (2 * b.toNat + iv.toNat) * l.toNat ≤ 765 * 255 := Nat.mul_le_mul (by omega) (by omega)
  omega

theorem storedStat_lt (info : Personal) (ivs : Vector (BitVec 8) 6) (level : BitVec 8) (nature : Nat) (i : Fin 6) :
    storedStat info ivs level nature i < 65536 := by
  have hraw := raw_le (baseStats info)[i] ivs[i] level
  have hl := level.isLt
  have hp := percent_le nature (i.val - 1)
  rw [storedStat]
  generalize (2 * (baseStats info)[i].toNat + ivs[i].toNat) * level.toNat / 100 = x at *
  split
  · omega
  · have : (x + 5) * Stat.percent nature (i.val - 1) ≤ 1955 * 110 := Nat.mul_le_mul (by omega) hp
    omega

theorem updateStep_eq (info : Personal) (ivs : Vector (BitVec 8) 6) (level : BitVec 8) (nature ec : Nat)
    (hn : nature < 25) (hec : ec < 6) (i : Fin 6) (a : Acc) :
    updateStep info ivs level nature ec i a = .ok
      { hiddenPowerVal := a.hiddenPowerVal + posIv ivs i.val % 2 * 2 ^ i.val
        strengthVal := a.strengthVal + posIv ivs i.val / 2 % 2 * 2 ^ i.val
        charIndex := (charStep (fun d => posIv ivs ((ec + d) % 6)) ec i.val (a.charIndex, a.maxIv.toNat)).1
        maxIv := BitVec.ofNat 8 (charStep (fun d => posIv ivs ((ec + d) % 6)) ec i.val (a.charIndex, a.maxIv.toNat)).2
        stats := a.stats ++ [BitVec.ofNat 16 (storedStat info ivs level nature i)] } := by
  have hi := i.isLt
  have hraw := raw_le (baseStats info)[i] ivs[i] level
  have hstored : (if i = 0 then Except.ok (BitVec.ofNat 16 ((2 * (baseStats info)[i].toNat + ivs[i].toNat) * level.toNat / 100)
        + level.setWidth 16 + 10)
      else Stat.computeStat (BitVec.ofNat 16 ((2 * (baseStats info)[i].toNat + ivs[i].toNat) * level.toNat / 100) + 5)
        nature i.val) = .ok (BitVec.ofNat 16 (storedStat info ivs level nature i)) := by
    have hlt := storedStat_lt info ivs level nature i
    rw [storedStat] at hlt ⊢
    generalize (2 * (baseStats info)[i].toNat + ivs[i].toNat) * level.toNat / 100 = x at *
    by_cases h0 : i = 0
    · rw [if_pos h0, if_pos h0]
      congr 1
      apply BitVec.eq_of_toNat_eq
      simp
    · have hi0 : i.val ≠ 0 := fun h => h0 (Fin.ext h)
      rw [if_neg h0] at hlt ⊢
      rw [if_neg h0, Stat.C45_exact _ _ _ hn (by omega) (by omega)]
      have e : (BitVec.ofNat 16 x + 5).toNat = x + 5 := by
        rw [BitVec.toNat_add, BitVec.toNat_ofNat, show (5 : BitVec 16).toNat = 5 from rfl]; omega
      rw [e, if_pos hlt]
  have hmod : (ec + i.val) % 6 < 6 := Nat.mod_lt _ (by omega)
  rw [updateStep]
  dsimp only
  rw [hstored]
  dsimp only
  rw [char_order ec hec i.val hi]
  simp only [hmod, dif_pos]
  have hp : posIv ivs i.val = (ivs[ORDER[i]]).toNat := by rw [posIv, dif_pos hi]; rfl
  have hq : posIv ivs ((ec + i.val) % 6) = (ivs[ORDER[(ec + i.val) % 6]]).toNat := by rw [posIv, dif_pos hmod]
  have hb : (ivs[ORDER[i]] &&& 1).toNat <<< i.val = posIv ivs i.val % 2 * 2 ^ i.val := by
    rw [hp, Nat.shiftLeft_eq, BitVec.toNat_and]
    congr 1
    exact Nat.and_one_is_mod _
  have hb2 : ((ivs[ORDER[i]] >>> 1) &&& 1).toNat <<< i.val = posIv ivs i.val / 2 % 2 * 2 ^ i.val := by
    rw [hp, Nat.shiftLeft_eq, BitVec.toNat_and, BitVec.toNat_ushiftRight]
    congr 1
    rw [show (1 : BitVec 8).toNat = 1 from rfl, Nat.and_one_is_mod, Nat.shiftRight_eq_div_pow, pow_one]
  rw [hb, hb2]
  simp only [charStep, hq, gt_iff_lt, ← BitVec.lt_def]
  congr 2
  · split <;> rfl
  · split <;> simp

/-- The hidden power bits collected by the loop. -/
def bitSum (f : Nat → Nat) : Nat := f 0 + f 1 * 2 + f 2 * 4 + f 3 * 8 + f 4 * 16 + f 5 * 32

theorem charLoop_lt (f : Nat → Nat) (hf : ∀ d, f d < 256) (start k : Nat) : (charLoop f start k).2 < 256 := by
  induction k with
  | zero => simp [charLoop]
  | succ k ih =>
    rw [charLoop, charStep]
    split
    · exact hf k
    · exact ih

theorem posIv_lt (ivs : Vector (BitVec 8) 6) (p : Nat) : posIv ivs p < 256 := by
  rw [posIv]; split
  · exact BitVec.isLt _
  · omega

theorem updateLoop_eq (info : Personal) (ivs : Vector (BitVec 8) 6) (level : BitVec 8) (nature ec : Nat)
    (hn : nature < 25) (hec : ec < 6) :
    updateLoop info ivs level nature ec [0, 1, 2, 3, 4, 5]
      { hiddenPowerVal := 0, strengthVal := 0, charIndex := ec, maxIv := 0, stats := [] } = .ok
      { hiddenPowerVal := bitSum (fun p => posIv ivs p % 2)
        strengthVal := bitSum (fun p => posIv ivs p / 2 % 2)
        charIndex := (charLoop (fun d => posIv ivs ((ec + d) % 6)) ec 6).1
        maxIv := BitVec.ofNat 8 (charLoop (fun d => posIv ivs ((ec + d) % 6)) ec 6).2
        stats := [0, 1, 2, 3, 4, 5].map fun i => BitVec.ofNat 16 (storedStat info ivs level nature i) } := by
  have hb : ∀ k, (BitVec.ofNat 8 (charLoop (fun d => posIv ivs ((ec + d) % 6)) ec k).2).toNat
      = (charLoop (fun d => posIv ivs ((ec + d) % 6)) ec k).2 := by
    intro k
    rw [BitVec.toNat_ofNat, Nat.mod_eq_of_lt]
    exact charLoop_lt _ (fun d => posIv_lt _ _) _ _
  have hc : ∀ k, charStep (fun d => posIv ivs ((ec + d) % 6)) ec k
      ((charLoop (fun d => posIv ivs ((ec + d) % 6)) ec k).1, (charLoop (fun d => posIv ivs ((ec + d) % 6)) ec k).2)
      = charLoop (fun d => posIv ivs ((ec + d) % 6)) ec (k + 1) := fun k => rfl
  have h0 : (ec, (0 : BitVec 8).toNat) = ((charLoop (fun d => posIv ivs ((ec + d) % 6)) ec 0).1,
      (charLoop (fun d => posIv ivs ((ec + d) % 6)) ec 0).2) := rfl
  simp only [updateLoop, updateStep_eq info ivs level nature ec hn hec, h0]
  simp only [Fin.val_zero, Fin.val_one, Fin.val_two, hc, hb, show ((3 : Fin 6).val) = 3 from rfl,
    show ((4 : Fin 6).val) = 4 from rfl, show ((5 : Fin 6).val) = 5 from rfl]
  simp [bitSum]

/-! ### exact value of a new state -/

theorem strength_floor (v : Nat) (hv : v ≤ 63) :
    (v * 40 % 63 = 0 → rnd 53 (30 + rnd 53 (((v * 40 : Nat) : ℚ) / 63)) = ((30 + v * 40 / 63 : Nat) : ℚ)) ∧
    (v * 40 % 63 ≠ 0 → ((30 + v * 40 / 63 : Nat) : ℚ) < rnd 53 (30 + rnd 53 (((v * 40 : Nat) : ℚ) / 63)) ∧
      rnd 53 (30 + rnd 53 (((v * 40 : Nat) : ℚ) / 63)) < ((30 + v * 40 / 63 : Nat) : ℚ) + 1) := by
  obtain ⟨k, hk⟩ : ∃ k, v * 40 / 63 = k := ⟨_, rfl⟩
  obtain ⟨r, hr⟩ : ∃ r, v * 40 % 63 = r := ⟨_, rfl⟩
  have hdm := Nat.div_add_mod (v * 40) 63
  rw [hk, hr] at hdm
  have hr63 : r < 63 := by rw [← hr]; exact Nat.mod_lt _ (by norm_num)
  have hk40 : k ≤ 40 := by omega
  rw [hk, hr]
  have hx : ((v * 40 : Nat) : ℚ) / 63 = k + r / 63 := by
    rw [← hdm]; push_cast; field_simp
  rw [hx]
  constructor
  · intro h0
    rw [h0]
    have e1 : rnd 53 ((k : ℚ) + ((0 : ℕ) : ℚ) / 63) = k := by
      have := rnd_fix (p := 53) (by norm_num) (isFp_int (p := 53) (k : ℤ) (by
        rw [abs_of_nonneg (by positivity)]; norm_num; exact_mod_cast (by omega : k ≤ 9007199254740992)))
      simpa using this
    rw [e1]
    have := rnd_fix (p := 53) (by norm_num) (isFp_int (p := 53) ((30 + k : Nat) : ℤ) (by
      rw [abs_of_nonneg (by positivity)]; norm_num; exact_mod_cast (by omega : 30 + k ≤ 9007199254740992)))
    push_cast at this ⊢
    exact this
  · intro h0
    have hr1 : (1 : ℚ) ≤ r := by exact_mod_cast Nat.one_le_iff_ne_zero.2 h0
    have hr62 : (r : ℚ) ≤ 62 := by exact_mod_cast (by omega : r ≤ 62)
    have hkq : (k : ℚ) ≤ 40 := by exact_mod_cast hk40
    have hk0 : (0 : ℚ) ≤ k := by positivity
    have e1 := rnd_err 53 ((k : ℚ) + r / 63)
    rw [abs_of_nonneg (show (0 : ℚ) ≤ (k : ℚ) + r / 63 by positivity)] at e1
    have b1 : |rnd 53 ((k : ℚ) + r / 63) - ((k : ℚ) + r / 63)| ≤ 1 / 1000 := by
      refine e1.trans ?_
      rw [div_le_div_iff₀ (by positivity) (by norm_num)]
      norm_num
      linarith
    rw [abs_le] at b1
    generalize rnd 53 ((k : ℚ) + r / 63) = y at *
    have hy0 : 0 ≤ y := by linarith [b1.1]
    have e2 := rnd_err 53 (30 + y)
    rw [abs_of_nonneg (show (0 : ℚ) ≤ 30 + y by linarith)] at e2
    have b2 : |rnd 53 (30 + y) - (30 + y)| ≤ 1 / 1000 := by
      refine e2.trans ?_
      rw [div_le_div_iff₀ (by positivity) (by norm_num)]
      norm_num
      linarith [b1.2]
    rw [abs_le] at b2
    push_cast
    constructor <;> linarith [b1.1, b1.2, b2.1, b2.2]

theorem strength_numba (v : Nat) (hv : v ≤ 63) : strength .numba v = ((30 + v * 40 / 63 : Nat) : ℚ) := by
  obtain ⟨h1, h2⟩ := strength_floor v hv
  simp only [strength]
  by_cases h : v * 40 % 63 = 0
  · rw [h1 h, Int.floor_natCast, Int.cast_natCast]
  · obtain ⟨g1, g2⟩ := h2 h
    rw [Stat.floor_eq _ _ g1.le g2, Int.cast_natCast]

theorem bitSum_le (f : Nat → Nat) (hf : ∀ p, f p < 2) : bitSum f ≤ 63 := by
  have h0 := hf 0; have h1 := hf 1; have h2 := hf 2; have h3 := hf 3; have h4 := hf 4; have h5 := hf 5
  simp only [bitSum]; omega

/-- Creating a state never raises; all its fields. -/
theorem new_eq (mode : Mode) (advance pid species form : Nat) (ivs : Vector (BitVec 8) 6) (ability : Nat)
    (level shiny : BitVec 8) (info : Personal) :
    State.new mode advance pid species form ivs ability level shiny info = .ok
      { advance := BitVec.ofNat 32 advance
        pid := BitVec.ofNat 32 pid
        species := BitVec.ofNat 16 species
        form := BitVec.ofNat 8 form
        stats := Vector.ofFn fun i : Fin 6 => BitVec.ofNat 16 (storedStat info ivs level (pid % 2 ^ 32 % 25) i)
        abilityIndex := (if ability = 0 then info.ability1 else info.ability2).setWidth 16
        ivs := ivs
        ability := BitVec.ofNat 8 ability
        characteristic := BitVec.ofNat 8
          ((charLoop (fun d => posIv ivs ((pid % 2 ^ 32 % 6 + d) % 6)) (pid % 2 ^ 32 % 6) 6).1 * 5
            + (charLoop (fun d => posIv ivs ((pid % 2 ^ 32 % 6 + d) % 6)) (pid % 2 ^ 32 % 6) 6).2 % 5)
        gender := getGender (BitVec.ofNat 32 pid) info.genderRatio
        hiddenPower := BitVec.ofNat 8 (bitSum (fun p => posIv ivs p % 2) * 15 / 63)
        hiddenPowerStrength := strength mode (bitSum (fun p => posIv ivs p / 2 % 2))
        level := level
        nature := BitVec.ofNat 8 (pid % 2 ^ 32 % 25)
        shiny := shiny } := by
  have hn : pid % 2 ^ 32 % 25 < 25 := Nat.mod_lt _ (by omega)
  have hec : pid % 2 ^ 32 % 6 < 6 := Nat.mod_lt _ (by omega)
  simp only [State.new, BitVec.toNat_ofNat, updateLoop_eq info ivs level _ _ hn hec]
  have hst : (Vector.ofFn fun i : Fin 6 => ([0, 1, 2, 3, 4, 5].map fun i : Fin 6 =>
      BitVec.ofNat 16 (storedStat info ivs level (pid % 2 ^ 32 % 25) i)).getD i.val 0)
      = Vector.ofFn fun i : Fin 6 => BitVec.ofNat 16 (storedStat info ivs level (pid % 2 ^ 32 % 25) i) := by
    apply Vector.ext
    intro i hi
    rw [Vector.getElem_ofFn, Vector.getElem_ofFn]
    interval_cases i <;> rfl
  rw [hst, Nat.mod_eq_of_lt (charLoop_lt (fun d => posIv ivs ((pid % 2 ^ 32 % 6 + d) % 6))
    (fun d => posIv_lt _ _) (pid % 2 ^ 32 % 6) 6)]

/-- A state is the one created from its own fields. -/
theorem new_again (mode : Mode) (advance pid species form : Nat) (ivs : Vector (BitVec 8) 6) (ability : Nat)
    (hab : ability < 256) (level shiny : BitVec 8) (info : Personal) (st : State)
    (h : State.new mode advance pid species form ivs ability level shiny info = .ok st) :
    State.new mode st.advance.toNat st.pid.toNat st.species.toNat st.form.toNat st.ivs st.ability.toNat st.level st.shiny info
      = .ok st := by
  rw [new_eq] at h
  cases h
  rw [new_eq]
  have e32 : ∀ n, (BitVec.ofNat 32 n).toNat % 2 ^ 32 = n % 2 ^ 32 := fun n => by rw [BitVec.toNat_ofNat, Nat.mod_mod]
  have eab : (BitVec.ofNat 8 ability).toNat = ability := by rw [BitVec.toNat_ofNat]; omega
  simp only [e32, eab, BitVec.ofNat_toNat, BitVec.setWidth_eq]

/-! ### C61 -/

/-- base stat number `i` of the stats in the order HP, Attack, Defense, Special Attack, Special Defense, Speed -/
def namedBase (info : Personal) : Nat → Nat
  | 0 => info.hp.toNat
  | 1 => info.attack.toNat
  | 2 => info.defense.toNat
  | 3 => info.specialAttack.toNat
  | 4 => info.specialDefense.toNat
  | _ => info.speed.toNat

theorem namedBase_eq (info : Personal) (i : Fin 6) : namedBase info i.val = (baseStats info)[i].toNat := by
  obtain ⟨i, hi⟩ := i
  interval_cases i <;> rfl


/-- C61: every stat is the game's formula with the modifier percentage `Stat.percent nature (i - 1)`, exactly, for all
base stats, IVs, levels (also above 100) and natures; nothing overflows 16 bits. -/
theorem C61_stats (mode : Mode) (advance pid species form : Nat) (ivs : Vector (BitVec 8) 6) (ability : Nat)
    (level shiny : BitVec 8) (info : Personal) :
    ∃ st, State.new mode advance pid species form ivs ability level shiny info = .ok st ∧
      st.nature.toNat = st.pid.toNat % 25 ∧ ∀ i : Fin 6, st.stats[i].toNat =
        (if i = 0 then baseStat (namedBase info i.val) ivs[i].toNat level.toNat i.val
         else baseStat (namedBase info i.val) ivs[i].toNat level.toNat i.val
           * Stat.percent st.nature.toNat (i.val - 1) / 100) := by
  refine ⟨_, new_eq mode advance pid species form ivs ability level shiny info, ?_, fun i => ?_⟩
  · simp only [BitVec.toNat_ofNat]; omega
  · rw [namedBase_eq]
    have hlt := storedStat_lt info ivs level (pid % 2 ^ 32 % 25) i
    have e : (BitVec.ofNat 8 (pid % 2 ^ 32 % 25)).toNat = pid % 2 ^ 32 % 25 := by
      rw [BitVec.toNat_ofNat]; omega
    dsimp only
    rw [Fin.getElem_fin, Vector.getElem_ofFn, BitVec.toNat_ofNat, Nat.mod_eq_of_lt hlt, e, storedStat, baseStat]
    by_cases h0 : i = 0
    · subst h0; simp
    · have hi0 : i.val ≠ 0 := fun h => h0 (Fin.ext h)
      rw [if_neg h0, if_neg h0, if_neg hi0]

/-! ### C46 -/

/-- C46 as stated: the modifiers are those of the games. -/
def C46Statement : Prop := ∀ (mode : Mode) (advance pid species form : Nat) (ivs : Vector (BitVec 8) 6) (ability : Nat)
    (level shiny : BitVec 8) (info : Personal) (st : State),
    State.new mode advance pid species form ivs ability level shiny info = .ok st → ∀ i : Fin 6, i ≠ 0 →
      st.stats[i].toNat = baseStat (namedBase info i.val) ivs[i].toNat level.toNat i.val
        * naturePercent st.nature.toNat i.val / 100

/-- Where the code's percentage is the game's: Attack and Defense always; the other stats exactly for the natures that
touch neither Speed nor the special stats, and for the natures listed. -/
theorem C46_percent : ∀ nature < 25, ∀ i ∈ [1, 2, 3, 4, 5],
    (Stat.percent nature (i - 1) = naturePercent nature i ↔
      i ∈ [1, 2] ∨ nature ∈ [0, 1, 5, 6, 12, 18, 24] ∨
      (i = 3 ∧ nature ∈ [4, 9, 20, 21]) ∨ (i = 4 ∧ nature ∈ [2, 7, 10, 11]) ∨ (i = 5 ∧ nature ∈ [3, 8, 15, 16])) := by
  decide +kernel

/-- C46, the part that holds: Attack and Defense of every state, and all stats for the natures Hardy, Lonely, Bold,
Docile, Serious, Bashful, Quirky. Missing: the other natures' effect on the special stats and Speed, where the claim is
false. -/
theorem C46_partial (mode : Mode) (advance pid species form : Nat) (ivs : Vector (BitVec 8) 6) (ability : Nat)
    (level shiny : BitVec 8) (info : Personal) (st : State)
    (hst : State.new mode advance pid species form ivs ability level shiny info = .ok st) (i : Fin 6) (hi : i ≠ 0)
    (h : i.val ∈ [1, 2] ∨ st.nature.toNat ∈ [0, 1, 5, 6, 12, 18, 24]) :
    st.stats[i].toNat = baseStat (namedBase info i.val) ivs[i].toNat level.toNat i.val
        * naturePercent st.nature.toNat i.val / 100 := by
  obtain ⟨st', h1, h2, h3⟩ := C61_stats mode advance pid species form ivs ability level shiny info
  have hst' : st' = st := by rw [hst] at h1; exact (Except.ok.inj h1).symm
  subst hst'
  have hi0 : i.val ≠ 0 := fun h => hi (Fin.ext h)
  have hlt : st'.nature.toNat < 25 := by rw [h2]; exact Nat.mod_lt _ (by omega)
  have hmem : i.val ∈ [1, 2, 3, 4, 5] := by
    have := i.isLt
    simp; omega
  have hp := (C46_percent _ hlt _ hmem).2 (by
    rcases h with h | h
    · exact Or.inl h
    · exact Or.inr (Or.inl h))
  rw [h3 i, if_neg hi, hp]

/-- A state used as a counterexample: base stats 100, IVs 31, level 100. -/
def sampleInfo : Personal :=
  { hp := 100, attack := 100, defense := 100, speed := 100, specialAttack := 100, specialDefense := 100, type1 := 0,
    type2 := 0, genderRatio := 127, ability1 := 1, ability2 := 2 }

/-- C46 is false: PID 2 has the nature Brave (+Attack, -Speed), yet the state's Special Attack is lowered and its Speed
is not. -/
theorem C46_brave : ∃ st, State.new .numba 0 2 1 0 (Vector.replicate 6 31) 0 100 0 sampleInfo = .ok st ∧
    st.nature = 2 ∧ st.stats.toList = [341, 259, 236, 212, 236, 236] := by
  refine ⟨_, new_eq _ _ _ _ _ _ _ _ _ _, by decide, by decide +kernel⟩

theorem C46_full_false : ¬ C46Statement := by
  intro h
  obtain ⟨st, h1, h2, h3⟩ := C46_brave
  have := h _ _ _ _ _ _ _ _ _ _ st h1 5 (by decide)
  have e : st.stats[(5 : Fin 6)] = 236 := by
    have := congrArg (fun l => l.getD 5 0) h3
    simpa using this
  rw [e, h2] at this
  revert this
  decide +kernel

/-! ### C60 -/

theorem posIv_values (ivs : Vector (BitVec 8) 6) :
    posIv ivs 0 = ivs[0].toNat ∧ posIv ivs 1 = ivs[1].toNat ∧ posIv ivs 2 = ivs[2].toNat ∧
    posIv ivs 3 = ivs[5].toNat ∧ posIv ivs 4 = ivs[3].toNat ∧ posIv ivs 5 = ivs[4].toNat := ⟨rfl, rfl, rfl, rfl, rfl, rfl⟩

/-- IV at a position of the games' order (HP, Attack, Defense, Speed, Special Attack, Special Defense). -/
def gameIv (ivs : Vector (BitVec 8) 6) (p : Nat) : Nat := (ivs.toList.getD (gameOrder.getD p 0) 0).toNat

theorem posIv_eq (ivs : Vector (BitVec 8) 6) (p : Nat) (hp : p < 6) : posIv ivs p = gameIv ivs p := by
  interval_cases p <;> simp [posIv, gameIv, gameOrder, ORDER]

/-- C60: Hidden Power type (0..15) and the characteristic, in both execution modes, for every IV spread and PID. -/
theorem C60_type_characteristic (mode : Mode) (advance pid species form : Nat) (ivs : Vector (BitVec 8) 6) (ability : Nat)
    (level shiny : BitVec 8) (info : Personal) :
    ∃ st, State.new mode advance pid species form ivs ability level shiny info = .ok st ∧
      st.hiddenPower.toNat = hiddenPowerType ivs[0].toNat ivs[1].toNat ivs[2].toNat ivs[3].toNat ivs[4].toNat ivs[5].toNat ∧
      st.hiddenPower.toNat ≤ 15 ∧
      ∃ c < 6, FirstHighest (gameIv ivs) (st.pid.toNat % 6) c ∧
        st.characteristic.toNat = 5 * c + gameIv ivs c % 5 := by
  refine ⟨_, new_eq mode advance pid species form ivs ability level shiny info, ?_, ?_, ?_⟩
  · have hle := bitSum_le (fun p => posIv ivs p % 2) (fun p => Nat.mod_lt _ (by omega))
    dsimp only
    rw [BitVec.toNat_ofNat, Nat.mod_eq_of_lt (by omega), hiddenPowerType]
    obtain ⟨h0, h1, h2, h3, h4, h5⟩ := posIv_values ivs
    simp only [bitSum, h0, h1, h2, h3, h4, h5]
    congr 2; ring
  · have hle := bitSum_le (fun p => posIv ivs p % 2) (fun p => Nat.mod_lt _ (by omega))
    dsimp only
    have h15 : bitSum (fun p => posIv ivs p % 2) * 15 / 63 ≤ 15 := by omega
    rw [BitVec.toNat_ofNat, Nat.mod_eq_of_lt (by omega)]; exact h15
  · have hec : pid % 2 ^ 32 % 6 < 6 := Nat.mod_lt _ (by omega)
    obtain ⟨d, h1, h2, h3, h4, h5⟩ := charLoop_spec (fun d => posIv ivs ((pid % 2 ^ 32 % 6 + d) % 6)) _ hec 5
    have hm : ∀ d, (pid % 2 ^ 32 % 6 + d) % 6 < 6 := fun d => Nat.mod_lt _ (by omega)
    simp only [posIv_eq ivs _ (hm _)] at h3 h4 h5
    dsimp only
    have hf : (fun d => posIv ivs ((pid % 2 ^ 32 % 6 + d) % 6)) = fun d => gameIv ivs ((pid % 2 ^ 32 % 6 + d) % 6) :=
      funext fun d => posIv_eq ivs _ (hm d)
    rw [hf] at h2 ⊢
    rw [show (5 + 1 : Nat) = 6 from rfl] at h1 h2 h3
    rw [h2, h3, BitVec.toNat_ofNat, BitVec.toNat_ofNat]
    have hmd := hm d
    refine ⟨_, hmd, ⟨d, h1, rfl, h4, h5⟩, ?_⟩
    have : gameIv ivs ((pid % 2 ^ 32 % 6 + d) % 6) % 5 < 5 := Nat.mod_lt _ (by omega)
    omega

/-- The first highest position is unique, so C60 determines the characteristic. -/
theorem C60_unique (value : Nat → Nat) (start c c' : Nat) (h : FirstHighest value start c)
    (h' : FirstHighest value start c') : c = c' := by
  obtain ⟨d, h1, h2, h3, h4⟩ := h
  obtain ⟨d', g1, g2, g3, g4⟩ := h'
  rcases lt_trichotomy d d' with hlt | heq | hgt
  · have := g4 d hlt
    have := h3 d' g1
    rw [← g2] at this
    rw [← h2] at *
    omega
  · rw [h2, g2, heq]
  · have := h4 d' hgt
    have := g3 d h1
    rw [← h2] at this
    rw [← g2] at *
    omega

/-- C60: with numba, the Hidden Power strength is the game's whole number, in 30..70. -/
theorem C60_strength (advance pid species form : Nat) (ivs : Vector (BitVec 8) 6) (ability : Nat)
    (level shiny : BitVec 8) (info : Personal) :
    ∃ st, State.new .numba advance pid species form ivs ability level shiny info = .ok st ∧
      st.hiddenPowerStrength = (hiddenPowerStrength ivs[0].toNat ivs[1].toNat ivs[2].toNat ivs[3].toNat ivs[4].toNat
        ivs[5].toNat : ℚ) ∧
      30 ≤ st.hiddenPowerStrength ∧ st.hiddenPowerStrength ≤ 70 := by
  have hle := bitSum_le (fun p => posIv ivs p / 2 % 2) (fun p => Nat.mod_lt _ (by omega))
  refine ⟨_, new_eq .numba advance pid species form ivs ability level shiny info, ?_, ?_, ?_⟩
  · dsimp only
    rw [strength_numba _ hle]
    congr 1
    obtain ⟨h0, h1, h2, h3, h4, h5⟩ := posIv_values ivs
    rw [hiddenPowerStrength]
    simp only [bitSum, h0, h1, h2, h3, h4, h5]
    rw [Nat.add_comm]
    congr 3; ring
  · dsimp only
    rw [strength_numba _ hle]
    exact_mod_cast Nat.le_add_right 30 _
  · dsimp only
    rw [strength_numba _ hle]
    have : 30 + bitSum (fun p => posIv ivs p / 2 % 2) * 40 / 63 ≤ 70 := by omega
    exact_mod_cast this

/-! ### C76 -/

theorem strength_numpy_iff (v : Nat) (hv : v ≤ 63) : (∃ k : ℤ, strength .numpy v = k) ↔ v = 0 ∨ v = 63 := by
  obtain ⟨h1, h2⟩ := strength_floor v hv
  have hdvd : v * 40 % 63 = 0 ↔ v = 0 ∨ v = 63 := by omega
  rw [← hdvd]
  constructor
  · rintro ⟨k, hk⟩
    by_contra hne
    obtain ⟨g1, g2⟩ := h2 hne
    simp only [strength] at hk
    rw [hk] at g1 g2
    generalize 30 + v * 40 / 63 = n at g1 g2
    have a1 : (n : ℤ) < k := by exact_mod_cast g1
    have a2 : k < (n : ℤ) + 1 := by exact_mod_cast g2
    omega
  · intro h
    exact ⟨((30 + v * 40 / 63 : Nat) : ℤ), by simp only [strength, h1 h]; push_cast; rfl⟩

theorem strength_numpy_floor (v : Nat) (hv : v ≤ 63) : ⌊strength .numpy v⌋ = ((30 + v * 40 / 63 : Nat) : ℤ) := by
  obtain ⟨h1, h2⟩ := strength_floor v hv
  simp only [strength]
  by_cases h : v * 40 % 63 = 0
  · rw [h1 h, Int.floor_natCast]
  · obtain ⟨g1, g2⟩ := h2 h
    rw [Stat.floor_eq _ _ g1.le g2]

theorem strength_spec (ivs : Vector (BitVec 8) 6) : 30 + bitSum (fun p => posIv ivs p / 2 % 2) * 40 / 63 =
    hiddenPowerStrength ivs[0].toNat ivs[1].toNat ivs[2].toNat ivs[3].toNat ivs[4].toNat ivs[5].toNat := by
  obtain ⟨h0, h1, h2, h3, h4, h5⟩ := posIv_values ivs
  rw [hiddenPowerStrength]
  simp only [bitSum, h0, h1, h2, h3, h4, h5]
  rw [Nat.add_comm]
  congr 3; ring

/-- C76, the part that holds: under numba the strength is the game's whole number for every state. Missing: plain Python
mode, where it is false. -/
theorem C76_numba_partial (advance pid species form : Nat) (ivs : Vector (BitVec 8) 6) (ability : Nat)
    (level shiny : BitVec 8) (info : Personal) :
    ∃ st, State.new .numba advance pid species form ivs ability level shiny info = .ok st ∧
      st.hiddenPowerStrength = (hiddenPowerStrength ivs[0].toNat ivs[1].toNat ivs[2].toNat ivs[3].toNat ivs[4].toNat
        ivs[5].toNat : ℚ) := by
  obtain ⟨st, h1, h2, _⟩ := C60_strength advance pid species form ivs ability level shiny info
  exact ⟨st, h1, h2⟩

/-- C76, exactly when it holds without numba: the stored strength is the game's whole number only if the second lowest
bits of the six IVs are all 0 or all 1; otherwise it is not whole, and rounded down it is the game's number. -/
theorem C76_numpy_iff (advance pid species form : Nat) (ivs : Vector (BitVec 8) 6) (ability : Nat)
    (level shiny : BitVec 8) (info : Personal) :
    ∃ st, State.new .numpy advance pid species form ivs ability level shiny info = .ok st ∧
      ⌊st.hiddenPowerStrength⌋ = (hiddenPowerStrength ivs[0].toNat ivs[1].toNat ivs[2].toNat ivs[3].toNat ivs[4].toNat
        ivs[5].toNat : ℤ) ∧
      ((∃ k : ℤ, st.hiddenPowerStrength = k) ↔
        (∀ (i : Nat) (h : i < 6), ivs[i].toNat / 2 % 2 = 0) ∨ ∀ (i : Nat) (h : i < 6), ivs[i].toNat / 2 % 2 = 1) := by
  have hle := bitSum_le (fun p => posIv ivs p / 2 % 2) (fun p => Nat.mod_lt _ (by omega))
  refine ⟨_, new_eq .numpy advance pid species form ivs ability level shiny info, ?_, ?_⟩
  · dsimp only
    rw [strength_numpy_floor _ hle, strength_spec]
  · dsimp only
    rw [strength_numpy_iff _ hle]
    obtain ⟨h0, h1, h2, h3, h4, h5⟩ := posIv_values ivs
    simp only [bitSum, h0, h1, h2, h3, h4, h5]
    constructor
    · rintro (h | h)
      · left
        intro i hi
        interval_cases i <;> omega
      · right
        intro i hi
        interval_cases i <;> omega
    · rintro (h | h)
      · left
        have a0 := h 0 (by omega); have a1 := h 1 (by omega); have a2 := h 2 (by omega)
        have a3 := h 3 (by omega); have a4 := h 4 (by omega); have a5 := h 5 (by omega)
        omega
      · right
        have a0 := h 0 (by omega); have a1 := h 1 (by omega); have a2 := h 2 (by omega)
        have a3 := h 3 (by omega); have a4 := h 4 (by omega); have a5 := h 5 (by omega)
        omega

/-- C76 is false without numba: HP IV 2, other IVs 0 gives 30 + 40/63 rounded to double precision. -/
theorem C76_full_false : ¬ ∀ (mode : Mode) (advance pid species form : Nat) (ivs : Vector (BitVec 8) 6) (ability : Nat)
    (level shiny : BitVec 8) (info : Personal) (st : State),
    State.new mode advance pid species form ivs ability level shiny info = .ok st →
      ∃ k : ℤ, st.hiddenPowerStrength = k := by
  intro h
  obtain ⟨st, h1, -, h2⟩ := C76_numpy_iff 0 0 1 0 #v[2, 0, 0, 0, 0, 0] 0 50 0 sampleInfo
  rcases h2.1 (h _ _ _ _ _ _ _ _ _ _ st h1) with h | h
  · exact absurd (h 0 (by omega)) (by decide)
  · exact absurd (h 1 (by omega)) (by decide)

example : (∀ (i : Nat) (h : i < 6), (#v[2, 31, 30, 7, 6, 3] : Vector (BitVec 8) 6)[i].toNat / 2 % 2 = 1) := by decide

end Verif.Gen3
