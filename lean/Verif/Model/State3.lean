import Verif.Model.Gen3Util
import Verif.Model.Gen3Area
import Verif.Model.Stat
/-
Model of numba_pokemon_prngs/gen3/state.py (`State`, `GeneratorState`; not the text output of `csv`/`__str__`).
-/
namespace Verif.Gen3
open Fp

/-- `gen3/state.py:12` -/
def ORDER : Vector (Fin 6) 6 := #v[0, 1, 2, 5, 3, 4]

/-- `gen3/state.py:14` -/
def CHAR_ORDER : Vector Nat 11 := #v[0, 1, 2, 3, 4, 5, 0, 1, 2, 3, 4]

/-- A `GeneratorState` object (`gen3/state.py:20-33, 77`). `hidden_power_strength` is a rational because plain Python
mode keeps the float of line 69. -/
structure State where
  advance : BitVec 32
  pid : BitVec 32
  species : BitVec 16
  form : BitVec 8
  stats : Vector (BitVec 16) 6
  abilityIndex : BitVec 16
  ivs : Vector (BitVec 8) 6
  ability : BitVec 8
  characteristic : BitVec 8
  gender : BitVec 8
  hiddenPower : BitVec 8
  hiddenPowerStrength : ℚ
  level : BitVec 8
  nature : BitVec 8
  shiny : BitVec 8
  deriving DecidableEq

/-- `base_stats`, `gen3/state.py:44-51` -/
def baseStats (info : Personal) : Vector (BitVec 8) 6 :=
  #v[info.hp, info.attack, info.defense, info.specialAttack, info.specialDefense, info.speed]

/-- the local variables of `update_stats` changed by the loop -/
structure Acc where
  hiddenPowerVal : Nat
  strengthVal : Nat
  charIndex : Nat
  maxIv : BitVec 8
  stats : List (BitVec 16)
  deriving DecidableEq

/-- `gen3/state.py:54-66`: iteration `i` of the loop -/
def updateStep (info : Personal) (ivs : Vector (BitVec 8) 6) (level : BitVec 8) (nature ecIndex : Nat) (i : Fin 6)
    (a : Acc) : Except PyErr Acc :=
  let iv := ivs[ORDER[i]]
  let stat := BitVec.ofNat 16 ((2 * (baseStats info)[i].toNat + ivs[i].toNat) * level.toNat / 100)
  let stored := if i = 0 then .ok (stat + level.setWidth 16 + 10) else Stat.computeStat (stat + 5) nature i.val
  match stored with
  | .error e => .error e
  | .ok s =>
    match CHAR_ORDER[ecIndex + i.val]? with
    | none => .error .indexError
    | some index =>
      if h : index < 6 then
        let civ := ivs[ORDER[index]]
        .ok { hiddenPowerVal := a.hiddenPowerVal + ((iv &&& 1).toNat <<< i.val)
              strengthVal := a.strengthVal + (((iv >>> 1) &&& 1).toNat <<< i.val)
              charIndex := if civ > a.maxIv then index else a.charIndex
              maxIv := if civ > a.maxIv then civ else a.maxIv
              stats := a.stats ++ [s] }
      else .error .indexError

/-- `gen3/state.py:53-66`: the loop over a list of indices -/
def updateLoop (info : Personal) (ivs : Vector (BitVec 8) 6) (level : BitVec 8) (nature ecIndex : Nat) :
    List (Fin 6) → Acc → Except PyErr Acc
  | [], a => .ok a
  | i :: is, a =>
    match updateStep info ivs level nature ecIndex i a with
    | .error e => .error e
    | .ok a => updateLoop info ivs level nature ecIndex is a

/-- `gen3/state.py:69`: a double; the jitclass field is `uint8`, so storing truncates it under numba -/
def strength (mode : Mode) (v : Nat) : ℚ :=
  let x := rnd 53 (30 + rnd 53 (((v * 40 : Nat) : ℚ) / 63))
  match mode with
  | .numba => (⌊x⌋ : ℚ)
  | .numpy => x

/-- `gen3/state.py:79-103` `GeneratorState.__init__` with `update_stats` (35-70). The arguments are the values passed by
the caller; `np.uintN(...)` truncates them. -/
def State.new (mode : Mode) (advance pid species form : Nat) (ivs : Vector (BitVec 8) 6)
    (ability : Nat) (level : BitVec 8) (shiny : BitVec 8) (info : Personal) : Except PyErr State :=
  let pid := BitVec.ofNat 32 pid
  let nature := pid.toNat % 25
  let ec := pid.toNat % 6
  match updateLoop info ivs level nature ec [0, 1, 2, 3, 4, 5]
      { hiddenPowerVal := 0, strengthVal := 0, charIndex := ec, maxIv := 0, stats := [] } with
  | .error e => .error e
  | .ok a =>
    .ok { advance := BitVec.ofNat 32 advance
          pid := pid
          species := BitVec.ofNat 16 species
          form := BitVec.ofNat 8 form
          stats := Vector.ofFn fun i : Fin 6 => a.stats.getD i.val 0
          abilityIndex := (if ability = 0 then info.ability1 else info.ability2).setWidth 16
          ivs := ivs
          ability := BitVec.ofNat 8 ability
          characteristic := BitVec.ofNat 8 (a.charIndex * 5 + a.maxIv.toNat % 5)
          gender := getGender pid info.genderRatio
          hiddenPower := BitVec.ofNat 8 (a.hiddenPowerVal * 15 / 63)
          hiddenPowerStrength := strength mode a.strengthVal
          level := level
          nature := BitVec.ofNat 8 nature
          shiny := shiny }

end Verif.Gen3
