import Verif.Model.State3
import Verif.Model.Text
import Verif.Model.Util
/-
Model of the text output in numba_pokemon_prngs/gen3/state.py (`csv`, `__str__`), compiled mode: the strength of Hidden Power
is a whole number there. Indexing a tuple outside its range raises `IndexError` in compiled code, too.
-/
namespace Verif.Gen3
open EncLoad3 (Str)

/-- `str(n)` -/
def dec (n : Nat) : Str := Nat.toDigits 10 n

/-- indexing a tuple of strings -/
def item (l : List Str) (i : Nat) : Except PyErr Str :=
  match l[i]? with
  | some s => .ok s
  | none => .error .indexError

/-- six numbers with slashes, `gen3/state.py:119-138` -/
def slashed (l : List Nat) : Str := (l.map dec).intersperse c!"/" |>.flatten

/-- `gen3/state.py:105-141` `csv` -/
def csv (st : State) : Except PyErr (List (Str × Str)) := do
  let species ← item Data.speciesEn st.species.toNat
  let nature ← item Data.naturesEn st.nature.toNat
  let ability ← item Data.abilitiesEn st.abilityIndex.toNat
  let type ← item Data.typesEn (st.hiddenPower.toNat + 1)
  let gender ← item Text.genderSymbols st.gender.toNat
  return [
    (c!"Advance", dec st.advance.toNat),
    (c!"Species", species ++ if st.form ≠ 0 then c!"-" ++ dec st.form.toNat else []),
    (c!"Level", dec st.level.toNat),
    (c!"PID", Util.hex32 st.pid),
    (c!"Nature", nature),
    (c!"Ability", ability ++ c!" (" ++ dec st.ability.toNat ++ c!")"),
    (c!"IVs", slashed (st.ivs.toList.map BitVec.toNat)),
    (c!"Stats", slashed (st.stats.toList.map BitVec.toNat)),
    (c!"HP", type ++ c!" (" ++ dec st.hiddenPowerStrength.floor.toNat ++ c!")"),
    (c!"Gender", gender)]

/-- `gen3/state.py:143-147` `__str__`: `str_repr[:-2]` drops the last two characters -/
def str (st : State) : Except PyErr Str := do
  let fields ← csv st
  let text := fields.foldl (fun acc x => acc ++ (x.1 ++ c!": " ++ x.2 ++ c!", ")) []
  return text.take (text.length - 2)

end Verif.Gen3
