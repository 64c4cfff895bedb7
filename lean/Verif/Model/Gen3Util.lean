import Verif.Model.Basic
/-
Model of numba_pokemon_prngs/gen3/util.py.
-/
namespace Verif.Gen3

/-- `gen3/util.py:7-16` `get_gender`: 0 male, 1 female, 2 genderless -/
def getGender (pid : BitVec 32) (genderRatio : BitVec 8) : BitVec 8 :=
  if genderRatio = 255 then 2
  else if genderRatio = 254 then 1
  else if genderRatio = 0 then 0
  else if pid &&& 0xFF < genderRatio.setWidth 32 then 1 else 0

/-- `gen3/util.py:19-27` `get_shiny`; `tsv` is the full trainer value (TID xor SID) -/
def getShiny (pid : BitVec 32) (tsv : BitVec 16) : BitVec 8 :=
  let psv := (pid >>> 16) ^^^ (pid &&& 0xFFFF)
  if tsv.setWidth 32 = psv then 2
  else if tsv.setWidth 32 ^^^ psv < 8 then 1
  else 0

/-- the letter computed in `gen3/util.py:33-38` -/
def unownLetter (pid : BitVec 32) : BitVec 32 :=
  (((pid &&& 0x3000000) >>> 18) ||| ((pid &&& 0x30000) >>> 12) ||| ((pid &&& 0x300) >>> 6) ||| (pid &&& 0x3)) % 0x1C

/-- `gen3/util.py:30-39` `unown_check` -/
def unownCheck (pid : BitVec 32) (form : BitVec 8) : Bool := unownLetter pid = form.setWidth 32

end Verif.Gen3
