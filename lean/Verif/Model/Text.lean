import Verif.Data.Text
import Verif.Model.EncLoad3
/-
Model of data/__init__.py: the tuples of names. The lines of the text files are in Verif/Data/Text.
-/
namespace Verif.Text
open EncLoad3 (Str)

/-- `str.upper` of one character. Besides ASCII letters the species names have only `é`, `’`, `♂` and `♀`; the last three
have no case. -/
def upper (c : Char) : Char := if c = 'é' then 'É' else c.toUpper

/-- `data/__init__.py:10-15`, one name -/
def constantCase (name : Str) : Str :=
  if name = c!"Nidoran♂" then c!"SPECIES_NIDORAN_M"
  else if name = c!"Nidoran♀" then c!"SPECIES_NIDORAN_F"
  else c!"SPECIES_" ++ name.map upper

/-- `data/__init__.py:9-16` `CONSTANT_CASE_SPECIES_EN` -/
def constantCaseSpeciesEn : List Str := Data.speciesEn.map constantCase

/-- `data/__init__.py:30` `GENDER_SYMBOLS` -/
def genderSymbols : List Str := [c!"♂", c!"♀", c!"-"]

end Verif.Text
