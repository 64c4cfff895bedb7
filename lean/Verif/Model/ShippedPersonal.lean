import Verif.Data.Personal4
import Verif.Data.Personal5
import Verif.Data.Personal6
import Verif.Data.Personal7
import Verif.Data.Personal8
import Verif.Data.Personal8La
import Verif.Model.Shipped3
/-
The personal tables with the data files the library ships: data/personal/__init__.py:27-65 applied to
resources/bin/personal. The content of the files is in Verif/Data.
-/
namespace Verif.ShippedPersonal
open Personal

/-- the bytes of a piece of a file; the number has two further low bytes, see tools/gen_personal.py -/
def pieceBytes (size p : Nat) : List (BitVec 8) := (List.range size).map fun k => BitVec.ofNat 8 (p / 256 ^ (k + 2))

/-- the length of the pieces the file of a table of generations 4 to 8 is cut in, and the pieces -/
def pieces : Table → Nat × List Nat
  | .dp => (0x2C, Data.personal_dp)
  | .pt => (0x2C, Data.personal_pt)
  | .bw => (0x3C, Data.personal_bw)
  | .b2w2 => (0x4C, Data.personal_b2w2)
  | .xy => (0x40, Data.personal_xy)
  | .oras => (0x50, Data.personal_ao)
  | .sm => (0x54, Data.personal_sm)
  | .usum => (0x54, Data.personal_uu)
  | .swsh => (0xB0, Data.personal_swsh)
  | .bdsp => (0x44, Data.personal_bdsp)
  | .la => (0xB0, Data.personal_la)
  | .rs | .e | .fr | .lg => (0, [])

/-- the bytes of the file of a table (which file it is: `Table.source`) -/
def file : Table → List (BitVec 8)
  | .rs => Shipped3.bytes Data.personal_rs
  | .e => Shipped3.bytes Data.personal_e
  | .fr => Shipped3.bytes Data.personal_fr
  | .lg => Shipped3.bytes Data.personal_lg
  | t => (pieces t).2.flatMap (pieceBytes (pieces t).1)

/-- `load_personal`, `data/personal/__init__.py:27-35`, on the shipped file; the calls are at `data/personal/__init__.py:44-65` -/
def load (t : Table) : Except PyErr (List (List Value)) := loadPersonal t.source.2 (file t)

end Verif.ShippedPersonal
