import Verif.Model.Basic
import Verif.Model.Enums
/-
Model of data/util.py (`dtype_dataclass`), data/personal/personal_info.py and data/personal/__init__.py.

A dtype built by `dtype_dataclass` is a packed sequence of fields (numpy's default `align=False`); the fields of the
personal classes are `U8`, little-endian `U16` and arrays of unused bytes. Files are byte lists.
-/
namespace Verif.Personal

/-- field types, `data/util.py:23-28` and `unused_bytes`, `data/util.py:55-62` -/
inductive FieldTy where
  | u8
  | u16
  | bytes (n : Nat)
  deriving DecidableEq, Repr

/-- `itemsize` of a field -/
def FieldTy.size : FieldTy → Nat
  | .u8 => 1
  | .u16 => 2
  | .bytes n => n

/-- `dtype_dataclass`, `data/util.py:31-52`: names and types of the fields in order of declaration -/
abbrev Layout := List (String × FieldTy)

/-- `dtype.itemsize` -/
def Layout.size : Layout → Nat
  | [] => 0
  | f :: fs => f.2.size + Layout.size fs

/-- a field's value in a record -/
inductive Value where
  | u8 (v : BitVec 8)
  | u16 (v : BitVec 16)
  | bytes (v : List (BitVec 8))
  deriving DecidableEq, Repr

/-- reading one field at the front of the bytes, and the rest -/
def readField : FieldTy → List (BitVec 8) → Value × List (BitVec 8)
  | .u8, b :: rest => (.u8 b, rest)
  | .u16, lo :: hi :: rest => (.u16 (hi ++ lo), rest)
  | .u8, [] => (.u8 0, [])
  | .u16, _ => (.u16 0, [])
  | .bytes n, bs => (.bytes (bs.take n), bs.drop n)

/-- one record, field after field -/
def readRecord : Layout → List (BitVec 8) → List Value
  | [], _ => []
  | f :: fs, bs => (readField f.2 bs).1 :: readRecord fs (readField f.2 bs).2

/-- `load_personal`, `data/personal/__init__.py:27-35`: `np.fromfile` reads complete records until fewer bytes than a
record remain (those are dropped); `fuel` bounds the number of records -/
def readRecords (l : Layout) : Nat → List (BitVec 8) → List (List Value)
  | 0, _ => []
  | fuel + 1, bs => if bs.length < l.size then [] else readRecord l (bs.take l.size) :: readRecords l fuel (bs.drop l.size)

/-- `load_personal` on the content of the file. `np.fromfile` raises `ValueError` for a dtype of size 0. -/
def loadPersonal (l : Layout) (file : List (BitVec 8)) : Except PyErr (List (List Value)) :=
  if l.size = 0 then .error .valueError else .ok (readRecords l (file.length + 1) file)

/-- `recarray.tofile`/`tobytes`: the bytes of a field -/
def writeField : Value → List (BitVec 8)
  | .u8 v => [v]
  | .u16 v => [v.setWidth 8, (v >>> 8).setWidth 8]
  | .bytes v => v

/-- the bytes of a record array -/
def writeRecords (rs : List (List Value)) : List (BitVec 8) := rs.flatMap fun r => r.flatMap writeField

/-! ### the classes of personal_info.py -/

/-- `data/personal/personal_info.py:27-43` `PersonalInfo1` -/
def layout1 : Layout := [
  ("gender_ratio", .u8), ("hp", .u8), ("attack", .u8), ("defense", .u8), ("speed", .u8), ("special", .u8),
  ("type_1", .u8), ("type_2", .u8), ("catch_rate", .u8), ("base_exp", .u8), ("_padding", .bytes 6), ("move_1", .u8),
  ("move_2", .u8), ("move_3", .u8), ("move_4", .u8), ("exp_growth", .u8), ("tm_hm", .bytes 7)]

/-- `data/personal/personal_info.py:54-72` `PersonalInfo2` -/
def layout2 : Layout := [
  ("dex_id", .u8), ("hp", .u8), ("attack", .u8), ("defense", .u8), ("speed", .u8), ("special_attack", .u8),
  ("special_defense", .u8), ("type_1", .u8), ("type_2", .u8), ("catch_rate", .u8), ("base_exp", .u8),
  ("item_1", .u8), ("item_2", .u8), ("gender_ratio", .u8), ("hatch_cycles", .u8), ("_padding", .bytes 7),
  ("exp_growth", .u8), ("egg_group", .u8), ("tm_hm", .bytes 8)]

/-- `data/personal/personal_info.py:83-105` `PersonalInfo3` -/
def layout3 : Layout := [
  ("hp", .u8), ("attack", .u8), ("defense", .u8), ("speed", .u8), ("special_attack", .u8), ("special_defense", .u8),
  ("type_1", .u8), ("type_2", .u8), ("catch_rate", .u8), ("base_exp", .u8), ("ev_yield", .u16), ("item_1", .u16),
  ("item_2", .u16), ("gender_ratio", .u8), ("hatch_cycles", .u8), ("base_friendship", .u8), ("exp_growth", .u8),
  ("egg_group_1", .u8), ("egg_group_2", .u8), ("ability_1", .u8), ("ability_2", .u8), ("escape_rate", .u8),
  ("misc", .bytes 3)]

/-- `data/personal/personal_info.py:116-142` `PersonalInfo4` -/
def layout4 : Layout := [
  ("hp", .u8), ("attack", .u8), ("defense", .u8), ("speed", .u8), ("special_attack", .u8), ("special_defense", .u8),
  ("type_1", .u8), ("type_2", .u8), ("catch_rate", .u8), ("base_exp", .u8), ("ev_yield", .u16), ("item_1", .u16),
  ("item_2", .u16), ("gender_ratio", .u8), ("hatch_cycles", .u8), ("base_friendship", .u8), ("exp_growth", .u8),
  ("egg_group_1", .u8), ("egg_group_2", .u8), ("ability_1", .u8), ("ability_2", .u8), ("escape_rate", .u8),
  ("misc", .bytes 3), ("tm_hm", .bytes 13), ("form_count", .u8), ("form_stats_index", .u16)]

/-- `data/personal/personal_info.py:153-185` `PersonalInfo5BW` -/
def layout5BW : Layout := [
  ("hp", .u8), ("attack", .u8), ("defense", .u8), ("speed", .u8), ("special_attack", .u8), ("special_defense", .u8),
  ("type_1", .u8), ("type_2", .u8), ("catch_rate", .u8), ("evo_stage", .u8), ("ev_yield", .u16), ("item_1", .u16),
  ("item_2", .u16), ("item_3", .u16), ("gender_ratio", .u8), ("hatch_cycles", .u8), ("base_friendship", .u8),
  ("exp_growth", .u8), ("egg_group_1", .u8), ("egg_group_2", .u8), ("ability_1", .u8), ("ability_2", .u8),
  ("ability_h", .u8), ("escape_rate", .u8), ("form_stats_index", .u16), ("form_sprite", .u16), ("form_count", .u8),
  ("misc", .u8), ("base_exp", .u16), ("height", .u16), ("weight", .u16), ("tm_hm", .bytes 16),
  ("type_tutors", .bytes 4)]

/-- `data/personal/personal_info.py:196-229` `PersonalInfo5B2W2` -/
def layout5B2W2 : Layout := [
  ("hp", .u8), ("attack", .u8), ("defense", .u8), ("speed", .u8), ("special_attack", .u8), ("special_defense", .u8),
  ("type_1", .u8), ("type_2", .u8), ("catch_rate", .u8), ("evo_stage", .u8), ("ev_yield", .u16), ("item_1", .u16),
  ("item_2", .u16), ("item_3", .u16), ("gender_ratio", .u8), ("hatch_cycles", .u8), ("base_friendship", .u8),
  ("exp_growth", .u8), ("egg_group_1", .u8), ("egg_group_2", .u8), ("ability_1", .u8), ("ability_2", .u8),
  ("ability_h", .u8), ("escape_rate", .u8), ("form_stats_index", .u16), ("form_sprite", .u16), ("form_count", .u8),
  ("misc", .u8), ("base_exp", .u16), ("height", .u16), ("weight", .u16), ("tm_hm", .bytes 16),
  ("type_tutors", .bytes 4), ("specific_tutors", .bytes 16)]

/-- `data/personal/personal_info.py:240-272` `PersonalInfo6XY` -/
def layout6XY : Layout := [
  ("hp", .u8), ("attack", .u8), ("defense", .u8), ("speed", .u8), ("special_attack", .u8), ("special_defense", .u8),
  ("type_1", .u8), ("type_2", .u8), ("catch_rate", .u8), ("evo_stage", .u8), ("ev_yield", .u16), ("item_1", .u16),
  ("item_2", .u16), ("item_3", .u16), ("gender_ratio", .u8), ("hatch_cycles", .u8), ("base_friendship", .u8),
  ("exp_growth", .u8), ("egg_group_1", .u8), ("egg_group_2", .u8), ("ability_1", .u8), ("ability_2", .u8),
  ("ability_h", .u8), ("escape_rate", .u8), ("form_stats_index", .u16), ("form_sprite", .u16), ("form_count", .u8),
  ("misc", .u8), ("base_exp", .u16), ("height", .u16), ("weight", .u16), ("tm_hm", .bytes 16),
  ("type_tutors", .bytes 8)]

/-- `data/personal/personal_info.py:283-316` `PersonalInfo6AO` -/
def layout6AO : Layout := [
  ("hp", .u8), ("attack", .u8), ("defense", .u8), ("speed", .u8), ("special_attack", .u8), ("special_defense", .u8),
  ("type_1", .u8), ("type_2", .u8), ("catch_rate", .u8), ("evo_stage", .u8), ("ev_yield", .u16), ("item_1", .u16),
  ("item_2", .u16), ("item_3", .u16), ("gender_ratio", .u8), ("hatch_cycles", .u8), ("base_friendship", .u8),
  ("exp_growth", .u8), ("egg_group_1", .u8), ("egg_group_2", .u8), ("ability_1", .u8), ("ability_2", .u8),
  ("ability_h", .u8), ("escape_rate", .u8), ("form_stats_index", .u16), ("form_sprite", .u16), ("form_count", .u8),
  ("misc", .u8), ("base_exp", .u16), ("height", .u16), ("weight", .u16), ("tm_hm", .bytes 16),
  ("type_tutors", .bytes 8), ("specific_tutors", .bytes 16)]

/-- `data/personal/personal_info.py:327-365` `PersonalInfo7` -/
def layout7 : Layout := [
  ("hp", .u8), ("attack", .u8), ("defense", .u8), ("speed", .u8), ("special_attack", .u8), ("special_defense", .u8),
  ("type_1", .u8), ("type_2", .u8), ("catch_rate", .u8), ("evo_stage", .u8), ("ev_yield", .u16), ("item_1", .u16),
  ("item_2", .u16), ("item_3", .u16), ("gender_ratio", .u8), ("hatch_cycles", .u8), ("base_friendship", .u8),
  ("exp_growth", .u8), ("egg_group_1", .u8), ("egg_group_2", .u8), ("ability_1", .u8), ("ability_2", .u8),
  ("ability_h", .u8), ("escape_rate", .u8), ("form_stats_index", .u16), ("form_sprite", .u16), ("form_count", .u8),
  ("misc", .u8), ("base_exp", .u16), ("height", .u16), ("weight", .u16), ("tm", .bytes 16),
  ("type_tutors", .bytes 4), ("specific_tutors", .bytes 16), ("special_z_item", .u16), ("special_z_base_move", .u16),
  ("special_z_move", .u16), ("local_variant", .u8), ("_padding", .bytes 1)]

/-- `data/personal/personal_info.py:376-414` `PersonalInfo7GG` -/
def layout7GG : Layout := [
  ("hp", .u8), ("attack", .u8), ("defense", .u8), ("speed", .u8), ("special_attack", .u8), ("special_defense", .u8),
  ("type_1", .u8), ("type_2", .u8), ("catch_rate", .u8), ("evo_stage", .u8), ("ev_yield", .u16), ("item_1", .u16),
  ("item_2", .u16), ("item_3", .u16), ("gender_ratio", .u8), ("hatch_cycles", .u8), ("base_friendship", .u8),
  ("exp_growth", .u8), ("egg_group_1", .u8), ("egg_group_2", .u8), ("ability_1", .u8), ("ability_2", .u8),
  ("ability_h", .u8), ("escape_rate", .u8), ("form_stats_index", .u16), ("form_sprite", .u16), ("form_count", .u8),
  ("misc", .u8), ("base_exp", .u16), ("height", .u16), ("weight", .u16), ("tm", .bytes 32), ("go_species", .u16),
  ("_padding_0", .bytes 2), ("special_z_item", .u16), ("special_z_base_move", .u16), ("special_z_move", .u16),
  ("local_variant", .u8), ("_padding_1", .bytes 1)]

/-- `data/personal/personal_info.py:425-467` `PersonalInfo8SWSH` -/
def layout8SWSH : Layout := [
  ("hp", .u8), ("attack", .u8), ("defense", .u8), ("speed", .u8), ("special_attack", .u8), ("special_defense", .u8),
  ("type_1", .u8), ("type_2", .u8), ("catch_rate", .u8), ("evo_stage", .u8), ("ev_yield", .u16), ("item_1", .u16),
  ("item_2", .u16), ("item_3", .u16), ("gender_ratio", .u8), ("hatch_cycles", .u8), ("base_friendship", .u8),
  ("exp_growth", .u8), ("egg_group_1", .u8), ("egg_group_2", .u8), ("ability_1", .u16), ("ability_2", .u16),
  ("ability_h", .u16), ("form_stats_index", .u16), ("form_count", .u8), ("misc", .u8), ("base_exp", .u16),
  ("height", .u16), ("weight", .u16), ("tm", .bytes 16), ("type_tutors", .bytes 4), ("tr", .bytes 16),
  ("species", .u16), ("_padding_0", .bytes 8), ("hatch_species", .u16), ("local_form_index", .u16),
  ("regional_flags", .u16), ("pokedex_index", .u16), ("regional_form_index", .u16), ("_padding_1", .bytes 72),
  ("armor_tutor", .bytes 4), ("armor_dex_index", .u16), ("crown_dex_index", .u16)]

/-- `data/personal/personal_info.py:478-512` `PersonalInfo8BDSP` -/
def layout8BDSP : Layout := [
  ("hp", .u8), ("attack", .u8), ("defense", .u8), ("speed", .u8), ("special_attack", .u8), ("special_defense", .u8),
  ("type_1", .u8), ("type_2", .u8), ("catch_rate", .u8), ("evo_stage", .u8), ("ev_yield", .u16), ("item_1", .u16),
  ("item_2", .u16), ("item_3", .u16), ("gender_ratio", .u8), ("hatch_cycles", .u8), ("base_friendship", .u8),
  ("exp_growth", .u8), ("egg_group_1", .u8), ("egg_group_2", .u8), ("ability_1", .u16), ("ability_2", .u16),
  ("ability_h", .u16), ("form_stats_index", .u16), ("form_count", .u8), ("misc", .u8), ("base_exp", .u16),
  ("height", .u16), ("weight", .u16), ("tm", .bytes 16), ("type_tutors", .bytes 4), ("species", .u16),
  ("hatch_species", .u16), ("hatch_form_index", .u16), ("pokedex_index", .u16)]

/-- `data/personal/personal_info.py:523-565` `PersonalInfo8LA` -/
def layout8LA : Layout := [
  ("hp", .u8), ("attack", .u8), ("defense", .u8), ("speed", .u8), ("special_attack", .u8), ("special_defense", .u8),
  ("type_1", .u8), ("type_2", .u8), ("catch_rate", .u8), ("evo_stage", .u8), ("ev_yield", .u16), ("item_1", .u16),
  ("item_2", .u16), ("item_3", .u16), ("gender_ratio", .u8), ("hatch_cycles", .u8), ("base_friendship", .u8),
  ("exp_growth", .u8), ("egg_group_1", .u8), ("egg_group_2", .u8), ("ability_1", .u16), ("ability_2", .u16),
  ("ability_h", .u16), ("form_stats_index", .u16), ("form_count", .u8), ("misc", .u8), ("base_exp", .u16),
  ("height", .u16), ("weight", .u16), ("_padding_0", .bytes 46), ("hatch_species", .u16), ("hatch_form_index", .u16),
  ("regional_flags", .u16), ("species", .u16), ("form", .u16), ("dex_index_hisui", .u16),
  ("dex_index_hisui_local_1", .u16), ("dex_index_hisui_local_2", .u16), ("dex_index_hisui_local_3", .u16),
  ("dex_index_hisui_local_4", .u16), ("dex_index_hisui_local_5", .u16), ("_padding_1", .bytes 60),
  ("move_shop", .bytes 8)]

/-- `data/personal/personal_info.py:576-608` `PersonalInfo9SV` -/
def layout9SV : Layout := [
  ("hp", .u8), ("attack", .u8), ("defense", .u8), ("speed", .u8), ("special_attack", .u8), ("special_defense", .u8),
  ("type_1", .u8), ("type_2", .u8), ("catch_rate", .u8), ("evo_stage", .u8), ("ev_yield", .u16),
  ("gender_ratio", .u8), ("hatch_cycles", .u8), ("base_friendship", .u8), ("exp_growth", .u8), ("egg_group_1", .u8),
  ("egg_group_2", .u8), ("ability_1", .u16), ("ability_2", .u16), ("ability_h", .u16), ("form_stats_index", .u16),
  ("form_count", .u8), ("misc", .u8), ("is_present_in_game", .u8), ("dex_group", .u8), ("dex_index", .u16),
  ("height", .u16), ("weight", .u16), ("hatch_species", .u16), ("local_form_index", .u16), ("regional_flags", .u16),
  ("regional_form_index", .u16), ("tm", .bytes 24)]
/-! ### choosing a table -/

/-- the tables of `data/personal/__init__.py:44-65` -/
inductive Table where
  | rs | e | fr | lg | dp | pt | bw | b2w2 | xy | oras | sm | usum | swsh | bdsp | la
  deriving DecidableEq, Repr

/-- the file and class each table is loaded from, `data/personal/__init__.py:44-65` -/
def Table.source : Table → String × Layout
  | .rs => ("rs", layout3)
  | .e => ("e", layout3)
  | .fr => ("fr", layout3)
  | .lg => ("lg", layout3)
  | .dp => ("dp", layout4)
  | .pt => ("pt", layout4)
  | .bw => ("bw", layout5BW)
  | .b2w2 => ("b2w2", layout5B2W2)
  | .xy => ("xy", layout6XY)
  | .oras => ("ao", layout6AO)
  | .sm => ("sm", layout7)
  | .usum => ("uu", layout7)
  | .swsh => ("swsh", layout8SWSH)
  | .bdsp => ("bdsp", layout8BDSP)
  | .la => ("la", layout8LA)

/-- `data/personal/__init__.py:70-77` `get_info_table_3` (as compiled by numba) -/
def getInfoTable3 (game : BitVec 32) : Table :=
  if Game.has game (Game.ruby ||| Game.sapphire) then .rs
  else if Game.has game Game.emerald then .e
  else if Game.has game Game.fireRed then .fr
  else .lg

/-- `data/personal/__init__.py:80-112` `get_info_table` -/
def getInfoTable (game : BitVec 32) : Except PyErr Table :=
  if Game.has game (Game.ruby ||| Game.sapphire) then .ok .rs
  else if Game.has game Game.emerald then .ok .e
  else if Game.has game Game.fireRed then .ok .fr
  else if Game.has game Game.leafGreen then .ok .lg
  else if Game.has game (Game.diamond ||| Game.pearl) then .ok .dp
  else if Game.has game (Game.black ||| Game.white) then .ok .bw
  else if Game.has game (Game.black2 ||| Game.white2) then .ok .b2w2
  else if Game.has game (Game.x ||| Game.y) then .ok .xy
  else if Game.has game (Game.omegaRuby ||| Game.alphaSapphire) then .ok .oras
  else if Game.has game (Game.sun ||| Game.moon) then .ok .sm
  else if Game.has game (Game.ultraSun ||| Game.ultraMoon) then .ok .usum
  else if Game.has game (Game.sword ||| Game.shield) then .ok .swsh
  else if Game.has game (Game.brilliantDiamond ||| Game.shiningPearl) then .ok .bdsp
  else if Game.has game Game.legendsArceus then .ok .la
  else .error .notImplemented

end Verif.Personal
