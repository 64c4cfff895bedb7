import Mathlib.Init
/-
The names of the encounter tables of Legends Arceus, as listed in the comment data/encounter/__init__.py:495-523.
-/
namespace Verif.TableNamesSpec

/-- the code points of a string -/
def str (s : String) : List Nat := s.toList.map Char.toNat

/-- the format `{i:02d}` of a number below 1000 -/
def two (i : Nat) : List Nat :=
  if i < 100 then [48 + i / 10, 48 + i % 10] else [48 + i / 100, 48 + i / 10 % 10, 48 + i % 10]

/-- `{prefix}_{kind}_{i:02d}` -/
def plain : List (List Nat) :=
  ["eve", "fly", "gmk", "lnd", "mas", "oyb", "swm", "whl"].flatMap fun p => ["ex", "no", "ra"].flatMap fun k =>
    (List.range 150).map fun i => str p ++ str "_" ++ str k ++ str "_" ++ two i

/-- `sky_area{area}_{i:02d}` -/
def sky : List (List Nat) :=
  (List.range 6).flatMap fun a => (List.range 10).map fun i => str "sky_area" ++ [48 + a] ++ str "_" ++ two i

/-- three single names -/
def single : List (List Nat) := [str "eve_ex_16_b", str "eve_ex_17_b", str "eve_ex_18_b"]

/-- `gmk_{gimmick}_{i:02d}` -/
def gimmick (g : List Nat) (i : Nat) : List Nat := str "gmk_" ++ g ++ str "_" ++ two i

/-- `gmk_{gimmick}_{i:02d}_{j:02d}` and `gmk_{gimmick}_{i:02d}_{j:02d}_{k:02d}` -/
def below (g : List Nat) (i : Nat) : List (List Nat) :=
  (List.range 3).flatMap fun j => (gimmick g i ++ str "_" ++ two j) ::
    (List.range 3).map fun k => gimmick g i ++ str "_" ++ two j ++ str "_" ++ two k

/-- the names of one gimmick -/
def gimmicks (g : List Nat) : List (List Nat) := (List.range 100).flatMap fun i => gimmick g i :: below g i

/-- all names -/
def names : List (List Nat) :=
  plain ++ sky ++ single ++ ["no", "tree", "rock", "crystal", "snow", "box"].flatMap fun g => gimmicks (str g)

/-- FNV-1a of 64 bits, with the start value the games use -/
def fnv (s : List Nat) : Nat := s.foldl (fun h c => (h ^^^ c) * 0x100000001B3 % 2 ^ 64) 0xCBF29CE484222645

end Verif.TableNamesSpec
