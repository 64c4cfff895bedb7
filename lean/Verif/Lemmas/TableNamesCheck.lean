import Verif.Lemmas.TableNames
import Verif.Lemmas.LaArea5
import Verif.Lemmas.Enc3Check
/-
The file of the table names, evaluated by the kernel. `Enc3Check` is only imported so that the two are not evaluated at the same time.
-/
namespace Verif.TableNames
open TableNamesSpec
open Json (Str)
open JsonSpec (plainChar)

/-- what is appended to the name of a gimmick -/
def tails : List Str :=
  (List.range 3).flatMap fun j => (str "_" ++ two j) :: (List.range 3).map fun k => str "_" ++ two j ++ str "_" ++ two k

/-- the names in the order of the file, which has each once: how a name starts, and how it goes on -/
def families : List (Str × List Str) :=
  (["eve", "fly", "gmk", "lnd", "mas", "oyb", "swm", "whl"].flatMap fun p => ["ex", "no", "ra"].map fun k =>
    (str p ++ str "_" ++ str k ++ str "_", (List.range 150).map two)) ++
  ((List.range 6).map fun a => (str "sky_area" ++ [48 + a] ++ str "_", (List.range 10).map two)) ++
  [([], [str "eve_ex_16_b", str "eve_ex_17_b", str "eve_ex_18_b"])] ++
  ((List.range 100).map fun i => (gimmick (str "no") i, tails)) ++
  ["tree", "rock", "crystal", "snow", "box"].flatMap fun g => (List.range 100).map fun i => (gimmick (str g) i, [] :: tails)

/-- the names consist of characters a JSON string contains as they are -/
def cleanOk : Bool := families.all fun f => f.1.all plainChar && f.2.all fun s => s.all plainChar

theorem clean : cleanOk = true := by decide +kernel

/-- the ids of the encounter tables, with the areas as tags -/
def tags : List Nat := tagged 1 Data.ids1 ++ (tagged 2 Data.ids2 ++ (tagged 3 Data.ids3 ++ (tagged 4 Data.ids4 ++ tagged 5 Data.ids5)))

/-- there are 11363 hashes, no two of them are equal, and as many ids as stated are hashes -/
def keysGood (ks : List Nat) : Bool :=
  Nat.beq ks.length 11363 && joint 40 0 ks tags 0 fun n =>
    Nat.beq n (221 * 2 ^ 16 + 253 * 2 ^ 32 + 218 * 2 ^ 48 + 189 * 2 ^ 64 + 238 * 2 ^ 80)

/-- the hashes of the names are as stated -/
def keysOk : Bool := fastKeys families [] keysGood

theorem keys : keysOk = true := by decide +kernel

/-- the ids have 64 bits, and the areas have few -/
def idsOk (l : List Nat) : Bool := l.all (fun x => Nat.blt x 18446744073709551616) && Nat.blt l.length 65536

theorem ids1_ok : idsOk Data.ids1 = true := by decide +kernel
theorem ids2_ok : idsOk Data.ids2 = true := by decide +kernel
theorem ids3_ok : idsOk Data.ids3 = true := by decide +kernel
theorem ids4_ok : idsOk Data.ids4 = true := by decide +kernel
theorem ids5_ok : idsOk Data.ids5 = true := by decide +kernel

end Verif.TableNames
