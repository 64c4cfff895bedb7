/-
The notation of the binary files written by tools/gen_la.py.
-/
namespace Verif.Data

/-- the number with the given chunks of 2048 bytes, lowest first -/
def join : List Nat → Nat
  | [] => 0
  | c :: cs => c + (join cs) <<< 16384

end Verif.Data
