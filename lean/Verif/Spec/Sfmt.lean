/-
SFMT19937 as published (Saito and Matsumoto 2006): a sequence of 128-bit words.
-/
namespace Verif.Spec

/-- apply a function to the four 32-bit lanes of a 128-bit word -/
def lanewise (f : BitVec 32 → BitVec 32) (v : BitVec 128) : BitVec 128 :=
  f (v.extractLsb' 96 32) ++ f (v.extractLsb' 64 32) ++ f (v.extractLsb' 32 32) ++ f (v.extractLsb' 0 32)

/-- SFMT19937 recursion: SL1 = 18, SL2 = 1 byte, SR1 = 11, SR2 = 1 byte and the 128-bit mask. -/
def sfmtRec (a b c d : BitVec 128) : BitVec 128 :=
  a ^^^ (a <<< 8) ^^^ ((lanewise (· >>> 11) b) &&& 0xBFFFFFF6BFFAFFFFDDFECB7FDFFFFFEF#128) ^^^ (c >>> 8) ^^^
    lanewise (· <<< 18) d

/-- the 32-bit initialisation words -/
def initWord (seed : BitVec 32) : Nat → BitVec 32
  | 0 => seed
  | i + 1 => 1812433253 * (initWord seed i ^^^ (initWord seed i >>> 30)) + BitVec.ofNat 32 (i + 1)

/-- words `i .. i+3` as one little-endian 128-bit word -/
def pack (u : Nat → BitVec 32) (i : Nat) : BitVec 128 := u (i + 3) ++ u (i + 2) ++ u (i + 1) ++ u i

/-- exclusive or of all bits -/
def bitParity (v : BitVec w) : Bool := (List.range w).foldl (fun b i => b ^^ v.getLsbD i) false

/-- the period certification vector of SFMT19937 -/
def parityVector : BitVec 128 := 0x13C9E684000000000000000000000001#128

/-- period certification: if the checked parity is even, flip bit 0 -/
def certify (v : BitVec 128) : BitVec 128 := if bitParity (v &&& parityVector) then v else v ^^^ 1

/-- `x` is the sequence of 128-bit words of SFMT19937 for `seed` (N = 156, POS1 = 122). -/
structure IsSFMT19937 (seed : BitVec 32) (x : Nat → BitVec 128) : Prop where
  zero : x 0 = certify (pack (initWord seed) 0)
  init : ∀ i, 0 < i → i < 156 → x i = pack (initWord seed) (4 * i)
  rec_ : ∀ k, x (k + 156) = sfmtRec (x k) (x (k + 122)) (x (k + 154)) (x (k + 155))

/-- the sequence, by recursion -/
def sfmtSeq (seed : BitVec 32) (n : Nat) : BitVec 128 :=
  if n = 0 then certify (pack (initWord seed) 0)
  else if n < 156 then pack (initWord seed) (4 * n)
  else sfmtRec (sfmtSeq seed (n - 156)) (sfmtSeq seed (n - 34)) (sfmtSeq seed (n - 2)) (sfmtSeq seed (n - 1))
termination_by n

theorem isSFMT_sfmtSeq (seed : BitVec 32) : IsSFMT19937 seed (sfmtSeq seed) where
  zero := by rw [sfmtSeq]; simp
  init i h0 h1 := by rw [sfmtSeq, if_neg (by omega), if_pos h1]
  rec_ k := by
    conv => lhs; rw [sfmtSeq]
    rw [if_neg (by omega), if_neg (by omega)]
    rw [show k + 156 - 156 = k by omega, show k + 156 - 34 = k + 122 by omega, show k + 156 - 2 = k + 154 by omega,
      show k + 156 - 1 = k + 155 by omega]

/-- the `n`-th 64-bit output: halves of the 128-bit words from the first generated block on -/
def sfmtOut (seed : BitVec 32) (n : Nat) : BitVec 64 :=
  (sfmtSeq seed (156 + n / 2)).extractLsb' (64 * (n % 2)) 64

end Verif.Spec
