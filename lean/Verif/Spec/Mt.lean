/-
MT19937 as published (Matsumoto and Nishimura 1998, initialisation of 2002): an infinite sequence of words.
-/
namespace Verif.Spec

/-- The twist of two consecutive words: top bit of `u`, low 31 bits of `v`, times the matrix A. -/
def mtTwist (u v : BitVec 32) : BitVec 32 :=
  let y := u.extractLsb' 31 1 ++ v.extractLsb' 0 31
  if y.getLsbD 0 then (y >>> 1) ^^^ 0x9908B0DF else y >>> 1

/-- `x` is the MT19937 word sequence for `seed`: 624 words from the initialisation, then
`x(k+624) = x(k+397) ⊕ twist(x k, x(k+1))`. -/
structure IsMT19937 (seed : BitVec 32) (x : Nat → BitVec 32) : Prop where
  zero : x 0 = seed
  init : ∀ i, 0 < i → i < 624 → x i = 1812433253 * (x (i - 1) ^^^ (x (i - 1) >>> 30)) + BitVec.ofNat 32 i
  rec_ : ∀ k, x (k + 624) = x (k + 397) ^^^ mtTwist (x k) (x (k + 1))

/-- Tempering with the published parameters (u,s,b,t,c,l) = (11,7,0x9D2C5680,15,0xEFC60000,18). -/
def mtTemper (x : BitVec 32) : BitVec 32 :=
  let y := x ^^^ (x >>> 11)
  let y := y ^^^ ((y <<< 7) &&& 0x9D2C5680)
  let y := y ^^^ ((y <<< 15) &&& 0xEFC60000)
  y ^^^ (y >>> 18)

/-- The sequence exists for each seed (definition by recursion). -/
def mtSeq (seed : BitVec 32) (n : Nat) : BitVec 32 :=
  if n = 0 then seed
  else if n < 624 then
    1812433253 * (mtSeq seed (n - 1) ^^^ (mtSeq seed (n - 1) >>> 30)) + BitVec.ofNat 32 n
  else mtSeq seed (n - 227) ^^^ mtTwist (mtSeq seed (n - 624)) (mtSeq seed (n - 623))
termination_by n

theorem isMT_mtSeq (seed : BitVec 32) : IsMT19937 seed (mtSeq seed) where
  zero := by rw [mtSeq]; simp
  init i h0 h1 := by
    rw [mtSeq]
    rw [if_neg (by omega), if_pos h1]
  rec_ k := by
    conv => lhs; rw [mtSeq]
    rw [if_neg (by omega), if_neg (by omega)]
    rw [show k + 624 - 227 = k + 397 by omega, show k + 624 - 624 = k by omega, show k + 624 - 623 = k + 1 by omega]

end Verif.Spec
