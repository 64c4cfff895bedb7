import Verif.Lemmas.PackedDefs
/-
Certificate for the polynomial of SFMT19937, written for evaluation by the kernel. Correctness is in `Lemmas/SfmtSeq`.

A number stands for a polynomial whose coefficients are 128-bit words, coefficient `k` is digit `k` in base 2^128.
-/
namespace Verif.Gf2

/-- `k` equal digits -/
def rep (k m : Nat) : Nat := Nat.mul m (Nat.div (Nat.sub (Nat.pow 2 (Nat.mul 128 k)) 1) (Nat.sub (Nat.pow 2 128) 1))

/-- bits from 8 on -/
def m8 : Nat := 0xFFFFFFFFFFFFFFFFFFFFFFFFFFFFFF00
/-- the mask of the recursion without the upper 11 bits of each lane -/
def mB : Nat := 0x001FFFF6001AFFFF001ECB7F001FFFEF
/-- bits below 120 -/
def mC : Nat := 0x00FFFFFFFFFFFFFFFFFFFFFFFFFFFFFF
/-- the upper 14 bits of each lane -/
def mD : Nat := 0xFFFC0000FFFC0000FFFC0000FFFC0000
/-- the period certification vector -/
def par : Nat := 0x13C9E684000000000000000000000001

/-- `g` times the transposed matrix of the recursion, for `g` of `k` digits -/
def bulk (k g : Nat) : Nat :=
  Nat.xor (Nat.shiftLeft g 19968) (Nat.xor g (Nat.xor (Nat.shiftRight (Nat.land g (rep k m8)) 8)
    (Nat.xor (Nat.shiftLeft (Nat.land g (rep k mB)) 15627)
      (Nat.xor (Nat.shiftLeft (Nat.land g (rep k mC)) 19720) (Nat.shiftLeft (Nat.land g (rep k mD)) 19822)))))

/-- the polynomial `p` (packed as in `Lemmas/PackedDefs`, with at most `2^l` digits) times the vector `a` -/
def spreadH (a : Nat) : Nat → Nat → Nat
  | 0, p => Nat.mul (Nat.mod p 2) a
  | l + 1, p => Nat.xor (spreadH a l (Nat.mod p (Nat.pow 65536 (Nat.pow 2 l))))
      (Nat.shiftLeft (spreadH a l (Nat.div p (Nat.pow 65536 (Nat.pow 2 l)))) (Nat.mul 128 (Nat.pow 2 l)))

/-! ### the quotient; nothing depends on the correctness of these definitions -/

/-- digit `i` -/
def digit (s i : Nat) : Nat := Nat.land (Nat.shiftRight s (Nat.mul 128 i)) 0xFFFFFFFFFFFFFFFFFFFFFFFFFFFFFFFF

/-- the next word, from the last 156 in `s` and coefficient `i` of `p` times the vector `a` -/
def quotientStep (a p i s : Nat) : Nat :=
  Nat.xor (Nat.mul (Nat.land (Nat.shiftRight p i) 1) a) (Nat.xor (digit s 155) (Nat.xor (Nat.shiftRight (digit s 155) 8)
    (Nat.xor (Nat.shiftLeft (Nat.land (digit s 33) mB) 11) (Nat.xor (Nat.shiftLeft (Nat.land (digit s 1) mC) 8)
      (Nat.shiftRight (Nat.land (digit s 0) mD) 18)))))

/-- `n` words -/
def quotientBlock (a p o n : Nat) : Nat → Nat :=
  Nat.rec (fun s => s) (fun r ih s => force (Nat.add (Nat.shiftLeft s 128) (quotientStep a p (Nat.add o r) s)) ih) n

/-- `n` blocks of 126 words -/
def quotientLoop (a p n : Nat) : Nat → Nat → Nat :=
  Nat.rec (fun _ g => g) (fun o ih s g => force (quotientBlock a p (Nat.add (Nat.mul 126 o) 156) 126 s) fun s =>
    force (Nat.add (Nat.shiftLeft g 16128) (Nat.mod s (Nat.pow 2 16128))) fun g => force (Nat.mod s (Nat.pow 2 19968)) fun s => ih s g) n

/-- `p` (compact) times the vector `a` is a multiple of the matrix; `n` blocks of the quotient -/
def certificate (a n p : Nat) : Bool :=
  Nat.beq (force (quotientLoop a p n 0 0) fun g => force (bulk (Nat.mul 126 n) g) fun h =>
    cond (Nat.ble (Nat.pow 2 (Nat.mul 128 (Nat.mul 126 n))) g) 0 (cond (Nat.beq h (spreadH a 15 (spread p))) 1 0)) 1

end Verif.Gf2
