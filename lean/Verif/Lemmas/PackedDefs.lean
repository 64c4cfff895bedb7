/-
Arithmetic with polynomials over GF(2) of large degree, written for evaluation by the kernel. A polynomial is a natural number,
coefficient `i` is digit `i` in base 2^16. Correctness is in `Lemmas/Gf2Packed`.
-/
namespace Verif.Gf2

/-- `f a`; the kernel evaluates `a` first -/
def force (a : Nat) (f : Nat → Nat) : Nat := Nat.rec (f 0) (fun k _ => f (Nat.succ k)) a

/-- `n` digits equal to one -/
def ones (n : Nat) : Nat := Nat.div (Nat.sub (Nat.pow 2 (Nat.mul 16 n)) 1) 65535

/-- test for `Packed` -/
def packed (a : Nat) : Bool := Nat.beq (Nat.land a (ones 20000)) a

/-- product; the mask `m` is `ones 40000` -/
def mulp (m a b : Nat) : Nat := Nat.land (Nat.mul a b) m

/-- One squaring. `p` is the modulus, `u` an approximate inverse (any number will do), `d` 16 times the degree, `l` the mask of
20000 digits. The result is reduced again or 0. -/
def sqmod (m l p u d a : Nat) : Nat :=
  let x := mulp m a a
  let r := Nat.xor x (mulp m (Nat.land (Nat.shiftRight (mulp m (Nat.shiftRight x d) u) d) l) p)
  cond (Nat.ble r l) r 0

/-- `n` squarings -/
def sqs (m l p u d : Nat) (n : Nat) : Nat → Nat :=
  Nat.rec (fun a => a) (fun _ ih a => force (sqmod m l p u d a) ih) n

/-! ### spreading bits -/

/-- blocks of `b` ones, `c` of them, `s` apart -/
def bmask (b s c : Nat) : Nat :=
  Nat.mul (Nat.sub (Nat.pow 2 b) 1) (Nat.div (Nat.sub (Nat.pow 2 (Nat.mul s c)) 1) (Nat.sub (Nat.pow 2 s) 1))

/-- Moves bit `i` to bit `16 i`. Only used to write polynomials compactly; nothing depends on its correctness. -/
def spreadAux : Nat → Nat → Nat → Nat
  | 0, _, x => x
  | k + 1, c, x => spreadAux k (Nat.mul 2 c)
      (Nat.land (Nat.lor x (Nat.shiftLeft x (Nat.mul 15 (Nat.pow 2 k)))) (bmask (Nat.pow 2 k) (Nat.mul 16 (Nat.pow 2 k)) (Nat.mul 2 c)))

/-- at most 2^15 bits -/
def spread (x : Nat) : Nat := spreadAux 15 1 x

/-- `n` squarings modulo `p` lead from `a` to `b`; all are given in compact form. -/
def chunk (p u d n a b : Nat) : Bool :=
  Nat.beq (force (ones 40000) fun m => force (ones 20000) fun l => force (spread p) fun p => force (spread u) fun u =>
    sqs m l p u d n (spread a)) (spread b)

end Verif.Gf2
