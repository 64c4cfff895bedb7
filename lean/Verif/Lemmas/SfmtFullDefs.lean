import Verif.Lemmas.SfmtDefs
/-
Runs of SFMT19937 written for evaluation by the kernel. Correctness is in `Lemmas/SfmtFull`.

A number stands for a sequence of 128-bit words, word `k` is digit `k` in base 2^128.
-/
namespace Verif.Gf2

/-- the sequence `g` follows the recursion for `k` words after the first 156 -/
def follows (k g : Nat) : Bool :=
  Nat.beq (Nat.mod (Nat.xor (Nat.shiftRight g 19968) (Nat.xor g (Nat.xor (Nat.land (Nat.shiftLeft g 8) (rep k m8))
    (Nat.xor (Nat.land (Nat.shiftRight g 15627) (rep k mB)) (Nat.xor (Nat.land (Nat.shiftRight g 19720) (rep k mC))
      (Nat.land (Nat.shiftRight g 19822) (rep k mD))))))) (Nat.pow 2 (Nat.mul 128 k))) 0

/-! ### the run; nothing depends on the correctness of these three definitions -/

/-- the word after the words `r` to `r + 155` of `s` -/
def runStep (s r : Nat) : Nat :=
  Nat.xor (digit s r) (Nat.xor (Nat.mod (Nat.shiftLeft (digit s r) 8) (Nat.pow 2 128))
    (Nat.xor (Nat.land (Nat.shiftRight (digit s (Nat.add r 122)) 11) mB)
      (Nat.xor (Nat.shiftRight (digit s (Nat.add r 154)) 8) (Nat.land (Nat.shiftLeft (digit s (Nat.add r 155)) 18) mD))))

/-- `n` words -/
def runBlock (n : Nat) : Nat → Nat → Nat :=
  Nat.rec (fun _ s => s) (fun _ ih r s => force (Nat.add s (Nat.shiftLeft (runStep s r) (Nat.mul 128 (Nat.add 156 r)))) fun s =>
    force (Nat.add r 1) fun r => ih r s) n

/-- `n` blocks of 126 words -/
def runLoop (n : Nat) : Nat → Nat → Nat → Nat :=
  Nat.rec (fun o s g => Nat.add g (Nat.shiftLeft s (Nat.mul 16128 o))) (fun _ ih o s g => force (runBlock 126 0 s) fun s =>
    force (Nat.add g (Nat.shiftLeft (Nat.mod s (Nat.pow 2 16128)) (Nat.mul 16128 o))) fun g =>
      force (Nat.shiftRight s 16128) fun s => force (Nat.add o 1) fun o => ih o s g) n

/-! ### checks -/

/-- the run of 20064 words from `s` exists and has the property `f` -/
def runCheck (s : Nat) (f : Nat → Bool) : Bool :=
  Nat.beq (force s fun s => force (runLoop 158 0 s 0) fun g =>
    cond (follows 19908 g) (cond (Nat.beq (Nat.mod g (Nat.pow 2 19968)) s) (cond (f g) 1 0) 0) 0) 1

/-- exclusive or of `2 ^ l` bits -/
def xorBits : Nat → Nat → Nat
  | 0, x => x
  | l + 1, x => force x fun x => xorBits l (Nat.xor (Nat.mod x (Nat.pow 2 (Nat.pow 2 l))) (Nat.shiftRight x (Nat.pow 2 l)))

/-- number of ones among the first `n` elements of the sequence: `c` applied to the run -/
def scan (c g n : Nat) : Nat :=
  Nat.rec 0 (fun i ih => Nat.add ih (xorBits 22 (Nat.land c (Nat.shiftRight g (Nat.mul 128 i))))) n

/-- the initial state: `n` more 32-bit words from word `i`, which is `w` -/
def initLoop (n : Nat) : Nat → Nat → Nat → Nat :=
  Nat.rec (fun _ _ acc => acc) (fun _ ih i w acc => force (Nat.add acc (Nat.shiftLeft w (Nat.mul 32 i))) fun acc =>
    force (Nat.add i 1) fun i => force (Nat.mod (Nat.add (Nat.mul 1812433253 (Nat.xor w (Nat.shiftRight w 30))) i) 4294967296) fun w =>
      ih i w acc) n

/-- polynomial `p * q` (both compact) times the lowest bit -/
def lowBits (p q : Nat) : Nat := spreadH 1 15 (mulp (ones 40000) (spread p) (spread q))

/-- Run from the initial state of `seed`, with the lowest bit flipped if `e` = 1. The three factors of `p * 2619471407` other than `p`
belong to parts of the run that are zero (`true`) or not. -/
def seedCheck (p seed e : Nat) (b3 b13 b15 : Bool) : Bool :=
  runCheck (Nat.xor (initLoop 624 0 seed 0) e) fun g =>
    (Nat.beq (force (lowBits p 335937213) fun c => scan c g 15) 0 == b3) &&
    (Nat.beq (force (lowBits p 372093) fun c => scan c g 15) 0 == b13) &&
    (Nat.beq (force (lowBits p 78213) fun c => scan c g 15) 0 == b15)

end Verif.Gf2
