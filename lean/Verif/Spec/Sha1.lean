/-
SHA-1 as in FIPS 180-4 (sections 4.1.1, 4.2.1, 5.1.1, 5.2.1, 5.3.1, 6.1.2), for messages given as bytes.
Independent of the model.
-/
namespace Verif.Spec.Sha1

/-- message schedule (6.1.2 step 1) -/
def W (M : Nat → BitVec 32) (t : Nat) : BitVec 32 :=
  if _h : t < 16 then M t
  else (W M (t - 3) ^^^ W M (t - 8) ^^^ W M (t - 14) ^^^ W M (t - 16)).rotateLeft 1
termination_by t
decreasing_by all_goals omega

/-- the functions f_t (4.1.1) -/
def f (t : Nat) (x y z : BitVec 32) : BitVec 32 :=
  if t < 20 then (x &&& y) ^^^ (~~~x &&& z)
  else if t < 40 then x ^^^ y ^^^ z
  else if t < 60 then (x &&& y) ^^^ (x &&& z) ^^^ (y &&& z)
  else x ^^^ y ^^^ z

/-- the constants K_t (4.2.1) -/
def K (t : Nat) : BitVec 32 :=
  if t < 20 then 0x5a827999 else if t < 40 then 0x6ed9eba1 else if t < 60 then 0x8f1bbcdc else 0xca62c1d6

/-- the five working variables -/
structure Hash where
  a : BitVec 32
  b : BitVec 32
  c : BitVec 32
  d : BitVec 32
  e : BitVec 32
deriving DecidableEq

/-- initial hash value (5.3.1) -/
def H0 : Hash := { a := 0x67452301, b := 0xefcdab89, c := 0x98badcfe, d := 0x10325476, e := 0xc3d2e1f0 }

/-- one round (6.1.2 step 3) with schedule word `w` -/
def round (t : Nat) (w : BitVec 32) (h : Hash) : Hash :=
  { a := h.a.rotateLeft 5 + f t h.b h.c h.d + h.e + K t + w, b := h.a, c := h.b.rotateLeft 30, d := h.c, e := h.d }

/-- rounds `t`, .., `t + n - 1` -/
def rounds (M : Nat → BitVec 32) : Nat → Nat → Hash → Hash
  | _, 0, h => h
  | t, n + 1, h => rounds M (t + 1) n (round t (W M t) h)

/-- one block (6.1.2) -/
def compress (M : Nat → BitVec 32) (h : Hash) : Hash :=
  let r := rounds M 0 80 h
  { a := r.a + h.a, b := r.b + h.b, c := r.c + h.c, d := r.d + h.d, e := r.e + h.e }

/-- the four bytes of a word, most significant first -/
def beBytes (w : BitVec 32) : List (BitVec 8) :=
  [w.extractLsb' 24 8, w.extractLsb' 16 8, w.extractLsb' 8 8, w.extractLsb' 0 8]

/-- padding (5.1.1): `1` bit, `k` zero bits, 64-bit length, to a multiple of 64 bytes -/
def pad (m : List (BitVec 8)) : List (BitVec 8) :=
  m ++ [0x80] ++ List.replicate ((119 - m.length % 64) % 64) 0
    ++ beBytes (BitVec.ofNat 32 (8 * m.length / 2 ^ 32)) ++ beBytes (BitVec.ofNat 32 (8 * m.length))

/-- word `i` of a block of bytes (5.2.1), big endian -/
def word (bytes : List (BitVec 8)) (i : Nat) : BitVec 32 :=
  (bytes.getD (4 * i) 0 ++ bytes.getD (4 * i + 1) 0 ++ bytes.getD (4 * i + 2) 0 ++ bytes.getD (4 * i + 3) 0 : BitVec 32)

/-- the blocks, in order -/
def blocks (bytes : List (BitVec 8)) : Nat → Hash → Hash
  | 0, h => h
  | n + 1, h => blocks (bytes.drop 64) n (compress (word bytes) h)

/-- SHA-1 of a byte string (fewer than 2^61 bytes) -/
def sha1 (m : List (BitVec 8)) : Hash :=
  blocks (pad m) ((pad m).length / 64) H0

/-- little-endian value of a byte string -/
def leNat : List (BitVec 8) → Nat
  | [] => 0
  | b :: l => b.toNat + 256 * leNat l

/-- The Gen 5 initial seed for a digest: the first eight digest bytes as a little-endian number, advanced once by the
64-bit linear congruential generator of the Gen 5 games. -/
def gen5Seed (h : Hash) : BitVec 64 :=
  BitVec.ofNat 64 (leNat (beBytes h.a ++ beBytes h.b) * 0x5D588B656C078965 + 0x269EC3)

-- FIPS 180 test vectors: "abc" and the 56-byte message (tests of this specification, not proofs)
#guard sha1 ("abc".toUTF8.toList.map (·.toBitVec)) =
  { a := 0xa9993e36, b := 0x4706816a, c := 0xba3e2571, d := 0x7850c26c, e := 0x9cd0d89d }
#guard sha1 ("abcdbcdecdefdefgefghfghighijhijkijkljklmklmnlmnomnopnopq".toUTF8.toList.map (·.toBitVec)) =
  { a := 0x84983e44, b := 0x1c3bd26e, c := 0xbaae4aa1, d := 0xf95129e5, e := 0xe54670f1 }

end Verif.Spec.Sha1
