"""Writes lean/Verif/Data/SfmtPoly.lean and lean/Verif/Lemmas/SfmtChunks{1,2}.lean: the polynomial of degree 19937 of SFMT19937 and
the powers x^(2^(1000 k)) modulo it. Nothing here is trusted, the Lean kernel repeats every squaring and checks that the polynomial
annihilates the parity checked by the period certification. Takes some minutes."""
import os
import random

HERE = os.path.join(os.path.dirname(os.path.abspath(__file__)), "..", "lean", "Verif")
D = 19937
MASK = 0xBFFFFFF6BFFAFFFFDDFECB7FDFFFFFEF
PARITY = 0x13C9E684000000000000000000000001


def lanewise(f, v):
    return sum((f(v >> (32 * i) & 0xFFFFFFFF) & 0xFFFFFFFF) << (32 * i) for i in range(4))


def rec(a, b, c, d):
    return (a ^ (a << 8) ^ (lanewise(lambda t: t >> 11, b) & MASK) ^ (c >> 8) ^ lanewise(lambda t: t << 18, d)) & ((1 << 128) - 1)


def berlekamp_massey(s):
    c, b, length, m, recent = 1, 1, 0, 1, 0
    for n, x in enumerate(s):
        recent = recent << 1 | x
        if bin(c & recent).count("1") & 1 == 0:
            m += 1
        elif 2 * length <= n:
            c, b, length, m = c ^ (b << m), c, n + 1 - length, 1
        else:
            c ^= b << m
            m += 1
    return c, length


random.seed(1)
w = [random.getrandbits(128) for _ in range(156)]
while len(w) < 40000:
    w.append(rec(w[-156], w[-34], w[-2], w[-1]))
c, length = berlekamp_massey([bin(v & PARITY).count("1") & 1 for v in w])
assert length == D
p = sum((c >> i & 1) << (D - i) for i in range(D + 1))

mu, x = 0, 1 << (2 * D)
while x.bit_length() > D:
    s = x.bit_length() - 1 - D
    mu |= 1 << s
    x ^= p << s

top = [p ^ (1 << D)]
for _ in range(7):
    v = top[-1] << 1
    top.append(v ^ p if v >> D else v)
table = []
for h in range(256):
    v = 0
    for k in range(8):
        if h >> k & 1:
            v ^= top[k]
    table.append(v)
spaced = [int("".join("0" + d for d in bin(b)[2:].zfill(8)), 2).to_bytes(2, "little") for b in range(256)]


def square(r):
    r = int.from_bytes(b"".join(spaced[b] for b in r.to_bytes(2493, "little")), "little")
    for k in range((r.bit_length() - D + 7) // 8 - 1, -1, -1):
        h = r >> (D + 8 * k)
        r ^= (h << (D + 8 * k)) ^ (table[h] << (8 * k))
    return r


points = []
r = 2
for i in range(D + 1):
    if i % 1000 == 0 or i == D:
        points.append((i, r))
    r = square(r)
assert points[-1][1] == 2
with open(HERE + "/Data/SfmtPoly.lean", "w") as f:
    f.write(
        "/-\nWritten by tools/gen_sfmtpoly.py. Polynomials over GF(2), bit `i` is the coefficient of `x^i`: the polynomial of SFMT19937,\n"
        "an approximate inverse, and `x^(2^i)` for `i` = 0, 1000, ..., 19000, 19937.\n-/\nnamespace Verif.Data.SfmtPoly\n\n"
    )
    f.write(f"def phi : Nat := {hex(p)}\n\ndef mu : Nat := {hex(mu)}\n")
    for i, r in points:
        f.write(f"\ndef p{i} : Nat := {hex(r)}\n")
    f.write("\nend Verif.Data.SfmtPoly\n")
pairs = list(zip(points, points[1:]))
for n, part in ((1, pairs[:10]), (2, pairs[10:])):
    with open(HERE + f"/Lemmas/SfmtChunks{n}.lean", "w") as f:
        f.write(
            "import Verif.Lemmas.PackedDefs\nimport Verif.Data.SfmtPoly\n/-\nWritten by tools/gen_sfmtpoly.py. Squarings modulo the "
            "polynomial of SFMT19937.\n-/\nnamespace Verif.SfmtPeriod\nopen Verif.Gf2 Verif.Data.SfmtPoly\n\nset_option Elab.async false\n\n"
        )
        for (i, _), (j, _) in part:
            f.write(
                f"theorem chunk{i} : (chunk phi mu {16 * D} {j - i} p{i} p{j} && !Nat.beq (spread p{j}) 0) = true := by\n"
                f"  decide +kernel\n\n"
            )
        f.write("end Verif.SfmtPeriod\n")
