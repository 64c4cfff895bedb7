"""Writes lean/Verif/Data/MtPoly.lean and lean/Verif/Lemmas/MtChunks{1,2}.lean: the minimal polynomial of MT19937 and the powers
x^(2^(1000 k)) modulo it. Nothing here is trusted, the Lean kernel repeats every squaring."""
import os

HERE = os.path.join(os.path.dirname(os.path.abspath(__file__)), "..", "lean", "Verif")
A, D = 0x9908B0DF, 19937


def clmul(x, y):
    r = 0
    while y:
        low = y & -y
        r ^= x * low
        y ^= low
    return r


P = (1 << 624) ^ (1 << 397)
q = 1
for j in range(32):
    q = clmul(q, P) ^ (((A >> j) & 1) << min(j + 1, 31))
assert q & ((1 << 31) - 1) == 0
phi = q >> 31
assert phi.bit_length() == D + 1
mu, x = 0, 1 << (2 * D)
while x.bit_length() > D:
    s = x.bit_length() - 1 - D
    mu |= 1 << s
    x ^= phi << s
terms = [i for i in range(D) if phi >> i & 1]


def square(r):
    r = int("0".join(bin(r)[2:]), 2)
    while r >> D:
        h = r >> D
        r &= (1 << D) - 1
        for i in terms:
            r ^= h << i
    return r


points = []
r = 2
for i in range(D + 1):
    if i % 1000 == 0 or i == D:
        points.append((i, r))
    r = square(r)
assert points[-1][1] == 2
with open(HERE + "/Data/MtPoly.lean", "w") as f:
    f.write(
        "/-\nWritten by tools/gen_mtpoly.py. Polynomials over GF(2), bit `i` is the coefficient of `x^i`: the minimal polynomial of\n"
        "MT19937, an approximate inverse, and `x^(2^i)` for `i` = 0, 1000, ..., 19000, 19937.\n-/\nnamespace Verif.Data.MtPoly\n\n"
    )
    f.write(f"def phi : Nat := {hex(phi)}\n\ndef mu : Nat := {hex(mu)}\n")
    for i, r in points:
        f.write(f"\ndef p{i} : Nat := {hex(r)}\n")
    f.write("\nend Verif.Data.MtPoly\n")
pairs = list(zip(points, points[1:]))
for n, part in ((1, pairs[:10]), (2, pairs[10:])):
    with open(HERE + f"/Lemmas/MtChunks{n}.lean", "w") as f:
        f.write(
            "import Verif.Lemmas.PackedDefs\nimport Verif.Data.MtPoly\n/-\nWritten by tools/gen_mtpoly.py. Squarings modulo the "
            "minimal polynomial of MT19937.\n-/\nnamespace Verif.MtPeriod\nopen Verif.Gf2 Verif.Data.MtPoly\n\nset_option Elab.async false\n\n"
        )
        for (i, _), (j, _) in part:
            f.write(
                f"theorem chunk{i} : (chunk phi mu {16 * D} {j - i} p{i} p{j} && !Nat.beq (spread p{j}) 0) = true := by\n"
                f"  decide +kernel\n\n"
            )
        f.write("end Verif.MtPeriod\n")
