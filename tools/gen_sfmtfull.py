"""Writes lean/Verif/Data/SfmtFull.lean: the polynomial of degree 19968 of the whole SFMT19937 state and the state whose lowest bits are
zero for 19967 words and then one. Nothing here is trusted, the Lean kernel checks both. Run after gen_sfmtpoly.py."""
import os
import random
import re

HERE = os.path.join(os.path.dirname(os.path.abspath(__file__)), "..", "lean", "Verif")
N = 19968
MASK = 0xBFFFFFF6BFFAFFFFDDFECB7FDFFFFFEF
FACTORS = (0b1011, 0b10100101001011, 0b1000010000100011)


def lanewise(f, v):
    return sum((f(v >> (32 * i) & 0xFFFFFFFF) & 0xFFFFFFFF) << (32 * i) for i in range(4))


def rec(a, b, c, d):
    return (a ^ (a << 8) ^ (lanewise(lambda t: t >> 11, b) & MASK) ^ (c >> 8) ^ lanewise(lambda t: t << 18, d)) & ((1 << 128) - 1)


def times(a, b):
    r = 0
    while b:
        low = b & -b
        r ^= a * low
        b ^= low
    return r


def inverse(a, p):
    r0, r1, s0, s1 = p, a, 0, 1
    while r1.bit_length() > 1:
        while r0.bit_length() >= r1.bit_length():
            s = r0.bit_length() - r1.bit_length()
            r0 ^= r1 << s
            s0 ^= s1 << s
        r0, r1, s0, s1 = r1, r0, s1, s0
    assert r1 == 1
    while s1.bit_length() >= p.bit_length():
        s1 ^= p << (s1.bit_length() - p.bit_length())
    return s1


full = int(re.search(r"def phi : Nat := (0x[0-9a-f]+)", open(HERE + "/Data/SfmtPoly.lean").read())[1], 16)
for q in FACTORS:
    full = times(full, q)

random.seed(1)
w = [random.getrandbits(128) for _ in range(156)]
while len(w) < N + 156:
    w.append(rec(w[-156], w[-34], w[-2], w[-1]))
f = inverse(times(sum((w[k] & 1) << (N - 1 - k) for k in range(N)), full) >> N, full)
start = [0] * 156
for i in range(N):
    if f >> i & 1:
        for k in range(156):
            start[k] ^= w[i + k]
x = start[:]
while len(x) <= N:
    x.append(rec(x[-156], x[-34], x[-2], x[-1]))
assert [i for i in range(N) if x[i] & 1] == [N - 1]

with open(HERE + "/Data/SfmtFull.lean", "w") as out:
    out.write(
        "/-\nWritten by tools/gen_sfmtfull.py. The polynomial over GF(2) of the whole state of SFMT19937, bit `i` is the coefficient of `x^i`,\n"
        "and a state, 128-bit word `k` is digit `k` in base 2^128.\n-/\nnamespace Verif.Data.SfmtFull\n\n"
        f"def full : Nat := {hex(full)}\n\n"
        f"def start : Nat := {hex(sum(v << (128 * k) for k, v in enumerate(start)))}\n\nend Verif.Data.SfmtFull\n"
    )
