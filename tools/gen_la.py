#!/usr/bin/env python3
"""Writes lean/Verif/Data/La*.lean from the binary files of Legends Arceus in the library (default: /repo).

Nothing of the library is run; the files are only read. Each file becomes one number, its bytes being the digits in base
256, lowest first, written in chunks of 2048 bytes (a single literal of this size takes minutes to parse)."""

import pathlib
import sys

SRC = pathlib.Path(sys.argv[1] if len(sys.argv) > 1 else "/repo") / "numba_pokemon_prngs/resources/encount/la"
OUT = pathlib.Path(__file__).resolve().parent.parent / "lean/Verif/Data"
MODULES = {
    **{f"La{a}": [(f"encounter{a}", f"ha_area0{a}_encounter.bin")] for a in range(1, 6)},
    **{f"LaSpawner{a}": [(f"spawner{a}", f"ha_area0{a}_spawner.bin")] for a in range(1, 6)},
    "LaPokemon": [("pokeEncount", "poke_encount.bin"), ("pokeMisc", "poke_misc.bin")],
    "LaOutbreak": [("outbreakGroup", "new_huge_outbreak_group.bin"), ("outbreakLottery", "new_huge_outbreak_group_lottery.bin")],
}

for module, files in MODULES.items():
    out = ["import Verif.Data.Join", "/-", "Generated by tools/gen_la.py from resources/encount/la.", "-/", "namespace Verif.Data", ""]
    for name, file in files:
        data = (SRC / file).read_bytes()
        chunks = [data[i:i + 2048] for i in range(0, len(data), 2048)]
        out += [f"/-- resources/encount/la/{file}, {len(data)} bytes -/", f"def {name} : Nat := join ["]
        out += [f"  0x{int.from_bytes(c, 'little'):x}" + ("," if k < len(chunks) - 1 else "]") for k, c in enumerate(chunks)]
        out.append("")
    out += ["end Verif.Data", ""]
    (OUT / f"{module}.lean").write_text("\n".join(out))

# The ids of the encounter tables of each area, in the order of the file; Lemmas/LaArea1..5 check them.
out = ["/-", "Generated by tools/gen_la.py: the ids of the encounter tables, checked in Lemmas/LaArea1 to LaArea5.", "-/",
       "namespace Verif.Data", ""]
codes = set()
for a in range(1, 6):
    data = (SRC / f"ha_area0{a}_encounter.bin").read_bytes()

    def u(off, width, signed=False):
        return int.from_bytes(data[off:off + width], "little", signed=signed)

    def field(pos, k):
        v = pos - u(pos, 4, True)
        return pos + u(v + 4 + 2 * k, 2)

    def opt(pos, k):
        v = pos - u(pos, 4, True)
        return u(field(pos, k), 4) if 4 + 2 * k < u(v, 2) and u(v + 4 + 2 * k, 2) else 0

    vector = field(u(0, 4), 0)
    vector += u(vector, 4)
    ids = []
    for i in range(u(vector, 4)):
        p = vector + 4 + 4 * i
        ids.append(u(field(p + u(p, 4), 0), 8))
        slots = field(p + u(p, 4), 3)
        slots += u(slots, 4)
        for j in range(u(slots, 4)):
            q = slots + 4 + 4 * j
            codes.add(32 * opt(q + u(q, 4), 0) + opt(q + u(q, 4), 3))
    rows = [", ".join(f"0x{x:016x}" for x in ids[i:i + 6]) for i in range(0, len(ids), 6)]
    out += [f"/-- the ids of the tables of area {a} -/", f"def ids{a} : List Nat := ["] + [f"  {r}," for r in rows[:-1]] + [f"  {rows[-1]}]", ""]
out += ["end Verif.Data", ""]
(OUT / "LaIds.lean").write_text("\n".join(out))

# The species and forms of the slots, as 32 times the species plus the form.
rows = [str(c) for c in sorted(codes)]
out = ["/-", "Generated by tools/gen_la.py: the species and forms that occur in the encounter tables, checked in Lemmas/LaArea1 to LaArea5.",
       "-/", "namespace Verif.Data", "", "/-- 32 times the species plus the form -/", "def knownCodes : List Nat := ["]
out += [",\n".join("  " + ", ".join(rows[i:i + 20]) for i in range(0, len(rows), 20)) + "]", "", "/-- the number with these bits -/",
        "def knownMask : Nat :=", f"  0x{sum(1 << c for c in codes):x}", "", "end Verif.Data", ""]
(OUT / "LaKnown.lean").write_text("\n".join(out))
