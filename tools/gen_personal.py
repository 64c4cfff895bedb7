#!/usr/bin/env python3
"""Writes lean/Verif/Data/Personal4.lean to Personal8La.lean from the personal files of generations 4 to 8 in the library (default: /repo).

Nothing of the library is run; the files are only read. A file is cut into pieces of the given length (the record size), each
written as one number whose digits in base 256, lowest first, are two bytes with the number of the piece and then its bytes
(the kernel tells numbers apart quickly only if their low bytes differ)."""

import pathlib
import sys

SRC = pathlib.Path(sys.argv[1] if len(sys.argv) > 1 else "/repo") / "numba_pokemon_prngs/resources/bin/personal"
OUT = pathlib.Path(__file__).resolve().parent.parent / "lean/Verif/Data"
MODULES = {
    "Personal4": [("dp", 0x2C), ("pt", 0x2C)],
    "Personal5": [("bw", 0x3C), ("b2w2", 0x4C)],
    "Personal6": [("xy", 0x40), ("ao", 0x50)],
    "Personal7": [("sm", 0x54), ("uu", 0x54)],
    "Personal8": [("swsh", 0xB0), ("bdsp", 0x44)],
    "Personal8La": [("la", 0xB0)],
}

for module, files in MODULES.items():
    out = ["/-", "Generated by tools/gen_personal.py from resources/bin/personal.", "-/", "namespace Verif.Data", ""]
    for name, size in files:
        data = (SRC / f"personal_{name}").read_bytes()
        rows = [f"0x{int.from_bytes((i // size).to_bytes(2, 'little') + data[i:i + size], 'little'):x}"
                for i in range(0, len(data), size)]
        assert len(data) % size == 0
        parts = [rows[i:i + 100] for i in range(0, len(rows), 100)]
        out += [f"/-- resources/bin/personal/personal_{name}, {len(rows)} pieces of {size} bytes -/",
                f"def personal_{name} : List Nat := List.flatten ["]
        out += ["  [" + ",\n  ".join(p) + "]" + ("," if k < len(parts) - 1 else "]") for k, p in enumerate(parts)]
        out.append("")
    out += ["end Verif.Data", ""]
    (OUT / f"{module}.lean").write_text("\n".join(out))
