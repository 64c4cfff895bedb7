#!/usr/bin/env python3
"""Writes lean/Verif/Data/LaNames.lean from the names of the encounter tables in the library (default: /repo).

Nothing of the library is run; the file is only read."""

import pathlib
import re
import sys

LA = pathlib.Path(sys.argv[1] if len(sys.argv) > 1 else "/repo") / "numba_pokemon_prngs/resources/encount/la"
SRC = LA / "encounter_table_names.json"
OUT = pathlib.Path(__file__).resolve().parent.parent / "lean/Verif/Data/LaNames.lean"
MEMBERS = 64

text = open(SRC, "rb").read()
# the chunks end behind every 64th member, or at the end of the file
ends = [m.end() for m in re.finditer(rb'": "[^"]*"', text)]
cuts = [0] + [e for i, e in enumerate(ends) if (i + 1) % MEMBERS == 0 and e != ends[-1]] + [len(text)]
with open(OUT, "w", encoding="utf8") as f:
    f.write("/-\nGenerated by tools/gen_names.py from resources/encount/la/encounter_table_names.json.\n-/\n")
    f.write("namespace Verif.Data\n\n")
    f.write(f"/-- the {len(text)} bytes of the file, in chunks, each a number with its lowest byte first -/\n")
    f.write("def nameChunks : List Nat := [\n")
    f.write(",\n".join(f"  0x{int.from_bytes(text[a:b], 'little'):x}" for a, b in zip(cuts, cuts[1:])))
    f.write("]\n\nend Verif.Data\n")
