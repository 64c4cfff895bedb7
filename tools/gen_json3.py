#!/usr/bin/env python3
"""Writes lean/Verif/Data/{Enc3Json,Enc3Rest}.lean from the Gen 3 encounter files in the library (default: /repo).

Nothing of the library is run; the files are only read. The bytes of each file are cut in front of every entry of the first
group and behind the last one."""

import json
import pathlib
import sys

SRC = pathlib.Path(sys.argv[1] if len(sys.argv) > 1 else "/repo") / "numba_pokemon_prngs/resources/encount"
DATA = pathlib.Path(__file__).resolve().parent.parent / "lean/Verif/Data"


def term(v):
    """a JSON value as a Lean term"""
    if isinstance(v, bool):
        return f".bool {str(v).lower()}"
    if isinstance(v, int):
        return f".num {v}"
    if isinstance(v, str):
        assert v.isascii() and '"' not in v and "\\" not in v
        return f'.str n!"{v}"'
    if isinstance(v, list):
        return ".arr [" + ", ".join(map(term, v)) + "]"
    assert isinstance(v, dict)
    return ".obj [" + ",\n  ".join(f'(n!"{k}", {term(w)})' for k, w in v.items()) + "]"


rest = {}

with open(DATA / "Enc3Json.lean", "w", encoding="utf8") as f:
    f.write("/-\nGenerated by tools/gen_json3.py from resources/encount/*_wild_encounters.json.\n-/\n")
    f.write("namespace Verif.Data\n")
    for name in ["rs", "e", "frlg"]:
        raw = open(SRC / f"{name}_wild_encounters.json", "rb").read()
        groups = json.loads(raw)["wild_encounter_groups"]
        entries = groups[0]["encounters"]
        rest[name] = groups[1:]
        cuts = [0]
        for entry in entries:
            text = json.dumps(entry).encode()
            at = raw.index(text, cuts[-1])
            cuts.append(at if len(cuts) == 1 else at - 2)
            end = at + len(text)
        cuts += [end, len(raw)]
        f.write(f"\n/-- the {len(raw)} bytes of {name}_wild_encounters.json, in pieces, each a number with its lowest byte first -/\n")
        f.write(f"def {name}Chunks : List Nat := [\n")
        f.write(",\n".join(f"  0x{int.from_bytes(raw[a:b], 'little'):x}" for a, b in zip(cuts, cuts[1:])))
        f.write("]\n")
        assert b"".join(raw[a:b] for a, b in zip(cuts, cuts[1:])) == raw
    f.write("\nend Verif.Data\n")

pool = []
for name in ["rs", "e", "frlg"]:
    for entry in json.load(open(SRC / f"{name}_wild_encounters.json"))["wild_encounter_groups"][0]["encounters"]:
        for kind in ["land_mons", "water_mons", "rock_smash_mons", "fishing_mons"]:
            for mon in entry.get(kind, {"mons": []})["mons"]:
                if mon["species"] not in pool:
                    pool.append(mon["species"])
packed = sum(len(x) + 256 * int.from_bytes(x.encode(), "little") << 256 * i for i, x in enumerate(pool))

with open(DATA / "Enc3Rest.lean", "w", encoding="utf8") as f:
    f.write("""import Verif.Data.Codes
import Verif.Model.Json
/-
Generated by tools/gen_json3.py from resources/encount/*_wild_encounters.json. These definitions are used only in proofs, which
show that they agree with the bytes in Data/Enc3Json and the names in Data/Enc3.
-/
namespace Verif.Data
open Json

/-- the names of `speciesPool`, 32 bytes each: the length, and the name with its first character lowest -/
""")
    f.write(f"def poolPacked : Nat :=\n  0x{packed:x}\n")
    fields = json.load(open(SRC / "e_wild_encounters.json"))["wild_encounter_groups"][0]["fields"]
    f.write("\n/-- the value under `fields` in the first group of each file -/\n")
    f.write(f"def fields : Json :=\n  {term(fields)}\n")
    assert rest["rs"] == rest["frlg"] == []
    f.write("\n/-- the other groups of e_wild_encounters.json -/\n")
    f.write("def eRest : List Json := [\n  " + ",\n  ".join(map(term, rest["e"])) + "]\n")
    f.write("\nend Verif.Data\n")
