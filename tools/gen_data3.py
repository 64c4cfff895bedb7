#!/usr/bin/env python3
"""Writes lean/Verif/Data/{Text,Enc3,Personal3}.lean from the data files of the library (default: /repo).

Nothing of the library is run; the text, JSON and binary files are only read. Each Lean file holds the same content in
another notation (described in the file)."""

import json
import pathlib
import sys

SRC = pathlib.Path(sys.argv[1] if len(sys.argv) > 1 else "/repo") / "numba_pokemon_prngs/resources"
OUT = pathlib.Path(__file__).resolve().parent.parent / "lean/Verif/Data"
OUT.mkdir(exist_ok=True)
KINDS = ["land_mons", "water_mons", "rock_smash_mons", "fishing_mons"]


def quote(s):
    assert '"' not in s and "\\" not in s
    return f'c!"{s}"'


def wrap(items, indent="  ", width=118):
    lines, line = [], indent
    for k, item in enumerate(items):
        item = item + ("," if k < len(items) - 1 else "]")
        if len(line) + len(item) > width and line.strip():
            lines.append(line.rstrip())
            line = indent
        line += item + " "
    lines.append(line.rstrip())
    return "\n".join(lines)


def text():
    out = ["import Verif.Data.Chars", "/-", "Generated by tools/gen_data3.py from resources/txt: the lines of the text files read by data/__init__.py.", "-/",
           "namespace Verif.Data", ""]
    for name, file, enc in [("speciesEn", "species_en", "utf-8-sig"), ("abilitiesEn", "abilities_en", "utf-8"),
                            ("naturesEn", "natures_en", "utf-8"), ("typesEn", "types_en", "utf-8")]:
        lines = (SRC / f"txt/{file}.txt").read_text(encoding=enc).splitlines()
        out += [f"/-- lines of resources/txt/{file}.txt -/", f"def {name} : List (List Char) := ["]
        out += [wrap([quote(x) for x in lines]), ""]
    out += ["end Verif.Data", ""]
    (OUT / "Text.lean").write_text("\n".join(out))


def enc3():
    data = {f: json.load(open(SRC / f"encount/{f}_wild_encounters.json"))["wild_encounter_groups"][0]["encounters"]
            for f in ["rs", "e", "frlg"]}
    pool = []
    for d in data.values():
        for e in d:
            assert set(e) <= {"map", "base_label", *KINDS}
            for k in KINDS:
                for m in e.get(k, {"mons": []})["mons"]:
                    assert set(m) == {"min_level", "max_level", "species"}
                    if m["species"] not in pool:
                        pool.append(m["species"])
    out = ["import Verif.Data.Chars", "/-",
           "Generated by tools/gen_data3.py from resources/encount/*_wild_encounters.json: the entries of",
           '`["wild_encounter_groups"][0]["encounters"]`.',
           "",
           "An entry holds the map, the label and the land, water, rock smash and fishing lists, `none` where the key is",
           "missing. A list is its encounter rate, its number of mons and the mons as a number in hexadecimal notation: eight",
           "digits per mon in the order of the file, two for the minimal level, two for the maximal level and four for the",
           "place of the name of the species in `speciesPool`.",
           "-/",
           "namespace Verif.Data", "",
           "/-- a list of mons, packed -/",
           "structure Packed where",
           "  rate : Nat",
           "  count : Nat",
           "  mons : Nat",
           "",
           "/-- an entry -/",
           "structure Raw where",
           "  map : List Char",
           "  label : List Char",
           "  land : Option Packed",
           "  water : Option Packed",
           "  rock : Option Packed",
           "  fish : Option Packed",
           "",
           "/-- the different strings under `\"species\"`, in the order of their first appearance -/",
           "def speciesPool : List (List Char) := [",
           wrap([quote(x) for x in pool]), ""]
    for f, d in data.items():
        out += ["set_option maxRecDepth 10000 in", f"/-- resources/encount/{f}_wild_encounters.json -/", f"def {f}Raw : List Raw := ["]
        for n, e in enumerate(d):
            lists = []
            for k in KINDS:
                if k in e:
                    assert set(e[k]) == {"encounter_rate", "mons"}
                    hexa = "".join("%02x%02x%04x" % (m["min_level"], m["max_level"], pool.index(m["species"]))
                                   for m in e[k]["mons"])
                    assert all(0 <= m["min_level"] < 256 and 0 <= m["max_level"] < 256 for m in e[k]["mons"])
                    lists.append(f'some ⟨{e[k]["encounter_rate"]}, {len(e[k]["mons"])},\n      0x{hexa}⟩')
                else:
                    lists.append("none")
            end = "," if n < len(d) - 1 else "]"
            out.append(f'  ⟨{quote(e["map"])}, {quote(e["base_label"])}, ' + ", ".join(lists) + "⟩" + end)
        out.append("")
    out += ["end Verif.Data", ""]
    (OUT / "Enc3.lean").write_text("\n".join(out))


def personal3():
    out = ["/-", "Generated by tools/gen_data3.py from resources/bin/personal: the bytes of the four Gen 3 files as hexadecimal numbers,",
           "the first byte of the file being the most significant one; and the number of bytes.", "-/",
           "namespace Verif.Data", ""]
    for f in ["rs", "e", "fr", "lg"]:
        b = (SRC / f"bin/personal/personal_{f}").read_bytes()
        out += [f"/-- resources/bin/personal/personal_{f} -/", f"def personal_{f} : Nat × Nat := ({len(b)},", f"  0x{b.hex()})", ""]
    out += ["end Verif.Data", ""]
    (OUT / "Personal3.lean").write_text("\n".join(out))


text()
enc3()
personal3()
