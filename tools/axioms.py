"""Writes AXIOMS.md: the axioms of every theorem of MANIFEST.json, as printed by Lean. Run after `lake build` in lean/."""
import json
import re
import subprocess
from pathlib import Path

root = Path(__file__).resolve().parent.parent
claims = json.load(open(root / "MANIFEST.json"))["claims"]
names = [t for c in claims for t in c["theorems"]]
src = "import Verif\n" + "".join(f"#print axioms {t}\n" for t in names)
out = subprocess.run(["lake", "env", "lean", "--stdin"], input=src, capture_output=True, text=True, cwd=root / "lean").stdout
found = {}
for m in re.finditer(r"'(\S+)' (does not depend on any axioms|depends on axioms: \[(.*?)\])", out, re.S):
    found[m.group(1)] = [a.strip() for a in (m.group(3) or "").split(",") if a.strip()]
missing = [t for t in names if t not in found]
assert not missing, missing
groups = {}
for c in claims:
    for t in c["theorems"]:
        groups.setdefault(tuple(sorted(found[t])), []).append(t)
with open(root / "AXIOMS.md", "w") as f:
    f.write("# Axioms of the theorems in MANIFEST.json\n\nWritten by `tools/axioms.py` from `#print axioms`.\n")
    for axioms, ts in sorted(groups.items()):
        f.write("\n## " + (", ".join(axioms) or "none") + "\n\n")
        f.writelines(f"* `{t}`\n" for t in dict.fromkeys(ts))
print({k: len(v) for k, v in groups.items()})
