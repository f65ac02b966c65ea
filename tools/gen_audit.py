"""Writes lean/Verif/Audit.lean: `#print axioms` for every theorem named in MANIFEST.json."""
import json, os
ROOT = os.path.abspath(os.path.join(os.path.dirname(__file__), ".."))
man = json.load(open(ROOT + "/MANIFEST.json"))
mods = sorted(f[:-5] for f in os.listdir(ROOT + "/lean/Verif/Props") if f.endswith(".lean"))
names = []
for c in man["claims"]:
    for t in c["theorems"]:
        if t not in names:
            names.append(t)
with open(ROOT + "/lean/Verif/Audit.lean", "w") as f:
    for m in mods:
        f.write("import Verif.Props.%s\n" % m)
    f.write("\n/-! Axioms of every theorem named in `MANIFEST.json` (generated by `tools/gen_audit.py`).\n"
            "Each line should report at most `propext`, `Classical.choice`, `Quot.sound`. -/\n\n")
    for t in names:
        f.write("#print axioms %s\n" % t)
