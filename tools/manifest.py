#!/usr/bin/env python3
"""Write MANIFEST.json and lean/Verif/Axioms.lean from tools/claims.txt.

Each line of claims.txt: ID | status | theorem names (blank separated) | note
"""
import json, os
root = os.path.dirname(os.path.dirname(os.path.abspath(__file__)))
claims, names = [], []
for line in open(os.path.join(root, "tools", "claims.txt")):
    line = line.strip()
    if not line or line.startswith("#"):
        continue
    pid, status, thms, note = [x.strip() for x in line.split("|", 3)]
    t = ["Simint." + x for x in thms.split()]
    claims.append({"property": pid, "status": status, "theorems": t, "note": note})
    names += [x for x in t if x not in names]
with open(os.path.join(root, "MANIFEST.json"), "w") as f:
    f.write('{"claims": [\n' + ",\n".join(json.dumps(c) for c in claims) + "\n]}\n")
props = sorted(f[:-5] for f in os.listdir(os.path.join(root, "lean", "Verif", "Props")) if f.endswith(".lean"))
with open(os.path.join(root, "lean", "Verif", "Axioms.lean"), "w") as f:
    for p in props:
        f.write(f"import Verif.Props.{p}\n")
    f.write("\n/-! Axioms used by each property theorem, printed during the build. -/\n\n")
    for n in names:
        f.write(f"#print axioms {n}\n")
