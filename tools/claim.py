#!/usr/bin/env python3
"""Update one claim of MANIFEST.json: claim.py C01 proved "thm1,thm2" "note".
Afterwards lean/Verif/Axioms.lean (a #print axioms per claimed theorem) is regenerated."""
import json, os, sys
root = os.path.dirname(os.path.dirname(os.path.abspath(__file__)))
mf = os.path.join(root, "MANIFEST.json")
m = json.load(open(mf)) if os.path.exists(mf) else {"claims": []}
if len(sys.argv) > 1:
    pid, status, thms, note = sys.argv[1:5]
    assert status in ("proved", "partial", "not_applicable")
    t = [x.strip() for x in thms.split(",") if x.strip()]
    t = [x if x.startswith("Verif.") else "Verif.Props." + x for x in t]
    m["claims"] = [c for c in m["claims"] if c["property"] != pid]
    m["claims"].append({"property": pid, "status": status, "theorems": t, "note": note})
    m["claims"].sort(key=lambda c: c["property"])
    json.dump(m, open(mf, "w"), indent=1)
mods = sorted(f[:-5] for f in os.listdir(os.path.join(root, "lean/Verif/Props")) if f.endswith(".lean"))
with open(os.path.join(root, "lean/Verif/Axioms.lean"), "w") as f:
    for x in mods:
        f.write("import Verif.Props.%s\n" % x)
    f.write("\n/-! Axioms used by every claimed theorem (generated by tools/claim.py). -/\n\n")
    for c in m["claims"]:
        for t in c["theorems"]:
            f.write("#print axioms %s\n" % t)
