#!/usr/bin/env python3
"""Write MANIFEST.json and check that every theorem named exists and is imported, and print its axioms."""
import json, re, subprocess, sys, os
here = os.path.dirname(os.path.abspath(__file__)); root = os.path.dirname(here)
sys.path.insert(0, here)
from claims import CLAIMS
props = [json.loads(l)["id"] for l in open(root + "/properties.jsonl")]
claims = []
for pid in props:
    if pid in CLAIMS:
        st, th, note = CLAIMS[pid]
        claims.append({"property": pid, "status": st, "theorems": ["Verif." + t for t in th], "note": note})
json.dump({"claims": claims}, open(root + "/MANIFEST.json", "w"), indent=1)
print("claims:", len(claims), "of", len(props), "missing:", [p for p in props if p not in CLAIMS])
if "--check" in sys.argv:
    names = [t for c in claims for t in c["theorems"]]
    src = "import Verif\n" + "".join("#print axioms %s\n" % n for n in names)
    open("/tmp/axcheck.lean", "w").write(src)
    out = subprocess.run(["lake", "env", "lean", "/tmp/axcheck.lean"], cwd=root + "/lean", capture_output=True, text=True)
    txt = out.stdout + out.stderr
    ax = set()
    for m in re.finditer(r"depends on axioms: \[([^\]]*)\]", txt):
        ax |= {a.strip() for a in m.group(1).split(",")}
    print("axioms used:", sorted(ax)); 
    errs = [l for l in txt.splitlines() if "error" in l]
    print("errors:", errs)
    # theorems in Props not in the manifest
    import glob
    allth = set()
    for f in glob.glob(root + "/lean/Verif/Props/*.lean"):
        for m in re.finditer(r"^theorem (C\d\d_\S+)", open(f).read(), re.M): allth.add("Verif." + m.group(1))
    print("not in manifest:", sorted(allth - set(names)))
