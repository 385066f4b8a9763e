#!/usr/bin/env python3
"""Writes MANIFEST.json from tools/claims.json-like table below and checks theorem names/axioms.

usage: manifest.py          write MANIFEST.json
       manifest.py --check  additionally run `#print axioms` on every theorem named in it
"""
import json, os, re, subprocess, sys
ROOT = os.path.dirname(os.path.dirname(os.path.abspath(__file__)))
claims = []
def claim(prop, status, theorems, note):
    claims.append({"property": prop, "status": status,
                   "theorems": ["Dmi.Props." + t for t in theorems], "note": note})
exec(open(os.path.join(ROOT, "tools", "claims.py")).read())
with open(os.path.join(ROOT, "MANIFEST.json"), "w") as f:
    json.dump({"claims": claims}, f, indent=1, ensure_ascii=False)
    f.write("\n")
props = [json.loads(l)["id"] for l in open(os.path.join(ROOT, "properties.jsonl"))]
missing = [p for p in props if p not in [c["property"] for c in claims]]
print(len(claims), "claims; without claim:", " ".join(missing))
if "--check" in sys.argv:
    names = [t for c in claims for t in c["theorems"]]
    src = "import Verif\n" + "".join(f"#print axioms {n}\n" for n in names)
    open("/tmp/AxCheck.lean", "w").write(src)
    out = subprocess.run(["lake", "env", "lean", "/tmp/AxCheck.lean"], cwd=ROOT + "/lean",
                         capture_output=True, text=True).stdout
    axs = set()
    for m in re.finditer(r"depends on axioms: \[(.*?)\]", out, re.S):
        axs |= {a.strip() for a in m.group(1).split(",")}
    print("axioms used:", sorted(axs))
    for l in out.splitlines():
        if "error" in l:
            print(l)
    # every Cnn theorem of Props should be claimed
    have = set()
    for d, _, fs in os.walk(ROOT + "/lean/Verif/Props"):
        for fn in fs:
            have |= set(re.findall(r"^theorem (C\d\d\w*)", open(os.path.join(d, fn)).read(), re.M))
    un = sorted(h for h in have if "Dmi.Props." + h not in names)
    if un:
        print("unclaimed theorems:", un)
