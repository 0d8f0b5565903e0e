#!/usr/bin/env python3
"""Writes MANIFEST.json and lean/Verif/Audit.lean from the table below and checks that every theorem exists."""
import json, re, glob, os
root = os.path.dirname(os.path.dirname(os.path.abspath(__file__)))
claims = []
def c(pid, status, theorems, note=""):
    claims.append({"property": pid, "status": status, "theorems": ["Verif." + t for t in theorems], "note": note})
exec(open(os.path.join(root, "tools", "claims.py")).read())
src = "\n".join(open(f).read() for f in glob.glob(root + "/lean/Verif/**/*.lean", recursive=True))
names = set(re.findall(r"^(?:@\[[^\]]*\]\s*)?(?:theorem|lemma)\s+([A-Za-z0-9_.'₀-₉]+)", src, re.M))
for cl in claims:
    for t in cl["theorems"]:
        short = t[len("Verif."):]
        if short not in names and short.split(".")[-1] not in names:
            raise SystemExit(f"missing theorem {t}")
ids = [json.loads(l)["id"] for l in open(root + "/properties.jsonl")]
done = {cl["property"] for cl in claims}
print("claims:", len(done), "of", len(ids), "missing:", [i for i in ids if i not in done])
claims.sort(key=lambda cl: cl["property"])
json.dump({"claims": claims}, open(root + "/MANIFEST.json", "w"), indent=1)
mods = sorted(os.path.relpath(f, root + "/lean")[:-5].replace("/", ".") for f in glob.glob(root + "/lean/Verif/Props/*.lean"))
with open(root + "/lean/Verif/Audit.lean", "w") as f:
    for m in mods: f.write(f"import {m}\n")
    f.write("\n/- Axioms used by every theorem listed in MANIFEST.json (generated by tools/gen_manifest.py). -/\n")
    seen = []
    for cl in claims:
        for t in cl["theorems"]:
            if t not in seen:
                seen.append(t); f.write(f"#print axioms {t}\n")
with open(root + "/lean/Verif.lean", "w") as f:
    for m in mods: f.write(f"import {m}\n")
    f.write("import Verif.Audit\n")
