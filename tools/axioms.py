#!/usr/bin/env python3
"""Writes /verif/AXIOMS.md: the axioms of every theorem named in MANIFEST.json, as Lean reports them (needs a finished build)."""
import json, re, subprocess
m = json.load(open("/verif/MANIFEST.json"))
names = [t for c in m["claims"] for t in c["theorems"]]
src = "/tmp/axioms_check.lean"
with open(src, "w") as f:
    f.write("import Verif\n")
    for n in names: f.write(f"#print axioms {n}\n")
out = subprocess.run(["lake", "env", "lean", src], cwd="/verif/lean", capture_output=True, text=True).stdout
out = re.sub(r"\n\s+", " ", out)
ax = {}
for line in out.split("\n"):
    g = re.match(r"'(.+)' depends on axioms: \[(.*)\]", line)
    if g: ax[g.group(1)] = g.group(2)
    g = re.match(r"'(.+)' does not depend on any axioms", line)
    if g: ax[g.group(1)] = "none"
missing = [n for n in names if n not in ax]
assert not missing, missing
with open("/verif/AXIOMS.md", "w") as f:
    f.write("# Axioms of the theorems of MANIFEST.json\n\nOutput of `#print axioms`, collected by tools/axioms.py.\n\n| Claim | Theorem | Axioms |\n| --- | --- | --- |\n")
    for c in m["claims"]:
        for t in c["theorems"]: f.write(f"| {c['property']} | `{t}` | {ax[t]} |\n")
print(len(names), sorted(set(ax.values())))
