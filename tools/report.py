#!/usr/bin/env python3
"""Writes /verif/THEOREMS.md: for every property its statement, its status and its theorems, each with what it says,
where it is and the axioms it depends on (asked from Lean; run after `lake build`)."""
import glob, json, os, re, subprocess, tempfile
here = os.path.dirname(os.path.abspath(__file__))
root = os.path.abspath(os.path.join(here, ".."))
props = [json.loads(l) for l in open(os.path.join(root, "properties.jsonl"))]
claims = {c["property"]: c for c in json.load(open(os.path.join(root, "MANIFEST.json")))["claims"]}
docs, where = {}, {}
for f in sorted(glob.glob(os.path.join(root, "lean/Verif/Props/*.lean"))):
    text = open(f).read()
    for m in re.finditer(r"^theorem (C\d\d\d?_\S+)", text, re.M):
        where[m.group(1)] = "%s:%d" % (os.path.relpath(f, os.path.join(root, "lean")), text.count("\n", 0, m.start()) + 1)
    for m in re.finditer(r"/--((?:(?!-/).)*)-/\s*theorem (C\d\d\d?_\S+)", text, re.S):
        docs[m.group(2)] = re.sub(r"\s+", " ", m.group(1)).strip()
names = [t for c in claims.values() for t in c["theorems"]]
with tempfile.NamedTemporaryFile("w", suffix=".lean", delete=False) as f:
    f.write("import Verif\n" + "".join("#print axioms %s\n" % n for n in names))
out = subprocess.run(["lake", "env", "lean", f.name], cwd=os.path.join(root, "lean"), capture_output=True, text=True).stdout
os.unlink(f.name)
ax = {}
for m in re.finditer(r"'Cppnet\.(\S+)' (does not depend on any axioms|depends on axioms: \[([^\]]*)\])", out):
    ax[m.group(1)] = sorted(x.strip() for x in (m.group(3) or "").split(",") if x.strip())
assert len(ax) == len(names), (len(ax), len(names))
assert all(a in ("propext", "Classical.choice", "Quot.sound") for l in ax.values() for a in l)
short = {"propext": "P", "Classical.choice": "C", "Quot.sound": "Q"}
o = ["# The properties and their theorems", "",
     "Generated by `tools/report.py` from `properties.jsonl`, `MANIFEST.json` and the docstrings. In brackets after each",
     "theorem: where it is, and the axioms Lean reports for it (P = `propext`, C = `Classical.choice`, Q = `Quot.sound`).",
     "`_refuted`: the code violates the property (or a part of it), here is a witness. `_partial`: the part that holds.", ""]
for p in props:
    c = claims[p["id"]]
    o += ["## %s %s — %s" % (p["id"], p["title"], c["status"]), "", p["statement"], "", "Over: " + p["quantifier"], ""]
    for t in c["theorems"]:
        n = t.split(".")[1]
        o.append("* `%s` — %s [%s; %s]" % (n, docs[n], where[n], "".join(short[a] for a in ax[n]) or "none"))
    o.append("")
open(os.path.join(root, "THEOREMS.md"), "w").write("\n".join(o))
from collections import Counter
print(Counter("".join(short[a] for a in l) or "none" for l in ax.values()))
