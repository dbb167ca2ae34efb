#!/usr/bin/env python3
"""Writes /verif/MANIFEST.json from the theorem names found in lean/Verif/Props and tools/notes.json.
A property with a theorem whose name ends in _refuted or _partial is 'partial', otherwise 'proved'."""
import json, os, re, glob
here = os.path.dirname(os.path.abspath(__file__))
root = os.path.join(here, "..")
props = [json.loads(l) for l in open(os.path.join(root, "properties.jsonl"))]
notes = json.load(open(os.path.join(here, "notes.json")))
thms, docs = {}, {}
imported = open(os.path.join(root, "lean/Verif.lean")).read().split()
for f in sorted(glob.glob(os.path.join(root, "lean/Verif/Props/**/*.lean"), recursive=True)):
    assert "Verif.Props." + os.path.basename(f)[:-5] in imported, f
    text = open(f).read()
    for m in re.finditer(r"^theorem (C(\d\d\d?)_\S+)", text, re.M):
        thms.setdefault("C" + m.group(2), []).append("Cppnet." + m.group(1))
    for m in re.finditer(r"/--((?:(?!-/).)*)-/\s*theorem (C\d\d\d?_\S+)", text, re.S):
        docs["Cppnet." + m.group(2)] = re.sub(r"\s+", " ", m.group(1)).strip()
claims = []
for p in props:
    i = p["id"]
    t = thms.pop(i, [])
    n = notes.get(i, "")
    if not t:
        claims.append(dict(property=i, status="not_applicable", theorems=[], note=n or "not modelled yet"))
        continue
    part = any(x.endswith("_partial") or x.endswith("_refuted") for x in t)
    if part and not n:
        n = " | ".join("%s: %s" % (x.split(".")[1], docs[x]) for x in t if x.endswith("_partial") or x.endswith("_refuted"))
    claims.append(dict(property=i, status="partial" if part else "proved", theorems=t, note=n))
assert not thms, thms
json.dump({"claims": claims}, open(os.path.join(root, "MANIFEST.json"), "w"), indent=1)
from collections import Counter
print(Counter(c["status"] for c in claims), sum(len(c["theorems"]) for c in claims))
