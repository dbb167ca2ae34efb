#!/usr/bin/env python3
"""Which lines of /repo/src/cppnet the model cites: per file, the code lines no definition cites."""
import glob, os, re, sys
SRC = "/repo/src/cppnet"
files = {}
for d, _, fs in os.walk(SRC):
    for f in fs:
        if f.endswith((".cpp", ".hpp")):
            files.setdefault(f, []).append(os.path.join(d, f))
cited = {f: set() for f in files}
for m in glob.glob(os.path.join(os.path.dirname(os.path.abspath(__file__)), "../lean/Verif/Model/*.lean")):
    text = open(m).read()
    for doc in re.findall(r"/-[-!](.*?)-/", text, re.S):
        for f, spans in re.findall(r"([a-z_]+\.[ch]pp):(\d[\d\-, and]*)", doc):
            if f not in cited:
                print("unknown file", f, "in", m); continue
            for a, b in re.findall(r"(\d+)(?:-(\d+))?", spans):
                cited[f].update(range(int(a), int(b or a) + 1))
def code(path):
    out, blk = [], False
    for i, l in enumerate(open(path, errors="replace"), 1):
        s = l.strip()
        if blk:
            blk = "*/" not in s; continue
        if s.startswith("/*"):
            blk = "*/" not in s; continue
        if not s or s.startswith(("//", "#", "namespace", "}", "using", "public:", "private:", "protected:")): continue
        out.append(i)
    return out
tot = cov = 0
for f in sorted(files):
    for p in files[f]:
        c = code(p); miss = [i for i in c if i not in cited[f]]
        tot += len(c); cov += len(c) - len(miss)
        spans = []
        for i in miss:
            if spans and i <= spans[-1][1] + 2: spans[-1][1] = i
            else: spans.append([i, i])
        print(f"{os.path.relpath(p, SRC)}: {len(c)-len(miss)}/{len(c)}", " ".join(f"{a}-{b}" if a != b else str(a) for a, b in spans))
print(f"total {cov}/{tot}")
