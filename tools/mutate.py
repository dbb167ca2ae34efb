#!/usr/bin/env python3
"""Try the theorems against wrong programs.

usage: mutate.py FILE.json    a list of {file, definition, old, new, edit, claim, expect, also}

Each entry is applied to a scratch copy of /verif/lean, the copy is built, and the theorems that fail are
those whose proof, or the proof of a lemma they use, no longer checks.  One line per entry is appended to
/verif/seeded/LOG.jsonl (unless --dry).
"""
import json, os, re, subprocess, sys

SRC = os.environ.get("MUT_SRC", "/verif/lean")
TMP = "/tmp/scratch/lean"
DEPS = "/tmp/mut/deps.txt"


def load_deps():
    mod, uses = {}, {}
    for line in open(DEPS):
        m, n, u = line.rstrip("\n").split("\t")
        mod[n] = m
        uses[n] = u.split()
    rev = {}
    for n, us in uses.items():
        for u in us:
            rev.setdefault(u, set()).add(n)
    return mod, rev


DECL = re.compile(r"^(?:@\[[^\]]*\]\s*)?(?:private |protected |noncomputable |local )*(theorem|lemma|def|example|instance|inductive|structure|abbrev)\s*([^\s:({\[]*)")


def enclosing(path, line):
    last = None
    for i, l in enumerate(open(path), 1):
        if i > line:
            break
        m = DECL.match(l)
        if m:
            last = (m.group(1), m.group(2), i)
    return last


def main():
    dry = "--dry" in sys.argv
    todo = json.load(open([a for a in sys.argv[1:] if not a.startswith("--")][0]))
    subprocess.run(["mkdir", "-p", "/tmp/scratch"], check=True)
    mod, rev = load_deps()
    for m in todo:
        subprocess.run(["rm", "-rf", TMP], check=True)
        subprocess.run(["cp", "-a", SRC, TMP], check=True)
        path = os.path.join(TMP, m["file"])
        text = open(path).read()
        if text.count(m["old"]) != 1:
            print("SKIP (pattern occurs %d times): %s %s" % (text.count(m["old"]), m["file"], m["edit"]))
            continue
        open(path, "w").write(text.replace(m["old"], m["new"]))
        for x in m.get("also", []):  # the same edit in code that mirrors the model, such as an executable scheduler
            q = os.path.join(TMP, x["file"])
            t = open(q).read()
            assert t.count(x["old"]) == 1, x
            open(q, "w").write(t.replace(x["old"], x["new"]))
        r = subprocess.run(["lake", "build"], cwd=TMP, capture_output=True, text=True)
        out = r.stdout + r.stderr
        broken, examples, where = set(), set(), set()
        for f, ln in re.findall(r"error: (?:\./)?(Verif[^:]*\.lean):(\d+):\d+", out):
            d = enclosing(os.path.join(TMP, f), int(ln))
            where.add(f)
            if d is None:
                continue
            if d[0] == "example":
                examples.add("%s:%d" % (f, d[2]))
            else:
                broken.add(d[1])
        names = [n for n in mod if any(n == b or n.endswith("." + b) for b in broken)]
        seen, stack = set(names), list(names)
        while stack:
            for v in rev.get(stack.pop(), ()):
                if v not in seen:
                    seen.add(v)
                    stack.append(v)
        failed = sorted({n.split(".", 1)[1] for n in seen if re.match(r"Cppnet\.C\d\d+_\w+$", n)})
        model = any(mod.get(n, "").startswith("Verif.Model") for n in names)
        ok = r.returncode == 0
        missing = [c for c in m.get("expect", []) if not any(t == c or t.startswith(c + "_") for t in failed)]
        print(("SURVIVED " if ok else "killed   ") + m["definition"] + ": " + m["edit"])
        print("    broken:", sorted(broken), "examples:", sorted(examples), "model" if model else "")
        print("    failed:", [t for t in failed if any(t == c or t.startswith(c + "_") for c in m.get("expect", []))], "of", len(failed))
        if missing:
            print("    NOT AMONG THEM:", missing)
        if r.returncode != 0 and not broken and not examples:
            print(out[-2000:])
        sys.stdout.flush()
        if not dry:
            with open("/verif/seeded/LOG.jsonl", "a") as f:
                f.write(json.dumps({"definition": m["definition"], "edit": m["edit"], "claim": m["claim"],
                                    "failed": failed, "broken_lemmas": sorted(broken), "failed_examples": sorted(examples),
                                    "tightened": m.get("tightened", [])}) + "\n")


main()
