#!/usr/bin/env python3
"""Regenerates ../MANIFEST.json; checks that the named theorems occur in the sources and lists uncovered properties."""
import json, os, re, glob
here = os.path.dirname(os.path.abspath(__file__))
C = {}
def c(pid, status, thms, note=""):
    C[pid] = dict(property=pid, status=status, theorems=["Pymap3d."+t for t in thms.split()], note=note)
exec(open(os.path.join(here, "claims.py")).read())
names = set()
for f in glob.glob(os.path.join(here, "../lean/Verif/**/*.lean"), recursive=True):
    ns = []
    for line in open(f):
        m = re.match(r"namespace (\S+)", line)
        if m: ns.append(m.group(1))
        m = re.match(r"end (\S+)", line)
        if m and ns and ns[-1] == m.group(1): ns.pop()
        m = re.match(r"(?:@\[[^\]]*\] )?(?:private |protected )?theorem (\S+)", line)
        if m: names.add(".".join(ns+[m.group(1)]))
bad = [t for v in C.values() for t in v["theorems"] if t not in names]
if bad: print("MISSING", bad)
ids = [json.loads(l)["id"] for l in open(os.path.join(here, "../properties.jsonl"))]
print("uncovered:", [i for i in ids if i not in C])
json.dump({"claims": [C[i] for i in ids if i in C]}, open(os.path.join(here, "../MANIFEST.json"), "w"), indent=1)
