#!/usr/bin/env python3
"""Writes the table of properties into DESIGN.md, from properties.jsonl, MANIFEST.json and how.py."""
import json, os, re, sys
here = os.path.dirname(os.path.dirname(os.path.abspath(__file__)))
env = {}
exec(open(os.path.join(here, "tools", "how.py")).read(), env)
H = env["H"]
claims = {c["property"]: c for c in json.load(open(os.path.join(here, "MANIFEST.json")))["claims"]}
out = ["| | property | status | how it is modelled and proved | what holds and what does not | theorems |", "|---|---|---|---|---|---|"]
for l in open(os.path.join(here, "properties.jsonl")):
    p = json.loads(l)
    c = claims[p["id"]]
    if p["id"] not in H:
        sys.exit("no entry in how.py for " + p["id"])
    ts = " ".join("`%s`" % t.replace("Bolt.", "", 1) for t in c["theorems"])
    out.append("| %s | %s | %s | %s | %s | %s |" % (p["id"], p["title"], c["status"], H[p["id"]], c["note"], ts))
f = os.path.join(here, "DESIGN.md")
text = open(f).read()
a, b = "<!-- table begin -->", "<!-- table end -->"
i, j = text.index(a) + len(a), text.index(b)
open(f, "w").write(text[:i] + "\n" + "\n".join(out) + "\n" + text[j:])
n = {}
for c in claims.values():
    n[c["status"]] = n.get(c["status"], 0) + 1
print(n)
