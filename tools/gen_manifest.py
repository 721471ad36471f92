#!/usr/bin/env python3
"""Writes MANIFEST.json from the table below, after checking that every theorem named exists."""
import json, os, re, sys
here = os.path.dirname(os.path.dirname(os.path.abspath(__file__)))
P, Q, N = "proved", "partial", "not_applicable"
claims = []
def claim(pid, status, theorems, note):
    claims.append({"property": pid, "status": status, "theorems": ["Bolt." + t for t in theorems.split()], "note": note})

exec(open(os.path.join(here, "tools", "claims.py")).read())

names = set()
for root, _, files in os.walk(os.path.join(here, "lean", "Verif", "Props")):
    for f in files:
        text = open(os.path.join(root, f)).read()
        space = re.search(r"^namespace ([\w.]+)", text, re.M).group(1) + "."
        names |= {space + n for n in re.findall(r"^theorem ([\w.?']+)", text, re.M)}
bad = [t for c in claims for t in c["theorems"] if t not in names]
if bad:
    sys.exit("unknown theorems: %s" % bad)
used = {t for c in claims for t in c["theorems"]}
for n in sorted(names - used):
    if re.match(r"Bolt\.(Pooling\.|Recording\.|Logging\.)?c\d\d_", n):
        print("not in manifest:", n)
claims.sort(key=lambda c: c["property"])
json.dump({"claims": claims}, open(os.path.join(here, "MANIFEST.json"), "w"), indent=1)
print(len(claims), "claims")
