#!/usr/bin/env python3
"""Rewrite MANIFEST.json: theorem names are collected from lean/Verif/Props, status and notes from STATUS below."""
import json, os, re, glob
ROOT = os.path.dirname(os.path.dirname(os.path.abspath(__file__)))
exec(open(os.path.join(ROOT, "tools", "status.py")).read())
thms = {}
for path in sorted(glob.glob(os.path.join(ROOT, "lean/Verif/Props/*.lean"))):
    for m in re.finditer(r"^theorem (C(\d\d)_\w+)", open(path).read(), re.M):
        thms.setdefault("C" + m.group(2), []).append("PyDice." + m.group(1))
ids = [json.loads(l)["id"] for l in open(os.path.join(ROOT, "properties.jsonl"))]
claims = []
for i in ids:
    if i in STATUS:
        st, note = STATUS[i]
        claims.append({"property": i, "status": st, "theorems": thms.get(i, []), "note": note})
        if not thms.get(i):
            print("no theorem for", i)
for i in thms:
    if i not in STATUS:
        print("theorems without status:", i)
json.dump({"claims": claims}, open(os.path.join(ROOT, "MANIFEST.json"), "w"), indent=1)
