#!/usr/bin/env python3
"""Regenerate MANIFEST.json from the theorem names in lean/Verif/Props and tools/status.json."""
import json, os, re
root = os.path.dirname(os.path.dirname(os.path.abspath(__file__)))
thms = {}
pd = os.path.join(root, "lean/Verif/Props")
for f in sorted(os.listdir(pd)):
    ns = "Sidis.Props"
    for l in open(os.path.join(pd, f)):
        m = re.match(r"theorem (c(\d\d+)_\w+)", l)
        if m:
            thms.setdefault("C" + m.group(2), []).append(ns + "." + m.group(1))
status = json.load(open(os.path.join(root, "tools/status.json")))
claims = []
for l in open(os.path.join(root, "properties.jsonl")):
    p = json.loads(l)
    i = p["id"]
    if i not in thms and i not in status:
        continue
    s = status.get(i, {})
    t = thms.get(i, [])
    st = s.get("status") or ("partial" if any(x.endswith("_partial") for x in t) else "proved")
    claims.append({"property": i, "status": st, "theorems": t, "note": s.get("note", "")})
json.dump({"claims": claims}, open(os.path.join(root, "MANIFEST.json"), "w"), indent=1)
print(len(claims), "claims", sum(len(c["theorems"]) for c in claims), "theorems")
