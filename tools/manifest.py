#!/usr/bin/env python3
"""Write MANIFEST.json from the theorem names in lean/Verif/Props and tools/notes.json.

A theorem belongs to property Cnn if its name starts with Cnn_. A property is
"partial" if one of its theorems ends in _partial or contains refuted."""
import json, re, glob, os
root = os.path.join(os.path.dirname(__file__), "..")
notes = json.load(open(os.path.join(root, "tools/notes.json")))
props = [json.loads(l)["id"] for l in open(os.path.join(root, "properties.jsonl"))]
by = {p: [] for p in props}
for f in sorted(glob.glob(os.path.join(root, "lean/Verif/Props/*.lean"))):
    for m in re.finditer(r"^(?:@\[[^\]]*\]\s*)?theorem (C\d+)_(\S+)", open(f).read(), re.M):
        by[m[1]].append(f"QED.{m[1]}_{m[2]}")
claims, missing = [], []
for p in props:
    if not by[p]:
        missing.append(p)
        continue
    part = any(t.endswith("_partial") or "refuted" in t for t in by[p])
    claims.append({"property": p, "status": "partial" if part else "proved",
                   "theorems": by[p], "note": notes.get(p, "")})
    if part and not notes.get(p):
        print("no note for partial", p)
json.dump({"claims": claims}, open(os.path.join(root, "MANIFEST.json"), "w"), indent=1)
print(len(claims), "claims; missing:", " ".join(missing))
