#!/usr/bin/env python3
"""Write MANIFEST.json from the theorem names in lean/Verif/Props.

A theorem named Cnn_... (or Cnn) belongs to property Cnn.  A property with a
`_partial` or `_refuted` theorem has status "partial".  Notes: tools/notes.json.
"""
import json, re, glob, os
root = os.path.dirname(os.path.dirname(os.path.abspath(__file__)))
props = [json.loads(l)["id"] for l in open(f"{root}/properties.jsonl")]
notes = json.load(open(f"{root}/tools/notes.json"))
th = {}
for f in sorted(glob.glob(f"{root}/lean/Verif/Props/*.lean")):
    src = open(f).read()
    src = re.sub(r"/-.*?-/", "", src, flags=re.S)
    ns = re.search(r"^namespace (\S+)", src, re.M).group(1)
    for m in re.finditer(r"^theorem (C\d\d+)(_\S*)?(?=[\s:])", src, re.M):
        th.setdefault(m.group(1), []).append(f"{ns}.{m.group(1)}{m.group(2) or ''}")
claims = []
for p in props:
    t = th.get(p, [])
    if not t:
        print("no theorem:", p)
        continue
    part = any("_partial" in x or "_refuted" in x for x in t)
    claims.append({"property": p, "status": "partial" if part else "proved",
                   "theorems": t, "note": notes.get(p, "")})
    if part and p not in notes: print("no note:", p)
    if p not in notes: print("note missing:", p)
for t in th:
    if t not in props: print("unknown property:", t)
json.dump({"claims": claims}, open(f"{root}/MANIFEST.json", "w"), indent=1)
print(len(claims), "claims", sum(len(c["theorems"]) for c in claims), "theorems")
