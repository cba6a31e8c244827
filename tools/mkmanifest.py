#!/usr/bin/env python3
"""Writes /verif/MANIFEST.json from the theorem names found in lean/Verif/Props.

A theorem `Verif.Props.Cnn_...` belongs to property Cnn.  A property without theorem is listed as
not yet proved ("partial", no theorems) unless NA names a reason."""
import json, os, re
here = os.path.dirname(os.path.abspath(__file__))
root = os.path.dirname(here)
thms = {}
props = os.path.join(root, "lean", "Verif", "Props")
for f in sorted(os.listdir(props)):
    for m in re.finditer(r"^(?:protected |private )?theorem (C\d\d)(_\w+)", open(os.path.join(props, f)).read(), re.M):
        thms.setdefault(m[1], []).append("Verif.Props." + m[1] + m[2])
NA = {}
NOTES = {}
exec(open(os.path.join(here, "notes.py")).read())
claims = []
for l in open(os.path.join(root, "properties.jsonl")):
    o = json.loads(l)
    c = o["id"]
    ts = thms.get(c, [])
    if c in NA:
        st = "not_applicable"
    elif not ts or any(t.endswith("_partial") for t in ts):
        st = "partial"
    else:
        st = "proved"
    claims.append({"property": c, "status": st, "theorems": ts,
                   "note": NA.get(c) or NOTES.get(c) or ("" if ts else "not proved yet")})
json.dump({"claims": claims}, open(os.path.join(root, "MANIFEST.json"), "w"), indent=1)
print({s: sum(1 for c in claims if c["status"] == s) for s in ("proved", "partial", "not_applicable")})
