#!/usr/bin/env python3
"""Fill the table of axioms in DESIGN.md (needs a finished `lake build`)."""
import json, re, subprocess, tempfile
claims = json.load(open("/verif/MANIFEST.json"))["claims"]
ts = [t for c in claims for t in c["theorems"]]
with tempfile.NamedTemporaryFile("w", suffix=".lean", delete=False) as f:
    f.write("import Verif\n" + "".join(f"#print axioms {t}\n" for t in ts))
out = subprocess.run(["lake", "env", "lean", f.name], cwd="/verif/lean", capture_output=True, text=True).stdout
out = " ".join(out.split())
ax = {}
for t in ts:
    m = re.search("'" + re.escape(t) + r"' (does not depend on any axioms|depends on axioms: \[([^\]]*)\])", out)
    ax[t] = (m.group(2) or "none") if m else "NOT FOUND"
groups = {}
for t in ts:
    groups.setdefault(ax[t], []).append(t.split(".")[-1])
text = ""
for a, l in sorted(groups.items(), key=lambda p: len(p[0])):
    text += f"* {a}: " + ", ".join(l) + "\n"
d = open("/verif/DESIGN.md").read()
i, j = d.index("<!-- axioms -->"), d.index("<!-- end -->")
open("/verif/DESIGN.md", "w").write(d[:i] + "<!-- axioms -->\n" + text + d[j:])
print({a: len(l) for a, l in groups.items()})
