#!/usr/bin/env python3
"""Writes lean/Verif/Lang/Files.lean and GenFiles.lean: hand-written Go files of /repo, character for character.

  embedgo.py [repo]"""
import os, sys
repo = sys.argv[1] if len(sys.argv) > 1 else "/repo"
root = os.path.dirname(os.path.dirname(os.path.abspath(__file__)))
groups = {"Files": [("lib", "xdr/lib.go"), ("helper", "xdr/helper.go"), ("types", "xdr/types.go"),
                    ("client", "rfc1057/client.go"), ("server", "rfc1057/server.go")],
          "GenFiles": [("out", "out.go"), ("scan", "scan.go"), ("main", "main.go"), ("yacc", "xdr.y")]}

def lit(s):
    s = s.replace("\\", "\\\\").replace('"', '\\"').replace("\n", "\\n").replace("\t", "\\t")
    assert all(32 <= ord(c) < 127 for c in s), repr(s)
    return 't!"' + s + '"'

for module, files in groups.items():
    o = ["/-", "Hand-written Go files of /repo, character for character.  Written by tools/embedgo.py.", "-/",
         "import Verif.Text.Scan", "", "namespace Verif.Lang", "open Verif.Text (Text)", ""]
    for d, f in files:
        text = open(os.path.join(repo, f), newline="").read()
        lines = text.splitlines(keepends=True)
        assert "".join(lines) == text
        o.append("/-- %s -/" % f)
        o.append("def %sText : List Text := [\n  " % d + ",\n  ".join(lit(l) for l in lines) + "]")
        o.append("")
    o.append("end Verif.Lang")
    open(os.path.join(root, "lean", "Verif", "Lang", module + ".lean"), "w").write("\n".join(o) + "\n")
