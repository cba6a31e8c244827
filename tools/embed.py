#!/usr/bin/env python3
"""Writes lean/Verif/Inst/Text*.lean: the shipped files of /repo, character for character, as lists of
lists of lines (pieces).  A piece of a Go file is a top-level declaration; a piece of a specification is a
line, or several if a comment goes over several lines.

  embed.py [repo]"""
import os, re, sys
repo = sys.argv[1] if len(sys.argv) > 1 else "/repo"
root = os.path.dirname(os.path.dirname(os.path.abspath(__file__)))

def lit(s):
    out = []
    for c in s:
        if c == "\n": out.append("\\n")
        elif c == "\t": out.append("\\t")
        elif c == '"': out.append('\\"')
        elif c == "\\": out.append("\\\\")
        else:
            assert 32 <= ord(c) < 127, repr(c)
            out.append(c)
    return 't!"' + "".join(out) + '"'

def go_pieces(lines):
    ps = []
    for l in lines:
        if re.match(r"(package|import|func|type|const)\b", l) or not ps: ps.append([])
        ps[-1].append(l)
    return ps

def x_pieces(lines):
    ps, open_ = [], False
    for l in lines:
        if open_: ps[-1][-1] += l
        else: ps.append([l])
        t = ps[-1][-1]
        open_ = t.count("/*") > t.count("*/")
    return ps

for n in ("1057", "1813"):
    files = [("prot", "prot.x", x_pieces), ("types", "types.go", go_pieces), ("code", "xdr.go", go_pieces)]
    o = ["/-", "The files rfc%s/prot.x, types.go and xdr.go, character for character.  Written by tools/embed.py." % n,
         "-/", "import Verif.Text.Scan", "", "namespace Verif.Inst.Rfc%s" % n, "open Verif.Text", ""]
    for d, f, split in files:
        text = open(os.path.join(repo, "rfc" + n, f), newline="").read()
        lines = text.splitlines(keepends=True)
        ps = split(lines)
        assert "".join("".join(p) for p in ps) == text
        k = 0
        while ps:
            o.append("def %sText%d : List (List Text) := [" % (d, k))
            o.append(",\n".join("  [" + ",\n   ".join(lit(l) for l in p) + "]" for p in ps[:40]) + "]")
            o.append("")
            ps, k = ps[40:], k + 1
        o.append("/-- rfc%s/%s -/" % (n, f))
        o.append("def %sText : List (List Text) := %s" % (d, " ++ ".join("%sText%d" % (d, j) for j in range(k))))
        o.append("")
    o.append("end Verif.Inst.Rfc%s" % n)
    open(os.path.join(root, "lean", "Verif", "Inst", "Text%s.lean" % n), "w").write("\n".join(o) + "\n")
