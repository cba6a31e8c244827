#!/usr/bin/env python3
"""Writes lean/Verif/Lang/GenFacts.lean: what the names used in out.go stand for and the parts of its formats,
each checked by the kernel."""
import os, re
here = os.path.dirname(os.path.abspath(__file__))
lang = os.path.join(here, "..", "lean", "Verif", "Lang")
src = open(os.path.join(lang, "GenAst.lean")).read()
out, names = [], []
def fact(n, st):
    if n in names:
        return
    out.append("@[gen_simp] theorem %s : %s := by kernel_rfl" % (n, st))
    names.append(n)
for m in re.finditer(r"^def ((?:out|yacc)_(\w+)) : Func :=\n\{ recv := (.*?),\n  name := \"(\w+)\"", src, re.M | re.S):
    d, _, recv, name = m.groups()
    if recv == "none":
        fact("find_" + d, 'genProg.find (.fn "main" "%s") = some ("main", %s)' % (name, d))
        fact("isType_main_" + name, 'isType genProg "main" "%s" = false' % name)
    else:
        t = re.findall(r'Ty\.name "(\w+)"', recv)[0]
        fact("find_" + d, 'genProg.find (.meth "main.%s" "%s") = some ("main", %s)' % (t, name, d))
        fact("byval_" + d, 'byValue genProg "main.%s" "%s" = true' % (t, name))
zeros = {"string": ".str []", "bool": ".bool false", "decl": ".nil", "typespec": ".nil", "declType": ".nil"}
structs = {"declVoid": [], "declName": [("t", "declType"), ("n", "string")],
  "declTypeTypespec": [("t", "typespec")], "declTypeArray": [("t", "typespec"), ("sz", "string")],
  "declTypeVarArray": [("t", "typespec"), ("sz", "string")], "declTypeOpaqueArray": [("sz", "string")],
  "declTypeOpaqueVarArray": [("sz", "string")], "declTypeString": [("sz", "string")], "declTypePtr": [("t", "typespec")],
  "typespecOpt": [("isVoid", "bool"), ("t", "typespec")], "typeInt": [("unsig", "bool")], "typeHyper": [("unsig", "bool")],
  "typeFloat": [], "typeDouble": [], "typeQuadruple": [], "typeBool": [], "typeEnum": [("items", "[]")],
  "typeStruct": [("items", "[]")], "unionCasesDef": [("cases", "[]"), ("def", "decl")],
  "typeUnion": [("switchDecl", "decl"), ("cases", "unionCasesDef")], "typeIdent": [("n", "string")],
  "enumItem": [("name", "string"), ("val", "string")], "unionCaseDecl": [("cases", "[]"), ("body", "decl")],
  "progCall": [("name", "string"), ("arg", "typespecOpt"), ("res", "typespecOpt"), ("id", "string")],
  "progVer": [("name", "string"), ("calls", "[]"), ("id", "string")],
  "progDef": [("name", "string"), ("vers", "[]"), ("id", "string")]}
def zero(t):
    if t == "[]":
        return ".nil"
    if t in zeros:
        return zeros[t]
    return '.struct "main.%s" [%s]' % (t, ", ".join('("%s", %s)' % (f, zero(u)) for f, u in structs[t]))
for t in list(zeros) + list(structs):
    fact("zero_main_" + t, 'genProg.zero "main" (.name "%s") = some (%s)' % (t, zero(t)))
for t in ("enumItem", "decl", "unionCaseDecl", "string", "progCall", "progVer"):
    fact("zero_main_slice_" + t, 'genProg.zero "main" (.slice (.name "%s")) = some .nil' % t)
for x in ("fmt", "strings"):
    fact("import_main_" + x, 'isImport genProg "main" "%s" = true' % x)
    fact("pkg_gen_" + x, '(genProg.pkg "%s").isNone = true' % x)
for x in ("out", "tout", "constTypeFlag", "unsignedEnumFlag"):
    fact("isVar_main_" + x, 'isVar genProg "main" "%s" = true' % x)
    fact("import_main_" + x, 'isImport genProg "main" "%s" = false' % x)
for x in ("out", "tout", "constTypeFlag", "unsignedEnumFlag", "nil", "true", "false"):
    fact("const_main_" + x, 'genProg.const "main" "%s" = none' % x)
# strings and formats
body = src[:src.index("def outFile")]
strs = []
for m in re.finditer(r'Expr\.str "((?:[^"\\]|\\.)*)"', body):
    if m.group(1) not in strs:
        strs.append(m.group(1))
fmts = []
for m in re.finditer(r'Expr\.sel\s+\(Expr\.id "fmt"\)\s+"(Sprintf|Fprintf)"\)\s+\[\s*(?:Expr\.id "t?out",\s+)?Expr\.str\s+"((?:[^"\\]|\\.)*)"', body):
    if m.group(2) not in fmts:
        fmts.append(m.group(2))
k = 0
for s in strs:
    if s not in fmts:
        fact("str_%d" % k, 'strBytes "%s" = ub t!"%s"' % (s, s)); k += 1
k = 0
for s in fmts:
    ps = s.split("%s")
    fact("fmt_%d" % k, 'pieces (strBytes "%s") = some [%s]' % (s, ", ".join('ub t!"%s"' % p for p in ps))); k += 1
f = open(os.path.join(lang, "GenFacts.lean"), "w")
f.write("""/-
What the names used in out.go stand for, and the parts of its formats.  Written by tools/mkgenfacts.py; every
line is checked by the kernel.
-/
import Verif.Lang.GenProg
import Verif.Lang.GenAttr

namespace Verif.Lang
open Verif.Text

""")
f.write("\n".join(out))
f.write("\n\nend Verif.Lang\n")
f.close()
