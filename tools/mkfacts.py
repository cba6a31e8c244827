#!/usr/bin/env python3
"""Writes lean/Verif/Lang/Facts.lean: what the names used in the files stand for, each checked by the kernel."""
import os, re
here = os.path.dirname(os.path.abspath(__file__))
lang = os.path.join(here, "..", "lean", "Verif", "Lang")
src = open(os.path.join(lang, "Ast.lean")).read()
out = []
names = []
for m in re.finditer(r"^def ((lib|helper|types|client|server|rpcXdr)_(\w+)) : Func :=\n\{ recv := (.*?),\n  name := \"(\w+)\"", src, re.M | re.S):
    d, f, _, recv, name = m.groups()
    pkg = "xdr" if f in ("lib", "helper", "types") else "rfc1057"
    if recv == "none":
        key = '.fn "%s" "%s"' % (pkg, name)
    else:
        t = re.findall(r'Ty\.name "(\w+)"', recv)[0]
        key = '.meth "%s.%s" "%s"' % (pkg, t, name)
    out.append('theorem find_%s : goProg.find (%s) = some ("%s", %s) := by kernel_rfl' % (d, key, pkg, d))
    names.append("find_" + d)
    if recv != "none":
        out.append('theorem byval_%s : byValue goProg "%s.%s" "%s" = false := by kernel_rfl' % (d, pkg, t, name))
        names.append("byval_" + d)
def fact(n, st):
    if n in names:
        return
    out.append("theorem %s : %s := by kernel_rfl" % (n, st))
    names.append(n)
for p in ("xdr", "rfc1057"):
    for x in ("nil", "true", "false"):
        fact("const_%s_%s" % (p, x), 'goProg.const "%s" "%s" = none' % (p, x))
    ids = sorted({m.group(1) for m in re.finditer(r'^def (?:lib|helper|types|rpcXdr|client|server)_(\w+) : Func', src, re.M)})
consts = [(n, t) for n, t in re.findall(r'Top\.const\s+"(\w+)"\s+\(some \(Ty\.name "(\w+)"\)\)', src)]
vals = dict(re.findall(r'Top\.const\s+"(\w+)"\s+\(some \(Ty\.name "\w+"\)\)\s+\(Expr\.int (\d+)\)', src))
for n, t in consts:
    if n in vals:
        fact("const_rfc1057_" + n, 'goProg.const "rfc1057" "%s" = some (.u32 %s)' % (n, vals[n]))
for n, e in re.findall(r'Top\.const\s+"(\w+)"\s+none\s+\(Expr\.int (\d+)\)', src):
    fact("const_rfc1057_" + n, 'goProg.const "rfc1057" "%s" = some (.const %s)' % (n, e))
for p, xs in (("xdr", ["binary", "errors", "fmt", "math"]), ("rfc1057", ["binary", "fmt", "io", "os", "sync", "xdr"])):
    for x in xs:
        fact("import_%s_%s" % (p, x), 'isImport goProg "%s" "%s" = true' % (p, x))
for p in ("xdr", "rfc1057"):
    for x in ("int", "uint32", "int32", "uint64", "int64", "bool"):
        fact("isType_%s_%s" % (p, x), 'isType goProg "%s" "%s" = true' % (p, x))
def nottype(p, n):
    fact("isType_%s_%s" % (p, n), 'isType goProg "%s" "%s" = false' % (p, n))
def notvar(p, n):
    fact("isVar_%s_%s" % (p, n), 'isVar goProg "%s" "%s" = false' % (p, n))
for n in re.findall(r'^def (?:lib|helper|types)_(\w+) : Func :=\n\{ recv := none', src, re.M):
    nottype("xdr", n)
for n in re.findall(r'^def (?:client|server|rpcXdr)_(\w+) : Func :=\n\{ recv := none', src, re.M):
    nottype("rfc1057", n)
for t in re.findall(r'Top\.typ "(\w+)"', src):
    p = "xdr" if src.index('Top.typ "%s"' % t) < src.index("def clientFile") and t in ("XdrState", "Bool", "Uint32", "Int32", "Uint64", "Int64", "Xdrable", "Void") else "rfc1057"
    fact("isType_%s_%s" % (p, t), 'isType goProg "%s" "%s" = true' % (p, t))
fact("pkg_xdr", '(goProg.pkg "xdr").isNone = false')
fact("pkg_rfc1057", '(goProg.pkg "rfc1057").isNone = false')
fact("const_rfc1057_reqBufPool", 'goProg.const "rfc1057" "reqBufPool" = none')
fact("isVar_rfc1057_reqBufPool", 'isVar goProg "rfc1057" "reqBufPool" = true')
for p in ("xdr", "rfc1057"):
    for t, v in (("int", ".int 0"), ("uint32", ".u32 0"), ("int32", ".i32 0"), ("uint64", ".u64 0"), ("int64", ".i64 0"),
                 ("bool", ".bool false"), ("string", ".str []"), ("error", ".nil")):
        fact("zero_%s_%s" % (p, t), 'goProg.zero "%s" (.name "%s") = some (%s)' % (p, t, v))
def gen(l):
    """What is in package xdr holds in every program that begins with the package."""
    m = re.match(r'theorem (\w+) : (.*)$', l)
    if re.search(r'goProg\.find \(\.(fn|meth) "xdr[".]|byValue goProg "xdr\.|(isImport|isType|isVar) goProg "xdr"|goProg\.(const|zero|pkg) "xdr"', l):
        return 'theorem %s {Ps : Prog} : %s' % (m.group(1), re.sub(r"goProg\.(\w+)", r"Prog.\1 (xdrPkg :: Ps)", m.group(2)).replace("goProg", "(xdrPkg :: Ps)"))
    return l.replace(m.group(1), m.group(1) + " [Others]", 1)
out = [gen(l) for l in out]
text = """/-
What the names used in the files stand for.  Written by tools/mkfacts.py; every line is checked by the kernel.
-/
import Verif.Lang.Prog
import Verif.Lang.Read

namespace Verif.Lang

""" + "\n".join(out) + """

theorem zero_ptr {P : Prog} (p : String) (t : Ty) : P.zero p (.ptr t) = some .nil := rfl
theorem zero_slice {P : Prog} (p : String) (t : Ty) : P.zero p (.slice t) = some .nil := rfl
theorem zero_arr4 {P : Prog} (p : String) : P.zero p (.arr 4 (.name "byte")) = some (.bytes [0, 0, 0, 0]) := rfl
theorem zero_arr8 {P : Prog} (p : String) : P.zero p (.arr 8 (.name "byte")) = some (.bytes [0, 0, 0, 0, 0, 0, 0, 0]) := rfl
theorem zero_XdrState {Ps : Prog} : Prog.zero (xdrPkg :: Ps) "xdr" (.name "XdrState") =
    some (.struct "xdr.XdrState" [("err", .nil), ("reader", .bool false), ("buf", .nil)]) := by kernel_rfl
theorem zero_Opaque_auth [Others] : goProg.zero "rfc1057" (.name "Opaque_auth") =
    some (.struct "rfc1057.Opaque_auth" [("Flavor", .u32 0), ("Body", .nil)]) := by kernel_rfl
theorem zero_Server [Others] : goProg.zero "rfc1057" (.name "Server") =
    some (.struct "rfc1057.Server" [("handlers", .nil)]) := by kernel_rfl
theorem pkg_eq_io [Others] : goProg.pkg "io" = none := by
  have h : goProg.pkg "io" = Others.ps.pkg "io" := by kernel_rfl
  rw [h, Others.io]
theorem pkg_eq_fmt [Others] : goProg.pkg "fmt" = none := by
  have h : goProg.pkg "fmt" = Others.ps.pkg "fmt" := by kernel_rfl
  rw [h, Others.fmt]
theorem pkg_eq_os [Others] : goProg.pkg "os" = none := by
  have h : goProg.pkg "os" = Others.ps.pkg "os" := by kernel_rfl
  rw [h, Others.os]
theorem pkg_io [Others] : (goProg.pkg "io").isNone = true := by rw [pkg_eq_io]; rfl
theorem pkg_fmt [Others] : (goProg.pkg "fmt").isNone = true := by rw [pkg_eq_fmt]; rfl
theorem zeroN_io [Others] (k : Nat) (p n : String) : zeroN goProg (k + 1) p (.qual "io" n) = some .nil := by
  simp only [zeroN, pkg_eq_io, Option.isNone_none, if_true, foreign]
  exact congrArg some (if_neg (by rintro ⟨h, -⟩; exact absurd h (by decide)))
theorem zero_ReadWriter [Others] : goProg.zero "rfc1057" (.qual "io" "ReadWriter") = some .nil := by
  rw [Prog.zero, Prog.fuel]
  exact zeroN_io _ _ _
theorem zero_rpc_struct [Others] {n : String} {fs : List (String × Ty)} {vs : List (String × V)} (h : rpcPkg.types.lookup n = some (.struct fs))
    (hn : n ∉ ["int", "uint32", "int32", "uint64", "int64", "bool", "string", "error"])
    (hv : ∀ k, (fs.mapM fun f => (zeroN goProg (k + 1) "rfc1057" f.2).map (f.1, ·)) = some vs) :
    goProg.zero "rfc1057" (.name n) = some (.struct ("rfc1057" ++ "." ++ n) vs) := by
  have hp : goProg.pkg "rfc1057" = some rpcPkg := by kernel_rfl
  obtain ⟨F, hF⟩ : ∃ F, goProg.fuel (.name n) = F + 2 := ⟨goProg.fuel (.name n) - 2, by rw [Prog.fuel]; omega⟩
  rw [Prog.zero, hF]
  simp only [List.mem_cons, List.not_mem_nil, or_false, not_or] at hn
  obtain ⟨a1, a2, a3, a4, a5, a6, a7, a8⟩ := hn
  rw [zeroN]
  simp only [a1, a2, a3, a4, a5, a6, a7, a8, if_false, hp, bind, Option.bind, h] at hv ⊢
  rw [hv F]
  rfl
theorem zero_Client [Others] : goProg.zero "rfc1057" (.name "Client") =
    some (.struct "rfc1057.Client" [("rw", .nil), ("xid", .u32 0), ("prog", .u32 0), ("vers", .u32 0)]) := by
  refine zero_rpc_struct (fs := [("rw", .qual "io" "ReadWriter"), ("xid", .name "uint32"), ("prog", .name "uint32"), ("vers", .name "uint32")])
    (by kernel_rfl) (by decide) fun k => ?_
  simp only [List.mapM_cons, zeroN_io, Option.map_some, bind, Option.bind]
  rfl
theorem zero_serverConn [Others] : goProg.zero "rfc1057" (.name "serverConn") =
    some (.struct "rfc1057.serverConn" [("s", .nil), ("rw", .nil)]) := by
  refine zero_rpc_struct (fs := [("s", .ptr (.name "Server")), ("rw", .qual "io" "ReadWriter")]) (by kernel_rfl) (by decide) fun k => ?_
  simp only [List.mapM_cons, zeroN_io, Option.map_some, bind, Option.bind]
  rfl
theorem zero_Xdrable [Others] : goProg.zero "rfc1057" (.qual "xdr" "Xdrable") = some .nil := by kernel_rfl
theorem zero_xdr_Xdrable {Ps : Prog} : Prog.zero (xdrPkg :: Ps) "xdr" (.name "Xdrable") = some .nil := by kernel_rfl
theorem zero_ProcHandler [Others] : goProg.zero "rfc1057" (.name "ProcHandler") = some .nil := by kernel_rfl
theorem zero_Rpc_msg [Others] : goProg.zero "rfc1057" (.name "Rpc_msg") =
    some (.struct "rfc1057.Rpc_msg" [("Xid", .u32 0), ("Body", .struct "" [("Mtype", .u32 0),
      ("Cbody", .struct "rfc1057.Call_body" [("Rpcvers", .u32 0), ("Prog", .u32 0), ("Vers", .u32 0), ("Proc", .u32 0),
        ("Cred", .struct "rfc1057.Opaque_auth" [("Flavor", .u32 0), ("Body", .nil)]),
        ("Verf", .struct "rfc1057.Opaque_auth" [("Flavor", .u32 0), ("Body", .nil)])]),
      ("Rbody", .struct "rfc1057.Reply_body" [("Stat", .u32 0),
        ("Areply", .struct "rfc1057.Accepted_reply" [("Verf", .struct "rfc1057.Opaque_auth" [("Flavor", .u32 0), ("Body", .nil)]),
          ("Reply_data", .struct "" [("Stat", .u32 0), ("Results", .bytes []),
            ("Mismatch_info", .struct "" [("Low", .u32 0), ("High", .u32 0)])])]),
        ("Rreply", .struct "rfc1057.Rejected_reply" [("Stat", .u32 0),
          ("Mismatch_info", .struct "" [("Low", .u32 0), ("High", .u32 0)]), ("Astat", .u32 0)])])])]) := by kernel_rfl

end Verif.Lang
"""
open(os.path.join(lang, "Facts.lean"), "w").write(text)
