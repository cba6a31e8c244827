#!/usr/bin/env python3
"""Transcribes the checked-in prot.x / types.go / xdr.go of a package into Lean data
(lean/Verif/Inst/<Pkg>Data.lean).  A plain syntax-directed translation: a parser for the XDR language
(independent of xdr.y) and a parser for the subset of Go that occurs in the generated files.
usage: transcribe.py <dir> <LeanName>"""
import re, sys

# ------------------------------------------------------------------ XDR
class X:
    def __init__(s, text):
        text = re.sub(r"/\*.*?\*/", " ", text, flags=re.S)
        text = re.sub(r"//[^\n]*", " ", text)
        s.t = re.findall(r"[A-Za-z_][A-Za-z_0-9]*|0x[0-9a-fA-F]+|\d+|[{}()\[\]<>;:,=*]", text)
        rest = re.sub(r"[A-Za-z_][A-Za-z_0-9]*|0x[0-9a-fA-F]+|\d+|[{}()\[\]<>;:,=*]|\s", "", text)
        assert rest == "", rest
        s.p = 0
    def peek(s): return s.t[s.p] if s.p < len(s.t) else None
    def next(s):
        s.p += 1
        return s.t[s.p-1]
    def eat(s, x):
        assert s.peek() == x, (x, s.t[s.p-5:s.p+5])
        s.p += 1
    def opt(s, x):
        if s.peek() == x:
            s.p += 1
            return True
        return False
    def num(s):
        x = s.next()
        return int(x, 0) if x.startswith("0x") else (int(x, 8) if x.startswith("0") and len(x) > 1 else int(x))
    def val(s):
        x = s.peek()
        if x[0].isdigit(): return f"(.lit {s.num()})"
        return f"(.ident \"{s.next()}\")"
    def typespec(s):
        x = s.next()
        if x == "unsigned":
            if s.opt("int"): return "(.int true)"
            if s.opt("hyper"): return "(.hyper true)"
            raise Exception("unsigned")
        if x == "int": return "(.int false)"
        if x == "hyper": return "(.hyper false)"
        if x in ("float", "double", "quadruple", "bool"): return "." + x
        if x == "enum": return f"(.enum {s.enumbody()})"
        if x == "struct": return f"(.struct {s.structbody()})"
        if x == "union":
            sw, cs = s.unionbody()
            return f"(.union {sw} {cs})"
        return f"(.ident \"{x}\")"
    def enumbody(s):
        s.eat("{")
        l = []
        while True:
            n = s.next(); s.eat("=")
            l.append(f"⟨\"{n}\", {s.val()}⟩")
            if not s.opt(","): break
        s.eat("}")
        return "[" + ", ".join(l) + "]"
    def structbody(s):
        s.eat("{")
        l = []
        while not s.opt("}"):
            l.append(s.decl()); s.eat(";")
        return "(decls [" + ",\n      ".join(l) + "])"
    def unionbody(s):
        s.eat("switch"); s.eat("("); sw = s.decl(); s.eat(")"); s.eat("{")
        arms = []; dflt = "none"
        while not s.opt("}"):
            if s.opt("default"):
                s.eat(":"); dflt = f"(some {s.decl()})"; s.eat(";")
                continue
            labels = []
            while s.opt("case"):
                labels.append(s.val()); s.eat(":")
            arms.append(f"({labels[0]}, [{', '.join(labels[1:])}], {s.decl()})"); s.eat(";")
        return sw, "(cases [" + ",\n      ".join(arms) + f"] {dflt})"
    def varlen(s):
        s.eat("<")
        m = "none" if s.peek() == ">" else f"(some {s.val()})"
        s.eat(">")
        return m
    def decl(s):
        if s.opt("void"): return ".void"
        if s.opt("opaque"):
            n = s.next()
            if s.opt("["):
                v = s.val(); s.eat("]")
                return f"(.name (.opaqueArray {v}) \"{n}\")"
            return f"(.name (.opaqueVarArray {s.varlen()}) \"{n}\")"
        if s.opt("string"):
            n = s.next()
            return f"(.name (.string {s.varlen()}) \"{n}\")"
        t = s.typespec()
        if s.opt("*"): return f"(.name (.ptr {t}) \"{s.next()}\")"
        n = s.next()
        if s.opt("["):
            v = s.val(); s.eat("]")
            return f"(.name (.array {t} {v}) \"{n}\")"
        if s.peek() == "<": return f"(.name (.varArray {t} {s.varlen()}) \"{n}\")"
        return f"(.name (.typespec {t}) \"{n}\")"
    def topt(s):
        if s.opt("void"): return "none"
        return f"(some {s.typespec()})"
    def spec(s):
        out = []
        while s.peek() is not None:
            k = s.next()
            if k == "const":
                n = s.next(); s.eat("="); out.append(f".const \"{n}\" {s.num()}")
            elif k == "typedef":
                out.append(f".typedef {s.decl()}")
            elif k == "enum":
                n = s.next(); out.append(f".enum \"{n}\" {s.enumbody()}")
            elif k == "struct":
                n = s.next(); out.append(f".struct \"{n}\" {s.structbody()}")
            elif k == "union":
                n = s.next(); sw, cs = s.unionbody(); out.append(f".union \"{n}\" {sw} {cs}")
            elif k == "program":
                n = s.next(); s.eat("{"); vers = []
                while not s.opt("}"):
                    s.eat("version"); vn = s.next(); s.eat("{"); calls = []
                    while not s.opt("}"):
                        r = s.topt(); cn = s.next(); s.eat("("); a = s.topt(); s.eat(")"); s.eat("=")
                        calls.append(f"⟨\"{cn}\", {a}, {r}, {s.num()}⟩"); s.eat(";")
                    s.eat("="); vers.append(f"⟨\"{vn}\", [" + ",\n      ".join(calls) + f"], {s.num()}⟩"); s.eat(";")
                s.eat("="); out.append(f".program ⟨\"{n}\", [" + ", ".join(vers) + f"], {s.num()}⟩")
            else: raise Exception(k)
            s.eat(";")
        return out

# ------------------------------------------------------------------ Go
TOK = r'"[^"]*"|[A-Za-z_][A-Za-z_0-9]*|0x[0-9a-fA-F]+|\d+|:=|!=|\+\+|==|[{}()\[\].,:;=*&<>\-+]'
class G:
    def __init__(s, text):
        text = re.sub(r"//[^\n]*", "", text)
        assert re.sub(TOK + r"|\s", "", text) == "", re.sub(TOK + r"|\s", "", text)
        s.t = re.findall(TOK, text); s.p = 0
    def peek(s, k=0): return s.t[s.p+k] if s.p+k < len(s.t) else None
    def next(s):
        s.p += 1
        return s.t[s.p-1]
    def eat(s, *xs):
        for x in xs:
            assert s.peek() == x, (x, s.t[s.p-8:s.p+8])
            s.p += 1
    def at(s, *xs): return s.t[s.p:s.p+len(xs)] == list(xs)
    # expressions, with Go's precedence: postfix binds tighter than unary & and *
    def unary(s):
        if s.at("&"):
            s.p += 1
            return f"(.addr {s.unary()})"
        if s.at("*"):
            s.p += 1
            return f"(.deref {s.unary()})"
        return s.postfix()
    def postfix(s):
        if s.at("("):
            s.p += 1; e = s.unary(); s.eat(")")
        else:
            x = s.next()
            assert re.match(r"[A-Za-z_]", x), x
            e = ".recv" if x == "v" else f"(.var \"{x}\")"
        while True:
            if s.at("."):
                s.p += 1; e = f"(.field {e} \"{s.next()}\")"
            elif s.at("[") and s.peek(1) != ":":
                s.p += 1; e = f"(.index {e} \"{s.next()}\")"; s.eat("]")
            else: return e
    def strip_deref(s, e):
        assert e.startswith("(.deref "), e
        return e[8:-1]
    def val(s):
        x = s.next()
        return f"(.lit {int(x, 0)})" if x[0].isdigit() else f"(.ident \"{x}\")"
    def typ(s):
        if s.at("["):
            s.p += 1
            if s.at("]"):
                s.p += 1
                if s.at("byte"):
                    s.p += 1
                    return ".bytes"
                return f"(.slice {s.typ()})"
            v = s.val(); s.eat("]")
            if s.at("byte"):
                s.p += 1
                return f"(.byteArray {v})"
            return f"(.array {v} {s.typ()})"
        if s.at("*"):
            s.p += 1
            return f"(.ptr {s.typ()})"
        if s.at("struct"):
            s.p += 1; s.eat("{"); fs = []
            while not s.at("}"):
                n = s.next(); fs.append(f"(\"{n}\", {s.typ()})")
            s.eat("}")
            return "(.struct (fields [" + ",\n      ".join(fs) + "]))"
        n = s.next()
        if n in ("uint32", "int32", "uint64", "int64", "bool", "float32", "float64", "string"): return "." + n
        return f"(.named \"{n}\")"
    def block(s):
        s.eat("{"); l = []
        while not s.at("}"): l.append(s.stmt())
        s.eat("}")
        return "(stmts [" + ",\n      ".join(l) + "])"
    def conv(s, *ty):
        s.eat("(", "*", *ty, ")", "("); e = s.unary(); s.eat(")")
        return e
    def maxlen(s):
        s.eat("int", "(")
        if s.at("-", "1"):
            s.p += 2; m = "none"
        else: m = f"(some {s.val()})"
        s.eat(")")
        return m
    def stmt(s):
        if s.at("xdr", "."):
            s.p += 2; f = s.next(); s.eat("(", "xs", ",")
            simple = {"XdrU32": "uint32", "XdrS32": "int32", "XdrU64": "uint64", "XdrS64": "int64", "XdrBool": "bool"}
            if f in simple:
                e = s.conv(simple[f]); r = f".xdr{f[3:]} {e}"
            elif f == "XdrArray":
                s.eat("("); e = s.strip_deref(s.unary()); s.eat(")", "[", ":", "]"); r = f".xdrArray {e}"
            elif f == "XdrVarArray":
                m = s.maxlen(); s.eat(","); e = s.conv("[", "]", "byte"); r = f".xdrVarArray {m} {e}"
            elif f == "XdrString":
                m = s.maxlen(); s.eat(","); e = s.conv("string"); r = f".xdrString {m} {e}"
            else: raise Exception(f)
            s.eat(")")
            return r
        if s.at("(", "*"):
            s.p += 2; T = s.next(); s.eat(")", "("); e = s.unary(); s.eat(")", ".", "Xdr", "(", "xs", ")")
            return f".callXdr \"{T}\" {e}"
        if s.at("{"): return f".block {s.block()}"
        if s.at("var"):
            s.p += 1; x = s.next(); ty = s.next()
            return {"uint32": f".varU32 \"{x}\"", "bool": f".varBool \"{x}\""}[ty]
        if s.at("xs", ".", "EncodingSetSize"):
            s.p += 3; s.eat("(", "&"); x = s.next(); s.eat(",", "len", "("); e = s.strip_deref(s.unary()); s.eat(")", ")")
            return f".encSetSize \"{x}\" {e}"
        if s.at("if", "xs", ".", "Encoding"):
            s.p += 4; s.eat("(", ")")
            return f".ifEncoding {s.block()}"
        if s.at("if", "xs", ".", "Decoding"):
            s.p += 4; s.eat("(", ")")
            return f".ifDecoding {s.block()}"
        if s.at("if") and s.peek(2) == ">":
            s.p += 1; x = s.next(); s.eat(">"); v = s.val()
            s.eat("{", "xs", ".", "SetError", "(", '"array too large"', ")", "}", "else")
            return f".ifGt \"{x}\" {v} {s.block()}"
        if s.at("if"):
            s.p += 1; x = s.next()
            return f".ifVar \"{x}\" {s.block()}"
        if s.at("for"):
            s.p += 1; x = s.next(); s.eat(":=")
            if s.at("uint64"):
                s.eat("uint64", "(", "0", ")", ";", x, "<", "uint64", "("); n = s.next(); s.eat(")", ";", x, "++")
                return f".forU64 \"{x}\" \"{n}\" {s.block()}"
            s.eat("0", ";", x, "<"); v = s.val(); s.eat(";", x, "++")
            return f".forInt \"{x}\" {v} {s.block()}"
        if s.at("switch"):
            s.p += 1; e = s.unary(); s.eat("{"); clauses = []; dflt = "none"
            while not s.at("}"):
                if s.at("default"):
                    s.p += 1; s.eat(":"); l = []
                    while not (s.at("case") or s.at("}")): l.append(s.stmt())
                    dflt = "(some (stmts [" + ", ".join(l) + "]))"; continue
                s.eat("case"); v = s.val(); s.eat(":"); l = []; ft = "false"
                while not (s.at("case") or s.at("default") or s.at("}")):
                    if s.at("fallthrough"):
                        s.p += 1; ft = "true"
                    else: l.append(s.stmt())
                clauses.append(f"({v}, stmts [" + ",\n      ".join(l) + f"], {ft})")
            s.eat("}")
            return f".switch {e} (gocases [" + ",\n      ".join(clauses) + f"] {dflt})"
        if s.at("*"):
            e = s.strip_deref(s.unary()); s.eat("=")
            if s.at("make"):
                s.p += 1; s.eat("(", "[", "]")
                # make([]T, n): the element type follows
                t = s.typ(); s.eat(","); n = s.next(); s.eat(")")
                return f".assignMake {e} {t} \"{n}\""
            s.eat("new", "("); t = s.typ(); s.eat(")")
            return f".assignNew {e} {t}"
        x = s.next(); s.eat(":="); e = s.strip_deref(s.unary()); s.eat("!=", "nil")
        return f".defNotNil \"{x}\" {e}"
    # --- whole files
    def package(s):
        s.eat("package"); s.next()
        if s.at("import"): s.p += 2
    def types_file(s):
        s.package(); types = []; consts = []; order = []
        while s.peek() is not None:
            if s.at("type"):
                s.p += 1; n = s.next(); types.append(f"(\"{n}\", {s.typ()})")
            else:
                s.eat("const"); n = s.next()
                ty = "" if s.at("=") else s.next()
                s.eat("="); consts.append(f"⟨\"{n}\", \"{ty}\", {s.val()}⟩")
        return types, consts
    def xdr_file(s):
        s.package(); methods = []; progs = []
        while s.peek() is not None:
            if s.at("func", "(", "v", "*"):
                s.p += 4; T = s.next(); s.eat(")", "Xdr", "(", "xs", "*", "xdr", ".", "XdrState", ")")
                methods.append((T, s.block()))
            else: progs.append(s.version())
        return methods, progs
    def optty(s):
        return "none" if s.at(")") else f"(some {s.typ()})"
    def version(s):
        s.eat("type"); iface = s.next(); s.eat("interface", "{"); ms = []
        while not s.at("}"):
            n = s.next(); s.eat("("); a = s.optty(); s.eat(")")
            # a result type is present unless the next method or the end follows
            if s.at("}") or s.peek(1) == "(": r = "none"
            else: r = f"(some {s.typ()})"
            ms.append(f"⟨\"{n}\", {a}, {r}⟩")
        s.eat("}", "type"); wn = s.next(); s.eat("struct", "{", "h"); wf = s.next(); s.eat("}")
        ws = []
        while s.at("func", "(", "w"):
            s.p += 3; s.eat("*"); rn = s.next(); s.eat(")"); n = s.next()
            s.eat("(", "args", "*", "xdr", ".", "XdrState", ")", "(", "res", "xdr", ".", "Xdrable", ",", "err", "error", ")", "{")
            b = []
            while not s.at("}"):
                if s.at("var", "in"):
                    s.p += 2; b.append(f".varIn {s.typ()}")
                elif s.at("in", "."):
                    s.eat("in", ".", "Xdr", "(", "args", ")"); b.append(".inXdr")
                elif s.at("err", "="):
                    s.eat("err", "=", "args", ".", "Error", "(", ")"); b.append(".setErr")
                elif s.at("if"):
                    s.eat("if", "err", "!=", "nil", "{", "return", "}"); b.append(".retIfErr")
                elif s.at("var", "out", "xdr"):
                    s.eat("var", "out", "xdr", ".", "Void"); b.append(".varOutVoid")
                elif s.at("var", "out"):
                    s.p += 2; b.append(f".varOut {s.typ()}")
                elif s.at("return"):
                    s.eat("return", "&", "out", ",", "nil"); b.append(".retOut")
                else:
                    asg = "false"
                    if s.at("out", "="):
                        s.p += 2; asg = "true"
                    s.eat("w", ".", "h", "."); m = s.next(); s.eat("(")
                    arg = "false"
                    if s.at("in"):
                        s.p += 1; arg = "true"
                    s.eat(")"); b.append(f".callH \"{m}\" {asg} {arg}")
            s.eat("}")
            ws.append(f"⟨\"{rn}\", \"{n}\", [" + ", ".join(b) + "]⟩")
        s.eat("func"); rn = s.next(); s.eat("(", "h"); hn = s.next(); s.eat(")", "[", "]", "xdr", ".", "ProcRegistration", "{")
        s.eat("w", ":=", "&"); w2 = s.next(); s.eat("{", "h", "}", "return", "[", "]", "xdr", ".", "ProcRegistration", "{")
        regs = []
        while s.at("xdr"):
            s.eat("xdr", ".", "ProcRegistration", "{", "Prog", ":"); a = s.next(); s.eat(",", "Vers", ":"); b = s.next()
            s.eat(",", "Proc", ":"); c = s.next(); s.eat(",", "Handler", ":", "w", "."); d = s.next(); s.eat(",", "}", ",")
            regs.append(f"⟨\"{a}\", \"{b}\", \"{c}\", \"{d}\"⟩")
        s.eat("}", "}")
        return (f"⟨\"{iface}\", [" + ",\n    ".join(ms) + f"],\n   \"{wn}\", \"{wf}\",\n   [" + ",\n    ".join(ws) +
                f"],\n   \"{rn}\", \"{hn}\", \"{w2}\",\n   [" + ",\n    ".join(regs) + "]⟩")

def main():
    d, name = sys.argv[1], sys.argv[2]
    spec = X(open(d + "/prot.x").read()).spec()
    types, consts = G(open(d + "/types.go").read()).types_file()
    methods, progs = G(open(d + "/xdr.go").read()).xdr_file()
    o = []
    o.append(f"""/-
Transcription of {d}/prot.x, types.go and xdr.go, made by tools/transcribe.py.
-/
import Verif.Inst.Syntax

namespace Verif.Inst.{name}
open Verif.Gen Verif.Inst
""")
    o.append(f"/-- {d}/prot.x -/\ndef spec : Spec :=\n  [" + ",\n   ".join(spec) + "]\n")
    o.append(f"/-- the constants of {d}/types.go -/\ndef goConsts : List GoConst :=\n  [" + ",\n   ".join(consts) + "]\n")
    o.append(f"/-- the types of {d}/types.go -/\ndef goTypes : List (Ident × GoType) :=\n  [" + ",\n   ".join(types) + "]\n")
    for T, b in methods:
        o.append(f"/-- `func (v *{T}) Xdr` in {d}/xdr.go -/\ndef xdr_{T} : Stmts :=\n  {b}\n")
    o.append(f"/-- the Xdr methods of {d}/xdr.go -/\ndef goMethods : List (Ident × Stmts) :=\n  [" +
             ",\n   ".join(f"(\"{T}\", xdr_{T})" for T, _ in methods) + "]\n")
    o.append(f"/-- the handler interfaces, wrappers and registration tables of {d}/xdr.go -/\ndef goVers : List GoVers :=\n  [" +
             ",\n   ".join(progs) + "]\n")
    o.append(f"end Verif.Inst.{name}")
    print("\n".join(o))
main()
