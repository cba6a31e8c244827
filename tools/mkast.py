#!/usr/bin/env python3
"""Writes lean/Verif/Lang/Ast.lean and GenAst.lean: the syntax trees of the Go files that Verif.Lang reads.
Needs Verif.Lang.Parse, Verif.Lang.Files, Verif.Lang.GenFiles, Verif.Lang.Yacc and Verif.Inst.Text1057 to be built."""
import os, subprocess, tempfile
here = os.path.dirname(os.path.abspath(__file__))
lean = os.path.join(here, "..", "lean")
PRINTER = r"""
/- Prints the syntax trees of the Go files that Verif.Lang reads, as Lean definitions.
Run by tools/mkast.py; what it prints is checked by the kernel (Verif/Lang/Read.lean). -/
import Verif.Lang.Parse
import Verif.Lang.Files
import Verif.Lang.GenFiles
import Verif.Lang.Yacc
import Verif.Inst.Text1057
open Verif.Lang
def fname (f : Func) : String :=
  match f.recv with
  | some (_, .ptr (.name t)) => t ++ "_" ++ f.name
  | some (_, .name t) => t ++ "_" ++ f.name
  | _ => f.name
def show1 (nm path : String) (f : Option File) : IO Unit := do
  match f with
  | none => throw (IO.userError ("cannot read " ++ path))
  | some f => do
    let mut names : List String := []
    for d in f.decls do
      match d with
      | .func g => do
        IO.println s!"/-- {path}: {fname g} -/\ndef {nm}_{fname g} : Func :="
        IO.println ((repr g).pretty 110)
        IO.println ""
        names := names ++ [s!"  .func {nm}_{fname g}"]
      | d => names := names ++ ["  " ++ (repr d).pretty 108]
    IO.println s!"/-- {path} -/\ndef {nm}File : File := ⟨{repr f.pkg}, {repr f.imports}, ["
    IO.println (",\n".intercalate names)
    IO.println "]⟩\n"
"""
FILES = r"""
#eval show1 "lib" "xdr/lib.go" (readFile libText.flatten)
#eval show1 "helper" "xdr/helper.go" (readFile helperText.flatten)
#eval show1 "types" "xdr/types.go" (readFile typesText.flatten)
#eval show1 "client" "rfc1057/client.go" (readFile clientText.flatten)
#eval show1 "server" "rfc1057/server.go" (readFile serverText.flatten)
#eval show1 "rpcTypes" "rfc1057/types.go" (readFile Verif.Inst.Rfc1057.typesText.flatten.flatten)
#eval show1 "rpcXdr" "rfc1057/xdr.go" (readFile Verif.Inst.Rfc1057.codeText.flatten.flatten)
"""
GEN = r"""
#eval show1 "out" "out.go" (readFile outText.flatten)
#eval show1 "scan" "scan.go" (readFile scanText.flatten)
#eval show1 "main" "main.go" (readFile mainText.flatten)
#eval show1 "yacc" "what goyacc makes of xdr.y" ((readYacc yaccText.flatten).bind fun y => readFile y.go)
#eval match readYacc yaccText.flatten with
  | none => throw (IO.userError "cannot read xdr.y")
  | some y => IO.println ("/-- xdr.y: the rules -/\ndef xdrGrammar : Grammar :=\n" ++ (repr y.grammar).pretty 110 ++ "\n")
"""
for module, evals, imp in (("Ast", FILES, "Syntax"), ("GenAst", GEN, "Yacc")):
    with tempfile.NamedTemporaryFile("w", suffix=".lean") as f:
        f.write(PRINTER + evals)
        f.flush()
        out = subprocess.run(["lake", "env", "lean", f.name], cwd=lean,
                             check=True, capture_output=True, text=True).stdout
    out = out.replace("Verif.Lang.", "")
    with open(os.path.join(lean, "Verif", "Lang", module + ".lean"), "w") as f:
        f.write("""/-
The syntax trees of Go files of /repo.  Written by tools/mkast.py; that they are what the texts read as
is proved in Verif.Lang.Read.
-/
import Verif.Lang.%s

namespace Verif.Lang

""" % imp + out + "end Verif.Lang\n")
