/-
The program of the generator: package main of out.go, scan.go, main.go, and the types, constants and actions that
goyacc takes from xdr.y (Verif.Lang.Yacc).
-/
import Verif.Lang.Prog
import Verif.Lang.GenAst
import Verif.Lang.Read
import Verif.Text.Scan

namespace Verif.Lang
open Verif.Text

def genProg : Prog := [mkPkg "main" [outFile, scanFile, mainFile, yaccFile]]

/-- The bytes of a text without literals. -/
def ub (t : Text) : List UInt8 := t.map Nat.toUInt8

end Verif.Lang
