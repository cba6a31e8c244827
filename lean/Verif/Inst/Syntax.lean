/-
List notation for the syntax trees, used by the transcriptions.
-/
import Verif.Gen.Prog

namespace Verif.Inst
open Verif.Gen

def decls : List Decl → Decls
  | [] => .nil
  | d :: ds => .cons d (decls ds)

def cases : List (Val × List Val × Decl) → Option Decl → Cases
  | [], none => .nil
  | [], some d => .dflt d
  | (l, more, b) :: cs, d => .cons l more b (cases cs d)

def fields : List (Ident × GoType) → GoFields
  | [] => .nil
  | (n, t) :: fs => .cons n t (fields fs)

def stmts : List Stmt → Stmts := Stmts.ofList

def gocases : List (Val × Stmts × Bool) → Option Stmts → GoCases
  | [], none => .nil
  | [], some b => .dflt b
  | (l, b, ft) :: cs, d => .cons l b ft (gocases cs d)

end Verif.Inst
