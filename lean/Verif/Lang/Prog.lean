/-
Packages from files, and the program that the files of xdr and rfc1057 make up.
-/
import Verif.Lang.Sem
import Verif.Lang.Ast

namespace Verif.Lang

/-- What is after the last slash. -/
def baseName (s : String) : String :=
  String.ofList (s.toList.foldl (fun acc c => if c = '/' then [] else acc ++ [c]) [])

def Top.typ? : Top → Option (String × Ty)
  | .typ n t => some (n, t)
  | _ => none

def Top.const? : Top → Option (String × Option Ty × Expr)
  | .const n t e => some (n, t, e)
  | _ => none

def Top.var? : Top → Option String
  | .var n _ => some n
  | .init n _ => some n
  | _ => none

def Top.func? : Top → Option (String × Func)
  | .func f => if f.recv.isNone then some (f.name, f) else none
  | _ => none

/-- The type a method belongs to. -/
def recvName : Ty → String
  | .ptr (.name n) => n
  | .name n => n
  | _ => ""

def Top.meth? : Top → Option ((String × String) × Func)
  | .func f => f.recv.map fun r => ((recvName r.2, f.name), f)
  | _ => none

/-- The package that files make up. -/
def mkPkg (name : String) (fs : List File) : Pkg :=
  let ds := fs.flatMap (·.decls)
  { name := name
    imports := (fs.flatMap (·.imports)).map baseName
    types := ds.filterMap Top.typ?
    consts := ds.filterMap Top.const?
    vars := ds.filterMap Top.var?
    funcs := ds.filterMap Top.func?
    meths := ds.filterMap Top.meth? }

def xdrPkg : Pkg := mkPkg "xdr" [libFile, helperFile, typesFile]
def rpcPkg : Pkg := mkPkg "rfc1057" [rpcTypesFile, rpcXdrFile, clientFile, serverFile]

/-- The packages of the program besides xdr and rfc1057; those of the standard library are not among them. -/
class Others where
  ps : Prog
  io : ps.pkg "io" = none
  fmt : ps.pkg "fmt" = none
  os : ps.pkg "os" = none

abbrev goProg [Others] : Prog := xdrPkg :: rpcPkg :: Others.ps

/-- There are no others. -/
@[instance_reducible] def noOthers : Others := ⟨[], rfl, rfl, rfl⟩

end Verif.Lang
