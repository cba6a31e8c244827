/-
The identifiers of a specification that end up in the generated text must be identifiers of Go there.
Identifiers of the specification never are keywords of Go, except `type` and `map` (scan.go:33-45); `i`
capitalises most of them, but names of constants, sizes, and values of enumerations are printed as they are.
-/
import Verif.Text.Layout

namespace Verif.Text
open Verif.Gen

/-- A name that may be printed as it is. -/
def rawName (s : Ident) : Bool := isName s && s != "type" && s != "map"

def rawVal : Val → Bool
  | .lit _ => true
  | .ident s => rawName s

def labelOk : Val → Bool
  | .lit _ => true
  | .ident s => isName s

mutual
def nTypespec : Typespec → Bool
  | .int _ => true
  | .hyper _ => true
  | .float => true
  | .double => true
  | .quadruple => true
  | .bool => true
  | .enum _ => true
  | .struct ds => nDecls ds
  | .union sw cs => nDecl sw && nCases cs
  | .ident n => isName n
def nDeclType : DeclType → Bool
  | .typespec t => nTypespec t
  | .array t sz => nTypespec t && rawVal sz
  | .varArray t sz => nTypespec t && sz.all rawVal
  | .opaqueArray sz => rawVal sz
  | .opaqueVarArray sz => sz.all rawVal
  | .string sz => sz.all rawVal
  | .ptr t => nTypespec t
def nDecl : Decl → Bool
  | .void => true
  | .name t n => nDeclType t && isName n
def nDecls : Decls → Bool
  | .nil => true
  | .cons d ds => nDecl d && nDecls ds
def nCases : Cases → Bool
  | .nil => true
  | .dflt d => nDecl d
  | .cons l ls d cs => labelOk l && ls.all labelOk && nDecl d && nCases cs
end

def nCall (c : ProgCall) : Bool := isName c.name && c.arg.all nTypespec && c.res.all nTypespec
def nVers (v : ProgVer) : Bool := isName v.name && v.calls.all nCall

def nDefn : Defn → Bool
  | .const n _ => rawName n
  | .typedef d => nDecl d
  | .enum n items => isName n && items.all fun it => isName it.name && rawVal it.val
  | .struct n ds => isName n && nDecls ds
  | .union n sw cs => isName n && nDecl sw && nCases cs
  | .program p => isName p.name && p.vers.all nVers

def nSpec (s : Spec) : Bool := s.all nDefn

end Verif.Text
