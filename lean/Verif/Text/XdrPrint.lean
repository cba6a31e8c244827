/-
The concrete syntax of a specification as tokens (RFC 4506 section 6.3, without the alternatives the
abstract syntax does not record), and which abstract syntax has one.
-/
import Verif.Text.XdrGrammar

namespace Verif.Text
open Verif.Gen Verif.Inst

def pVal : Val → List XTok
  | .lit n => [.const n]
  | .ident s => [.ident s]

def pVarlen : Option Val → List XTok
  | none => [.lt, .gt]
  | some v => .lt :: pVal v ++ [.gt]

def pUnsig : Bool → List XTok
  | true => [.kunsigned]
  | false => []

def pItem (it : EnumItem) : List XTok := .ident it.name :: .eq :: pVal it.val

def pItems : List EnumItem → List XTok
  | [] => []
  | [i] => pItem i
  | i :: j :: l => pItem i ++ .comma :: pItems (j :: l)

def pLabels : List Val → List XTok
  | [] => []
  | v :: l => .kcase :: pVal v ++ .colon :: pLabels l

mutual
def pTypespec : Typespec → List XTok
  | .int u => pUnsig u ++ [.kint]
  | .hyper u => pUnsig u ++ [.khyper]
  | .float => [.kfloat]
  | .double => [.kdouble]
  | .quadruple => [.kquadruple]
  | .bool => [.kbool]
  | .enum l => .kenum :: .lbrace :: pItems l ++ [.rbrace]
  | .struct ds => .kstruct :: .lbrace :: pDecls ds ++ [.rbrace]
  | .union sw cs => .kunion :: .kswitch :: .lparen :: pDecl sw ++ .rparen :: .lbrace :: pCases cs ++ [.rbrace]
  | .ident n => [.ident n]
def pDecl : Decl → List XTok
  | .void => [.kvoid]
  | .name (.typespec t) n => pTypespec t ++ [.ident n]
  | .name (.array t v) n => pTypespec t ++ .ident n :: .lbrack :: pVal v ++ [.rbrack]
  | .name (.varArray t v) n => pTypespec t ++ .ident n :: pVarlen v
  | .name (.opaqueArray v) n => .kopaque :: .ident n :: .lbrack :: pVal v ++ [.rbrack]
  | .name (.opaqueVarArray v) n => .kopaque :: .ident n :: pVarlen v
  | .name (.string v) n => .kstring :: .ident n :: pVarlen v
  | .name (.ptr t) n => pTypespec t ++ [.star, .ident n]
def pDecls : Decls → List XTok
  | .nil => []
  | .cons d ds => pDecl d ++ .semi :: pDecls ds
def pCases : Cases → List XTok
  | .nil => []
  | .dflt d => .kdefault :: .colon :: pDecl d ++ [.semi]
  | .cons v l d cs => pLabels (v :: l) ++ pDecl d ++ .semi :: pCases cs
end

def pOpt : TypespecOpt → List XTok
  | none => [.kvoid]
  | some t => pTypespec t

def pCall (c : ProgCall) : List XTok :=
  pOpt c.res ++ .ident c.name :: .lparen :: pOpt c.arg ++ [.rparen, .eq, .const c.id, .semi]

def pVer (v : ProgVer) : List XTok :=
  .kversion :: .ident v.name :: .lbrace :: v.calls.flatMap pCall ++ [.rbrace, .eq, .const v.id, .semi]

def pDefn : Defn → List XTok
  | .const n k => [.kconst, .ident n, .eq, .const k, .semi]
  | .typedef d => .ktypedef :: pDecl d ++ [.semi]
  | .enum n l => .kenum :: .ident n :: .lbrace :: pItems l ++ [.rbrace, .semi]
  | .struct n ds => .kstruct :: .ident n :: .lbrace :: pDecls ds ++ [.rbrace, .semi]
  | .union n sw cs => .kunion :: .ident n :: .kswitch :: .lparen :: pDecl sw ++
      .rparen :: .lbrace :: pCases cs ++ [.rbrace, .semi]
  | .program p => .kprogram :: .ident p.name :: .lbrace :: p.vers.flatMap pVer ++
      [.rbrace, .eq, .const p.id, .semi]

/-- The tokens of a specification. -/
def pSpec (s : Spec) : List XTok := s.flatMap pDefn

/-! An enumeration has at least one item (xdr.y:139-142). -/

mutual
def okTypespec : Typespec → Bool
  | .enum l => !l.isEmpty
  | .struct ds => okDecls ds
  | .union sw cs => okDecl sw && okCases cs
  | _ => true
def okDecl : Decl → Bool
  | .void => true
  | .name t _ => okDeclType t
def okDeclType : DeclType → Bool
  | .typespec t => okTypespec t
  | .array t _ => okTypespec t
  | .varArray t _ => okTypespec t
  | .ptr t => okTypespec t
  | _ => true
def okDecls : Decls → Bool
  | .nil => true
  | .cons d ds => okDecl d && okDecls ds
def okCases : Cases → Bool
  | .nil => true
  | .dflt d => okDecl d
  | .cons _ _ d cs => okDecl d && okCases cs
end

def okOpt : TypespecOpt → Bool
  | none => true
  | some t => okTypespec t

def okCall (c : ProgCall) : Bool := okOpt c.res && okOpt c.arg

def okDefn : Defn → Bool
  | .const _ _ => true
  | .typedef d => okDecl d
  | .enum _ l => !l.isEmpty
  | .struct _ ds => okDecls ds
  | .union _ sw cs => okDecl sw && okCases cs
  | .program p => p.vers.all fun v => v.calls.all okCall

/-- The specification has no enumeration without items. -/
def okSpec (s : Spec) : Bool := s.all okDefn

end Verif.Text
