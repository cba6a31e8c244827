/-
The grammar xdr.y: its terminal symbols, and what token sequences its rules derive, with the value the
action of each rule builds.  goyacc turns the grammar into the parser `xdrParse`; that the parser accepts
what the grammar derives and runs the actions of the derivation is trusted (the grammar is unambiguous,
C45, and goyacc reports no conflicts for it).
-/
import Verif.Inst.Syntax

namespace Verif.Text
open Verif.Gen Verif.Inst

/-- The terminals (xdr.y:25-57, and `(`, `)`, which are used without declaration).  A `CONST` carries the
value of the literal instead of its spelling. -/
inductive XTok where
  | kconst | ktypedef | kenum | kstruct | kunion | kswitch | kcase | kdefault | kvoid | kopaque
  | kstring | kunsigned | kint | khyper | kfloat | kdouble | kquadruple | kbool | kprogram | kversion
  | const (n : Nat)
  | ident (s : Ident)
  | eq | semi | lt | gt | lbrack | rbrack | lbrace | rbrace | comma | colon | star | lparen | rparen
  deriving DecidableEq, Repr

open XTok

/-- `val` (xdr.y:105-108). -/
inductive DVal : List XTok → Val → Prop where
  | const (n) : DVal [.const n] (.lit n)
  | ident (s) : DVal [.ident s] (.ident s)

/-- `varlen` (xdr.y:100-103). -/
inductive DVarlen : List XTok → Option Val → Prop where
  | empty : DVarlen [.lt, .gt] none
  | val {ts v} (h : DVal ts v) : DVarlen (.lt :: ts ++ [.gt]) (some v)

/-- `maybeunsig` (xdr.y:131). -/
inductive DMaybeunsig : List XTok → Bool → Prop where
  | no : DMaybeunsig [] false
  | yes : DMaybeunsig [.kunsigned] true

/-- `enumitem` (xdr.y:144-145). -/
inductive DEnumitem : List XTok → EnumItem → Prop where
  | mk {ts v} (n) (h : DVal ts v) : DEnumitem (.ident n :: .eq :: ts) ⟨n, v⟩

/-- `enumitems` (xdr.y:139-142). -/
inductive DEnumitems : List XTok → List EnumItem → Prop where
  | one {ts i} (h : DEnumitem ts i) : DEnumitems ts [i]
  | more {ts us l i} (h : DEnumitems ts l) (h' : DEnumitem us i) : DEnumitems (ts ++ .comma :: us) (l ++ [i])

/-- `enumbody` (xdr.y:136-137). -/
inductive DEnumbody : List XTok → List EnumItem → Prop where
  | mk {ts l} (h : DEnumitems ts l) : DEnumbody (.lbrace :: ts ++ [.rbrace]) l

/-- `caselist` (xdr.y:173-176); the list is the first label and the others. -/
inductive DCaselist : List XTok → Val → List Val → Prop where
  | one {ts v} (h : DVal ts v) : DCaselist (.kcase :: ts ++ [.colon]) v []
  | more {ts us v l w} (h : DCaselist ts v l) (h' : DVal us w) :
      DCaselist (ts ++ .kcase :: us ++ [.colon]) v (l ++ [w])

mutual
/-- `typespec`, with `enumtypespec`, `structtypespec`, `uniontypespec` (xdr.y:110-129, 133, 147, 156). -/
inductive DTypespec : List XTok → Typespec → Prop where
  | int {ts u} (h : DMaybeunsig ts u) : DTypespec (ts ++ [.kint]) (.int u)
  | hyper {ts u} (h : DMaybeunsig ts u) : DTypespec (ts ++ [.khyper]) (.hyper u)
  | float : DTypespec [.kfloat] .float
  | double : DTypespec [.kdouble] .double
  | quadruple : DTypespec [.kquadruple] .quadruple
  | bool : DTypespec [.kbool] .bool
  | enum {ts l} (h : DEnumbody ts l) : DTypespec (.kenum :: ts) (.enum l)
  | struct {ts l} (h : DStructbody ts l) : DTypespec (.kstruct :: ts) (.struct (decls l))
  | union {ts sw cs} (h : DUnionbody ts sw cs) : DTypespec (.kunion :: ts) (.union sw cs)
  | ident (s) : DTypespec [.ident s] (.ident s)
/-- `decl` (xdr.y:83-98). -/
inductive DDecl : List XTok → Decl → Prop where
  | plain {ts t} (n) (h : DTypespec ts t) : DDecl (ts ++ [.ident n]) (.name (.typespec t) n)
  | array {ts t us v} (n) (h : DTypespec ts t) (h' : DVal us v) :
      DDecl (ts ++ .ident n :: .lbrack :: us ++ [.rbrack]) (.name (.array t v) n)
  | varArray {ts t us v} (n) (h : DTypespec ts t) (h' : DVarlen us v) :
      DDecl (ts ++ .ident n :: us) (.name (.varArray t v) n)
  | opaqueArray {us v} (n) (h' : DVal us v) :
      DDecl (.kopaque :: .ident n :: .lbrack :: us ++ [.rbrack]) (.name (.opaqueArray v) n)
  | opaqueVarArray {us v} (n) (h' : DVarlen us v) :
      DDecl (.kopaque :: .ident n :: us) (.name (.opaqueVarArray v) n)
  | string {us v} (n) (h' : DVarlen us v) : DDecl (.kstring :: .ident n :: us) (.name (.string v) n)
  | ptr {ts t} (n) (h : DTypespec ts t) : DDecl (ts ++ [.star, .ident n]) (.name (.ptr t) n)
  | void : DDecl [.kvoid] .void
/-- `structbody` (xdr.y:150-151). -/
inductive DStructbody : List XTok → List Decl → Prop where
  | mk {ts l} (h : DStructdecls ts l) : DStructbody (.lbrace :: ts ++ [.rbrace]) l
/-- `structdecls` (xdr.y:153-154). -/
inductive DStructdecls : List XTok → List Decl → Prop where
  | nil : DStructdecls [] []
  | more {ts l us d} (h : DStructdecls ts l) (h' : DDecl us d) :
      DStructdecls (ts ++ us ++ [.semi]) (l ++ [d])
/-- `unionbody` (xdr.y:159-160). -/
inductive DUnionbody : List XTok → Decl → Cases → Prop where
  | mk {ts d us cs} (h : DDecl ts d) (h' : DUnioncasesdef us cs) :
      DUnionbody (.kswitch :: .lparen :: ts ++ .rparen :: .lbrace :: us ++ [.rbrace]) d cs
/-- `unioncasesdef` (xdr.y:162-165). -/
inductive DUnioncasesdef : List XTok → Cases → Prop where
  | nodef {ts l} (h : DUnioncases ts l) : DUnioncasesdef ts (cases l none)
  | dflt {ts l us d} (h : DUnioncases ts l) (h' : DDecl us d) :
      DUnioncasesdef (ts ++ .kdefault :: .colon :: us ++ [.semi]) (cases l (some d))
/-- `unioncases` with `unioncase` (xdr.y:167-171). -/
inductive DUnioncases : List XTok → List (Val × List Val × Decl) → Prop where
  | nil : DUnioncases [] []
  | more {ts l us v w vs d} (h : DUnioncases ts l) (h' : DCaselist us v vs) (h'' : DDecl w d) :
      DUnioncases (ts ++ (us ++ w ++ [.semi])) (l ++ [(v, vs, d)])
end

/-- `typespecopt` (xdr.y:205-208). -/
inductive DTypespecopt : List XTok → TypespecOpt → Prop where
  | void : DTypespecopt [.kvoid] none
  | some {ts t} (h : DTypespec ts t) : DTypespecopt ts (some t)

/-- `progcall` (xdr.y:202-203). -/
inductive DProgcall : List XTok → ProgCall → Prop where
  | mk {ts r us a} (n k) (h : DTypespecopt ts r) (h' : DTypespecopt us a) :
      DProgcall (ts ++ .ident n :: .lparen :: us ++ [.rparen, .eq, .const k, .semi]) ⟨n, a, r, k⟩

/-- `progcalls` (xdr.y:199-200). -/
inductive DProgcalls : List XTok → List ProgCall → Prop where
  | nil : DProgcalls [] []
  | more {ts l us c} (h : DProgcalls ts l) (h' : DProgcall us c) : DProgcalls (ts ++ us) (l ++ [c])

/-- `progver` (xdr.y:196-197). -/
inductive DProgver : List XTok → ProgVer → Prop where
  | mk {ts l} (n k) (h : DProgcalls ts l) :
      DProgver (.kversion :: .ident n :: .lbrace :: ts ++ [.rbrace, .eq, .const k, .semi]) ⟨n, l, k⟩

/-- `progvers` (xdr.y:193-194). -/
inductive DProgvers : List XTok → List ProgVer → Prop where
  | nil : DProgvers [] []
  | more {ts l us v} (h : DProgvers ts l) (h' : DProgver us v) : DProgvers (ts ++ us) (l ++ [v])

/-- `defn` with `constdef`, `typedef`, `progdef` (xdr.y:81, 178-191); the value is the `emit` call of the
action. -/
inductive DDefn : List XTok → Defn → Prop where
  | const (n k) : DDefn [.kconst, .ident n, .eq, .const k, .semi] (.const n k)
  | typedef {ts d} (h : DDecl ts d) : DDefn (.ktypedef :: ts ++ [.semi]) (.typedef d)
  | enum {ts l} (n) (h : DEnumbody ts l) : DDefn (.kenum :: .ident n :: ts ++ [.semi]) (.enum n l)
  | struct {ts l} (n) (h : DStructbody ts l) :
      DDefn (.kstruct :: .ident n :: ts ++ [.semi]) (.struct n (decls l))
  | union {ts sw cs} (n) (h : DUnionbody ts sw cs) :
      DDefn (.kunion :: .ident n :: ts ++ [.semi]) (.union n sw cs)
  | program {ts l} (n k) (h : DProgvers ts l) :
      DDefn (.kprogram :: .ident n :: .lbrace :: ts ++ [.rbrace, .eq, .const k, .semi])
        (.program ⟨n, l, k⟩)

/-- `spec` (xdr.y:79): the `emit` calls in order. -/
inductive DSpec : List XTok → Spec → Prop where
  | nil : DSpec [] []
  | more {ts s us d} (h : DSpec ts s) (h' : DDefn us d) : DSpec (ts ++ us) (s ++ [d])

end Verif.Text
