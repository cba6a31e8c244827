/-
The abstract syntax the parser builds (`out.go` structs, built by the actions of `xdr.y`).

The Go code uses slices of interface values; here each slice is an explicit inductive list so that
functions over the syntax are structurally recursive.
-/
namespace Verif.Gen

/-- An identifier (Go string).  Only ASCII identifiers are modelled: `i` upper-cases
`ident[:1]`, the first *byte*. -/
abbrev Ident := String

/-- Grammar symbol `val: CONST | IDENT` (xdr.y:105-108).  Go keeps the spelling of a literal and
copies it into the output; the model keeps its numeric value. -/
inductive Val where
  | lit (n : Nat)
  | ident (s : Ident)
  deriving DecidableEq, Repr

/-- The value of a case label. -/
inductive Label where
  | bool (b : Bool)
  | int (n : Nat)
  deriving DecidableEq, Repr

/-- `type enumItem struct` (out.go:346-349). -/
structure EnumItem where
  name : Ident
  val : Val
  deriving DecidableEq, Repr

mutual
/-- The implementations of `interface typespec` (out.go:165-344). -/
inductive Typespec where
  | int (unsig : Bool)              -- typeInt      out.go:183
  | hyper (unsig : Bool)            -- typeHyper    out.go:203
  | float                           -- typeFloat    out.go:223
  | double                          -- typeDouble   out.go:228
  | quadruple                       -- typeQuadruple out.go:233
  | bool                            -- typeBool     out.go:238
  | enum (items : List EnumItem)    -- typeEnum     out.go:245
  | struct (items : Decls)          -- typeStruct   out.go:261
  | union (switchDecl : Decl) (cases : Cases)  -- typeUnion out.go:285
  | ident (n : Ident)               -- typeIdent    out.go:337
/-- The implementations of `interface declType` (out.go:29-163); a size `""` is `none`. -/
inductive DeclType where
  | typespec (t : Typespec)                         -- declTypeTypespec       out.go:34
  | array (t : Typespec) (sz : Val)                 -- declTypeArray          out.go:46
  | varArray (t : Typespec) (sz : Option Val)       -- declTypeVarArray       out.go:63
  | opaqueArray (sz : Val)                          -- declTypeOpaqueArray    out.go:92
  | opaqueVarArray (sz : Option Val)                -- declTypeOpaqueVarArray out.go:104
  | string (sz : Option Val)                        -- declTypeString         out.go:120
  | ptr (t : Typespec)                              -- declTypePtr            out.go:136
/-- `type decl interface{}`: `declVoid` or `declName` (out.go:19-27). -/
inductive Decl where
  | void
  | name (t : DeclType) (n : Ident)
/-- `[]decl` (struct bodies). -/
inductive Decls where
  | nil
  | cons (d : Decl) (ds : Decls)
/-- `type unionCasesDef struct { cases []unionCaseDecl; def decl }` (out.go:351-359).  `nil` ends
the list with `def == nil`, `dflt d` ends it with `def == d` (the grammar only allows the default
last, xdr.y:162-165).  A `caselist` is never empty (xdr.y:173-176): first label and the others. -/
inductive Cases where
  | nil
  | dflt (d : Decl)
  | cons (label : Val) (more : List Val) (body : Decl) (cs : Cases)
end

deriving instance DecidableEq, Repr for Typespec, DeclType, Decl, Decls, Cases

/-- `type typespecOpt struct` (out.go:170-173): `none` is `isVoid`. -/
abbrev TypespecOpt := Option Typespec

/-- `type progCall struct` (out.go:361-366). -/
structure ProgCall where
  name : Ident
  arg : TypespecOpt
  res : TypespecOpt
  id : Nat
  deriving DecidableEq, Repr

/-- `type progVer struct` (out.go:368-372). -/
structure ProgVer where
  name : Ident
  calls : List ProgCall
  id : Nat
  deriving DecidableEq, Repr

/-- `type progDef struct` (out.go:374-378). -/
structure ProgDef where
  name : Ident
  vers : List ProgVer
  id : Nat
  deriving DecidableEq, Repr

/-- Grammar symbol `defn` (xdr.y:81, 178-191).  The parser has no AST for a whole file: each action
calls an `emit*` function; a specification is the list of these calls in order. -/
inductive Defn where
  | const (n : Ident) (v : Nat)
  | typedef (d : Decl)
  | enum (n : Ident) (items : List EnumItem)
  | struct (n : Ident) (ds : Decls)
  | union (n : Ident) (sw : Decl) (cs : Cases)
  | program (p : ProgDef)
  deriving DecidableEq, Repr

abbrev Spec := List Defn

end Verif.Gen
