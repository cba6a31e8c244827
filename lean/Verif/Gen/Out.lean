/-
Model of `out.go`: the generator, as a function from the abstract syntax to the mini-Go of
`Verif.Gen.Go`.  `none` means that the Go generator panics.

The Go functions return strings; here they return syntax trees.  Verif.Text.Emit has the strings; C46
proves that they are Go, in one way, and that this is what they say.
-/
import Verif.Gen.Go

namespace Verif.Gen

/-- The command line flags the generator looks at (main.go:18-19). -/
structure Flags where
  unsignedEnum : Bool
  constType : Ident
  deriving DecidableEq, Repr

/-- `func i(ident string) string` (out.go:8-17).  `ident[:1]` of an empty identifier panics; the
scanner produces none.  Upper-casing is modelled on ASCII. -/
def i (ident : Ident) : Ident :=
  if ident = "TRUE" then "true"
  else if ident = "FALSE" then "false"
  else
    match ident.toList with
    | [] => ""
    | c :: cs => String.ofList (c.toUpper :: cs)

/-- `i` applied to a case label: a literal starts with a digit and is unchanged (out.go:316). -/
def iVal : Val → Val
  | .lit n => .lit n
  | .ident s => .ident (i s)

mutual
/-- `goType` of the typespecs (out.go:187-341). -/
def Typespec.goType : Typespec → Option GoType
  | .int true => some .uint32                       -- out.go:187-193
  | .int false => some .int32
  | .hyper true => some .uint64                     -- out.go:207-213
  | .hyper false => some .int64
  | .float => some .float32                         -- out.go:225
  | .double => some .float64                        -- out.go:230
  | .quadruple => none                              -- out.go:235 (panic)
  | .bool => some .bool                             -- out.go:240
  | .enum _ => some .int32                          -- out.go:249
  | .struct ds => do                                -- out.go:265-272
    let fs ← ds.goFields
    pure (.struct fs)
  | .union sw cs => do                              -- out.go:290-301
    let f ← sw.goField
    let fs ← cs.goFields
    pure (.struct (f fs))
  | .ident n => some (.named (i n))                 -- out.go:341
/-- `goType` of the declared types (out.go:38-142). -/
def DeclType.goType : DeclType → Option GoType
  | .typespec t => t.goType                         -- out.go:38-40
  | .array t sz => do                               -- out.go:51-53
    let g ← t.goType
    pure (.array sz g)
  | .varArray t _ => do                             -- out.go:68-70
    let g ← t.goType
    pure (.slice g)
  | .opaqueArray sz => some (.byteArray sz)         -- out.go:96-98
  | .opaqueVarArray _ => some .bytes                -- out.go:108-110
  | .string _ => some .string                       -- out.go:124-126
  | .ptr t => do                                    -- out.go:140-142
    let g ← t.goType
    pure (.ptr g)
/-- `declToNameGotype` (out.go:252-259): one struct field, or nothing for `void`. -/
def Decl.goField : Decl → Option (GoFields → GoFields)
  | .void => some id
  | .name t n => do
    let g ← t.goType
    pure (.cons (i n) g)
def Decls.goFields : Decls → Option GoFields
  | .nil => some .nil
  | .cons d ds => do
    let f ← d.goField
    let fs ← ds.goFields
    pure (f fs)
def Cases.goFields : Cases → Option GoFields
  | .nil => some .nil
  | .dflt d => do
    let f ← d.goField
    pure (f .nil)
  | .cons _ _ d cs => do
    let f ← d.goField
    let fs ← cs.goFields
    pure (f fs)
end

/-- The `case` lines of one arm (out.go:315-320): all labels but the last fall through. -/
def goLabels (l : Val) : List Val → Stmts → GoCases → GoCases
  | [], b, cs => .cons (iVal l) b false cs
  | l' :: ls, b, cs => .cons (iVal l) .nil true (goLabels l' ls b cs)

/-- Name of the length variable (out.go:75). -/
def arraysz : Ident := "__arraysz"
/-- Name of the presence variable (out.go:147). -/
def opted : Ident := "opted"
/-- Name of the loop variable (out.go:57, 82). -/
def iVar : Ident := "i"

/-- `&((p).f)` (out.go:279, 311, 323, 330). -/
def fieldPtr (p : Ex) (f : Ident) : Ex := .addr (.field p f)
/-- `&((*(p))[i])` (out.go:83). -/
def elemPtr (p : Ex) : Ex := .addr (.index (.deref p) iVar)
/-- `&(*(p)[i])` (out.go:58).  In Go the index binds tighter than the unary `*`: this is
`&(*((p)[i]))`. -/
def fixedElemPtr (p : Ex) : Ex := .addr (.deref (.index p iVar))

/-- The length check around the elements of an array with a declared maximum (out.go:78-80,
85-87). -/
def checkMax : Option Val → Stmts → Stmts
  | some m, body => .cons (.ifGt arraysz m body) .nil
  | none, body => body

mutual
/-- `goXdr` of the typespecs (out.go:195-344). -/
def Typespec.goXdr : Typespec → Ex → Option Stmts
  | .int true, p => some (.cons (.xdrU32 p) .nil)           -- out.go:195-201
  | .int false, p => some (.cons (.xdrS32 p) .nil)
  | .hyper true, p => some (.cons (.xdrU64 p) .nil)         -- out.go:215-221
  | .hyper false, p => some (.cons (.xdrS64 p) .nil)
  | .float, _ => none                                       -- out.go:226 (panic)
  | .double, _ => none                                      -- out.go:231 (panic)
  | .quadruple, _ => none                                   -- out.go:236 (panic)
  | .bool, p => some (.cons (.xdrBool p) .nil)              -- out.go:241-243
  | .enum _, _ => none                                      -- out.go:250 (panic)
  | .struct ds, p => ds.goXdr p                             -- out.go:274-283
  | .union sw cs, p =>                                      -- out.go:303-335
    match sw with
    | .void => none                                         -- panic
    | .name t n => do
      let s ← t.goXdr (fieldPtr p (i n))
      let c ← cs.goXdr p
      pure (s ++ .cons (.switch (.field p (i n)) c) .nil)
  | .ident n, p => some (.cons (.callXdr (i n) p) .nil)     -- out.go:342-344
/-- `goXdr` of the declared types (out.go:42-163). -/
def DeclType.goXdr : DeclType → Ex → Option Stmts
  | .typespec t, p => t.goXdr p                             -- out.go:42-44
  | .array t sz, p => do                                    -- out.go:55-61
    let b ← t.goXdr (fixedElemPtr p)
    pure (.cons (.forInt iVar sz b) .nil)
  | .varArray t sz, p => do                                 -- out.go:72-90
    let b ← t.goXdr (elemPtr p)
    let gt ← t.goType
    let body := Stmts.cons (.ifDecoding (.cons (.assignMake p gt arraysz) .nil))
      (.cons (.forU64 iVar arraysz b) .nil)
    pure (.cons (.block (.cons (.varU32 arraysz)
      (.cons (.encSetSize arraysz p)
      (.cons (.xdrU32 (.addr (.var arraysz))) (checkMax sz body))))) .nil)
  | .opaqueArray _, p => some (.cons (.xdrArray p) .nil)    -- out.go:100-102
  | .opaqueVarArray sz, p => some (.cons (.xdrVarArray sz p) .nil) -- out.go:112-118
  | .string sz, p => some (.cons (.xdrString sz p) .nil)    -- out.go:128-134
  | .ptr t, p => do                                         -- out.go:144-163
    let b ← t.goXdr (.deref p)
    let gt ← t.goType
    pure (.cons (.ifEncoding
        (.cons (.defNotNil opted p)
        (.cons (.xdrBool (.addr (.var opted)))
        (.cons (.ifVar opted b) .nil))))
      (.cons (.ifDecoding
        (.cons (.varBool opted)
        (.cons (.xdrBool (.addr (.var opted)))
        (.cons (.ifVar opted (.cons (.assignNew p gt) b)) .nil)))) .nil))
/-- The field of a struct or the body of a union arm (out.go:277-280, 321-324, 328-331). -/
def Decl.goXdr : Decl → Ex → Option Stmts
  | .void, _ => some .nil
  | .name t n, p => t.goXdr (fieldPtr p (i n))
def Decls.goXdr : Decls → Ex → Option Stmts
  | .nil, _ => some .nil
  | .cons d ds, p => do
    let s ← d.goXdr p
    let b ← ds.goXdr p
    pure (s ++ b)
/-- The clauses of the generated switch (out.go:313-333). -/
def Cases.goXdr : Cases → Ex → Option GoCases
  | .nil, _ => some .nil
  | .dflt d, p => do
    let s ← d.goXdr p
    pure (.dflt s)
  | .cons l more d cs, p => do
    let s ← d.goXdr p
    let c ← cs.goXdr p
    pure (goLabels l more s c)
end

/-! ### Top level definitions -/

def GoProg.empty : GoProg := ⟨[], [], []⟩

def GoProg.append (a b : GoProg) : GoProg :=
  ⟨a.consts ++ b.consts, a.types ++ b.types, a.methods ++ b.methods⟩

/-- `emitConst` (out.go:444-446): the name is printed as it is. -/
def emitConst (fl : Flags) (n : Ident) (v : Nat) : GoProg :=
  ⟨[⟨n, fl.constType, .lit v⟩], [], []⟩

/-- `emitTypedef` (out.go:448-468). -/
def emitTypedef : Decl → Option GoProg
  | .void => some .empty
  | .name t n =>
    match t with
    | .ptr _ => do
      let gt ← t.goType
      let b ← t.goXdr (.addr (.field .recv "P"))
      pure ⟨[], [(i n, .struct (.cons "P" gt .nil))], [(i n, b)]⟩
    | t => do
      let gt ← t.goType
      let b ← t.goXdr .recv
      pure ⟨[], [(i n, gt)], [(i n, b)]⟩

/-- `emitEnum` (out.go:470-485). -/
def emitEnum (fl : Flags) (n : Ident) (items : List EnumItem) : Option GoProg := do
  let gt ← (Typespec.int fl.unsignedEnum).goType
  let b ← (Typespec.int fl.unsignedEnum).goXdr .recv
  pure ⟨items.map fun it => ⟨i it.name, i n, it.val⟩, [(i n, gt)], [(i n, b)]⟩

/-- `emitStruct` (out.go:487-500). -/
def emitStruct (n : Ident) (ds : Decls) : Option GoProg := do
  let fs ← ds.goFields
  let b ← (Typespec.struct ds).goXdr .recv
  pure ⟨[], [(i n, .struct fs)], [(i n, b)]⟩

/-- `emitUnion` (out.go:502-508). -/
def emitUnion (n : Ident) (sw : Decl) (cs : Cases) : Option GoProg := do
  let gt ← (Typespec.union sw cs).goType
  let b ← (Typespec.union sw cs).goXdr .recv
  pure ⟨[], [(i n, gt)], [(i n, b)]⟩

/-- The constants of `emitProg` (out.go:381-387); the rest of it is in `Verif.Gen.Prog`. -/
def emitProgConsts (p : ProgDef) : GoProg :=
  ⟨⟨i p.name, "uint32", .lit p.id⟩ ::
    p.vers.flatMap (fun v => ⟨i v.name, "uint32", .lit v.id⟩ ::
      v.calls.map (fun c => ⟨i c.name, "uint32", .lit c.id⟩)), [], []⟩

/-- `goType` of every argument and result is printed (out.go:391, 403, 410) and may panic. -/
def progTypesOk (p : ProgDef) : Bool :=
  p.vers.all fun v => v.calls.all fun c =>
    (c.arg.all fun t => t.goType.isSome) && (c.res.all fun t => t.goType.isSome)

/-- One definition (actions xdr.y:178-191). -/
def emitDefn (fl : Flags) : Defn → Option GoProg
  | .const n v => some (emitConst fl n v)
  | .typedef d => emitTypedef d
  | .enum n items => emitEnum fl n items
  | .struct n ds => emitStruct n ds
  | .union n sw cs => emitUnion n sw cs
  | .program p => if progTypesOk p then some (emitProgConsts p) else none

/-- A whole specification: the definitions are emitted in order. -/
def generate (fl : Flags) : Spec → Option GoProg
  | [] => some .empty
  | d :: ds => do
    let a ← emitDefn fl d
    let b ← generate fl ds
    pure (a.append b)

end Verif.Gen
