/-
SPECIFICATION (not a model of code): the static rules of Go that decide whether a package made of the
declarations the generator prints compiles — scopes, typing of expressions and statements, constants
and their ranges, case labels, unused variables and imports, finite types, method sets.  Section
names refer to the Go language specification.  Nothing here refers to the generator.

The rules for expressions and statements are meant to be exact on this fragment, except that they refuse
indexing a string or a `[]byte`, declaring a local variable named like a parameter or like a predeclared
identifier, and local variables where the fragment has constants (a constant hidden by a variable of the
same name).  The rules for whole packages refuse in addition some packages that Go accepts: those that
redeclare a predeclared identifier or declare `_` at package level, and boolean case labels that occur
twice.
-/
import Verif.Gen.Go
import Verif.Gen.Prog

namespace Verif.Spec
open Verif.Gen

/-! ### Types -/

/-- "Underlying types": follow at most `k` type names. -/
def underN (g : GoProg) : Nat → GoType → Option GoType
  | 0, .named _ => none
  | k + 1, .named n => (g.types.lookup n).bind (underN g k)
  | 0, t => some t
  | _ + 1, t => some t

/-- The underlying type; `none` if a name is not declared, or if names go round in circles. -/
def under (g : GoProg) (t : GoType) : Option GoType := underN g (g.types.length + 1) t

/-- Number of values `0, 1, …` of an integer type. -/
def intMax : GoType → Option Nat
  | .uint32 => some (2 ^ 32)
  | .int32 => some (2 ^ 31)
  | .uint64 => some (2 ^ 64)
  | .int64 => some (2 ^ 63)
  | _ => none

/-! ### Constants -/

/-- The type of a constant. -/
inductive CTy where
  | untyped
  | typed (t : GoType)
  | other (n : Ident)         -- a predeclared integer type that `GoType` does not have
  deriving DecidableEq, Repr

/-- Number of values `0, 1, …` of the other predeclared integer types (`int` has 64 bits). -/
def otherMax : Ident → Option Nat
  | "int" => some (2 ^ 63)
  | "uint" => some (2 ^ 64)
  | "uintptr" => some (2 ^ 64)
  | "uint8" => some (2 ^ 8)
  | "int8" => some (2 ^ 7)
  | "uint16" => some (2 ^ 16)
  | "int16" => some (2 ^ 15)
  | _ => none

/-- Predeclared integer types ("Numeric types"; `rune` and `byte` are aliases). -/
def basicTy : Ident → Option CTy
  | "uint32" => some (.typed .uint32)
  | "int32" => some (.typed .int32)
  | "rune" => some (.typed .int32)
  | "uint64" => some (.typed .uint64)
  | "int64" => some (.typed .int64)
  | "byte" => some (.other "uint8")
  | n => (otherMax n).map fun _ => .other n

/-- What a type name in a constant declaration denotes.  Package block before universe block. -/
def tyByName (g : GoProg) (n : Ident) : Option CTy :=
  if (g.types.lookup n).isSome then some (.typed (.named n)) else basicTy n

/-- Type of a constant expression: a literal or the name of a constant. -/
def constTy (g : GoProg) : Val → Option CTy
  | .lit _ => some .untyped
  | .ident s =>
    match g.consts.find? (·.name = s) with
    | none => none
    | some c =>
      if c.ty = "" then
        match c.val with
        | .lit _ => some .untyped
        | .ident _ => none
      else tyByName g c.ty

/-- "Representability": the non-negative values of a type; untyped constants may have 512 bits (the
limit of the gc compiler). -/
def ctyMax (g : GoProg) : CTy → Option Nat
  | .untyped => some (2 ^ 512)
  | .typed t => (under g t).bind intMax
  | .other n => otherMax n

/-- "Constant declarations": the value is representable in the declared type; a typed constant can
only initialise a constant of the same type. -/
def constDeclOk (g : GoProg) (c : GoConst) : Bool :=
  match g.const c.val with
  | none => false
  | some n =>
    if c.ty = "" then
      match c.val with
      | .lit _ => decide (n < 2 ^ 512)
      | .ident _ => false
    else
      match tyByName g c.ty with
      | none => false
      | some ty =>
        (ctyMax g ty).any (fun m => decide (n < m)) &&
        decide (constTy g c.val = some .untyped ∨ constTy g c.val = some ty)

/-- A constant used where type `t` is required ("Comparison operators", "Assignability"): an untyped
constant must be representable in `t`, a typed one must have type `t`. -/
def constFits (g : GoProg) (v : Val) (t : GoType) : Bool :=
  match constTy g v with
  | some .untyped =>
    match g.const v, (under g t).bind intMax with
    | some n, some m => decide (n < m)
    | _, _ => false
  | some (.typed t') => decide (t' = t)
  | _ => false

/-- A constant that can be converted to `int` or be the length of an array. -/
def constInt (g : GoProg) (v : Val) : Bool :=
  (constTy g v).isSome && (g.const v).any (fun n => decide (n < 2 ^ 63))

/-- Identifiers resolve to the innermost declaration: a constant is visible unless hidden. -/
def visible (hidden : List Ident) : Val → Bool
  | .lit _ => true
  | .ident s => decide (s ∉ hidden)

/-! ### Type expressions -/

def _root_.Verif.Gen.GoFields.names : GoFields → List Ident
  | .nil => []
  | .cons n _ fs => n :: fs.names

def _root_.Verif.Gen.GoFields.lookup (f : Ident) : GoFields → Option GoType
  | .nil => none
  | .cons n t fs => if f = n then some t else fs.lookup f

mutual
/-- A type expression in a scope where the names `hidden` denote something else: names are declared,
lengths are constants, fields have distinct names. -/
def typeOk (g : GoProg) (hidden : List Ident) : GoType → Bool
  | .byteArray sz => visible hidden sz && constInt g sz
  | .array sz t => visible hidden sz && constInt g sz && typeOk g hidden t
  | .slice t => typeOk g hidden t
  | .ptr t => typeOk g hidden t
  | .struct fs => decide fs.names.Nodup && fieldsOk g hidden fs
  | .named n => decide (n ∉ hidden) && (g.types.lookup n).isSome
  | _ => true
def fieldsOk (g : GoProg) (hidden : List Ident) : GoFields → Bool
  | .nil => true
  | .cons _ t fs => typeOk g hidden t && fieldsOk g hidden fs
end

mutual
/-- A type does not contain itself ("Type declarations": invalid recursive type). -/
def finT (fn : Ident → Bool) : GoType → Bool
  | .array _ t => finT fn t
  | .struct fs => finFs fn fs
  | .named n => fn n
  | _ => true
def finFs (fn : Ident → Bool) : GoFields → Bool
  | .nil => true
  | .cons _ t fs => finT fn t && finFs fn fs
end

def finN (g : GoProg) : Nat → Ident → Bool
  | 0, _ => false
  | k + 1, n => (g.types.lookup n).any (finT (finN g k))

/-! ### Expressions -/

/-- Types of local variables. -/
inductive LTy where
  | val (t : GoType)
  | int
  deriving DecidableEq, Repr

def LTy.isInt : LTy → Bool
  | .val t => (intMax t).isSome
  | .int => true

/-- Local variables: those of the innermost block, and those of the blocks around it. -/
structure Scope where
  cur : List (Ident × LTy)
  outer : List (Ident × LTy)
  deriving DecidableEq, Repr

def Scope.all (Γ : Scope) : List (Ident × LTy) := Γ.cur ++ Γ.outer
def Scope.find (Γ : Scope) (x : Ident) : Option LTy := Γ.all.lookup x
/-- Enter a block. -/
def Scope.enter (Γ : Scope) : Scope := ⟨[], Γ.all⟩
def Scope.add (Γ : Scope) (x : Ident) (t : LTy) : Scope := ⟨(x, t) :: Γ.cur, Γ.outer⟩
/-- Names that denote local variables or parameters in a method `func (v *T) Xdr(xs *xdr.XdrState)`. -/
def Scope.hidden (Γ : Scope) : List Ident := "v" :: "xs" :: Γ.all.map (·.1)

/-- "Selectors": field `f` of a struct. -/
def selField (g : GoProg) (t : GoType) (f : Ident) : Option GoType :=
  match under g t with
  | some (.struct fs) => if f = "_" then none else fs.lookup f
  | _ => none

/-- Type of an expression in a method with receiver type `*T`, and whether it is addressable. -/
def exTy (g : GoProg) (T : Ident) (Γ : Scope) : Ex → Option (GoType × Bool)
  | .recv => some (.ptr (.named T), true)
  | .var x =>
    match Γ.find x with
    | some (.val t) => some (t, true)
    | _ => none
  | .addr e =>                                   -- "Address operators"
    match exTy g T Γ e with
    | some (t, true) => some (.ptr t, false)
    | _ => none
  | .deref e =>                                  -- "Address operators"
    match exTy g T Γ e with
    | some (t, _) =>
      match under g t with
      | some (.ptr u) => some (u, true)
      | _ => none
    | none => none
  | .field e f =>                                -- "Selectors"
    match exTy g T Γ e with
    | some (t, a) =>
      match under g t with
      | some (.ptr u) => (selField g u f).map fun w => (w, true)
      | _ => (selField g t f).map fun w => (w, a)
    | none => none
  | .index e ix =>                               -- "Index expressions"
    if (Γ.find ix).any LTy.isInt then
      match exTy g T Γ e with
      | some (t, a) =>
        match under g t with
        | some (.slice u) => some (u, true)
        | some (.array _ u) => some (u, a)
        | some (.ptr w) =>
          match under g w with
          | some (.array _ u) => some (u, true)
          | _ => none
        | _ => none
      | none => none
    else none

/-- The type that an expression of pointer type points to. -/
def pointee (g : GoProg) (T : Ident) (Γ : Scope) (p : Ex) : Option GoType :=
  match exTy g T Γ p with
  | some (t, _) =>
    match under g t with
    | some (.ptr u) => some u
    | _ => none
  | none => none

/-- "Conversions": `(*t)(p)` is allowed when `p` points to a type with the same underlying type
(or has a declared pointer type whose underlying type is `*t`). -/
def convertible (g : GoProg) (T : Ident) (Γ : Scope) (p : Ex) (t : GoType) : Bool :=
  match exTy g T Γ p with
  | some (.ptr u, _) => (under g t).isSome && decide (under g u = under g t)
  | some (P, _) => decide (under g P = some (.ptr t))
  | none => false

/-! ### Statements -/

def Ex.mentions (x : Ident) : Ex → Bool
  | .recv => false
  | .var y => decide (x = y)
  | .addr e => Ex.mentions x e
  | .deref e => Ex.mentions x e
  | .field e _ => Ex.mentions x e
  | .index e ix => decide (x = ix) || Ex.mentions x e

/-- The variable a statement declares in the block it stands in. -/
def declares : Stmt → Option (Ident × LTy)
  | .varU32 x => some (x, .val .uint32)
  | .varBool x => some (x, .val .bool)
  | .defNotNil x _ => some (x, .val .bool)
  | _ => none

mutual
/-- Does a statement use the variable `x` of a block around it? -/
def usesS (x : Ident) : Stmt → Bool
  | .xdrU32 p => Ex.mentions x p
  | .xdrS32 p => Ex.mentions x p
  | .xdrU64 p => Ex.mentions x p
  | .xdrS64 p => Ex.mentions x p
  | .xdrBool p => Ex.mentions x p
  | .xdrArray p => Ex.mentions x p
  | .xdrVarArray _ p => Ex.mentions x p
  | .xdrString _ p => Ex.mentions x p
  | .callXdr _ p => Ex.mentions x p
  | .block b => uses x b
  | .varU32 _ => false
  | .varBool _ => false
  | .defNotNil _ p => Ex.mentions x p
  | .encSetSize y p => decide (x = y) || Ex.mentions x p
  | .ifGt y _ b => decide (x = y) || uses x b
  | .ifEncoding b => uses x b
  | .ifDecoding b => uses x b
  | .ifVar y b => decide (x = y) || uses x b
  | .assignMake p _ n => decide (x = n) || Ex.mentions x p
  | .assignNew p _ => Ex.mentions x p
  | .forInt y _ b => decide (x ≠ y) && uses x b
  | .forU64 y n b => decide (x = n) || (decide (x ≠ y) && uses x b)
  | .switch e cs => Ex.mentions x e || usesC x cs
def uses (x : Ident) : Stmts → Bool
  | .nil => false
  | .cons s b => usesS x s ||
      (decide ((declares s).map (·.1) ≠ some x) && uses x b)
def usesC (x : Ident) : GoCases → Bool
  | .nil => false
  | .dflt b => uses x b
  | .cons _ b _ cs => uses x b || usesC x cs
end

/-- Predeclared identifiers that the declarations may refer to, and the imported package. -/
def predeclared : List Ident :=
  ["bool", "byte", "error", "false", "float32", "float64", "int", "int16", "int32", "int64", "int8",
   "len", "make", "new", "nil", "rune", "string", "true", "uint", "uint16", "uint32", "uint64", "uint8",
   "uintptr", "xdr"]

/-- A new variable in the current block. -/
def fresh (Γ : Scope) (x : Ident) : Bool :=
  decide (x ∉ Γ.cur.map (·.1)) && decide (x ≠ "_") && decide (x ∉ "v" :: "xs" :: predeclared)

/-- Value of a case label for a tag of type `t`, if the comparison is allowed. -/
def caseVal (g : GoProg) (hidden : List Ident) (t : GoType) (l : Val) : Option Label :=
  if visible hidden l then
    match under g t with
    | some .bool =>
      if l = .ident "true" ∧ g.consts.find? (·.name = "true") = none then some (.bool true)
      else if l = .ident "false" ∧ g.consts.find? (·.name = "false") = none then some (.bool false)
      else none
    | some _ => if constFits g l t then (g.const l).map .int else none
    | none => none
  else none

mutual
/-- A statement in scope `Γ` of a method with receiver type `*T`. -/
def stmtOk (g : GoProg) (T : Ident) (Γ : Scope) : Stmt → Bool
  | .xdrU32 p => convertible g T Γ p .uint32
  | .xdrS32 p => convertible g T Γ p .int32
  | .xdrU64 p => convertible g T Γ p .uint64
  | .xdrS64 p => convertible g T Γ p .int64
  | .xdrBool p => convertible g T Γ p .bool
  | .xdrArray p =>                                -- "Slice expressions"
    match (pointee g T Γ p).bind (under g) with
    | some (.byteArray _) => true
    | _ => false
  | .xdrVarArray max p => (max.all fun m => visible Γ.hidden m && constInt g m) &&
      convertible g T Γ p .bytes
  | .xdrString max p => (max.all fun m => visible Γ.hidden m && constInt g m) &&
      convertible g T Γ p .string
  | .callXdr t p => decide (t ∉ Γ.hidden) && (g.methods.lookup t).isSome &&
      convertible g T Γ p (.named t)
  | .block b => stmtsOk g T Γ.enter b
  | .varU32 x => fresh Γ x
  | .varBool x => fresh Γ x
  | .defNotNil x p => fresh Γ x &&
      match (pointee g T Γ p).bind (under g) with
      | some (.ptr _) => true
      | some (.slice _) => true
      | some .bytes => true
      | _ => false
  | .encSetSize x p => decide (Γ.find x = some (.val .uint32)) &&
      match (pointee g T Γ p).bind (under g) with  -- "Length and capacity"
      | some (.slice _) => true
      | some .bytes => true
      | some .string => true
      | some (.array _ _) => true
      | some (.byteArray _) => true
      | some (.ptr w) =>
        match under g w with
        | some (.array _ _) => true
        | some (.byteArray _) => true
        | _ => false
      | _ => false
  | .ifGt x sz b =>
    (match Γ.find x with
     | some (.val t) => visible Γ.hidden sz && constFits g sz t
     | _ => false) && stmtsOk g T Γ.enter b
  | .ifEncoding b => stmtsOk g T Γ.enter b
  | .ifDecoding b => stmtsOk g T Γ.enter b
  | .ifVar x b => decide (Γ.find x = some (.val .bool)) && stmtsOk g T Γ.enter b
  | .assignMake p t n => typeOk g Γ.hidden t && (Γ.find n).any LTy.isInt &&
      decide ((pointee g T Γ p).bind (under g) = some (.slice t))   -- "Assignability"
  | .assignNew p t => typeOk g Γ.hidden t &&
      decide ((pointee g T Γ p).bind (under g) = some (.ptr t))
  | .forInt x sz b => visible Γ.hidden sz &&
      (match constTy g sz with
       | some .untyped => (g.const sz).any fun n => decide (n < 2 ^ 63)
       | some (.other n) => decide (n = "int")
       | _ => false) &&
      fresh Γ.enter x && stmtsOk g T (Γ.enter.add x .int).enter b
  | .forU64 x n b => (Γ.find n).any LTy.isInt && fresh Γ.enter x &&
      stmtsOk g T (Γ.enter.add x (.val .uint64)).enter b
  | .switch e cs =>
    match exTy g T Γ e with
    | some (t, _) => casesOk g T Γ t [] cs
    | none => false
/-- A statement list: declared variables are visible in what follows and must be used there. -/
def stmtsOk (g : GoProg) (T : Ident) (Γ : Scope) : Stmts → Bool
  | .nil => true
  | .cons s b => stmtOk g T Γ s &&
      match declares s with
      | none => stmtsOk g T Γ b
      | some (x, t) => uses x b && stmtsOk g T (Γ.add x t) b
/-- The clauses of a switch over a tag of type `t`; `seen` are the labels so far ("Expression
switches": duplicate constants).  `fallthrough` needs a next clause. -/
def casesOk (g : GoProg) (T : Ident) (Γ : Scope) (t : GoType) (seen : List Label) : GoCases → Bool
  | .nil => true
  | .dflt b => stmtsOk g T Γ.enter b
  | .cons l b ft cs =>
    match caseVal g Γ.hidden t l with
    | none => false
    | some v => decide (v ∉ seen) && stmtsOk g T Γ.enter b && (!ft || decide (cs ≠ .nil)) &&
        casesOk g T Γ t (v :: seen) cs
end

/-- A method `func (v *T) Xdr(xs *xdr.XdrState) { b }`. -/
def bodyOk (g : GoProg) (T : Ident) (b : Stmts) : Bool := stmtsOk g T ⟨[], []⟩ b

/-! ### Handlers -/

/-- `*t` has a method `Xdr(*xdr.XdrState)` ("Method sets"). -/
def hasXdr (g : GoProg) : GoType → Bool
  | .named n => (g.methods.lookup n).isSome
  | _ => false

/-- Names of parameters, results and local variables of a wrapper method. -/
def wrapperNames : List Ident := ["w", "args", "res", "err", "in", "out"]

/-- Type of the variable `out`. -/
inductive OutTy where
  | void
  | go (t : GoType)
  deriving DecidableEq, Repr

/-- The statements of a wrapper method, after declarations of `in` and `out`; `sigs` is the method
set of the type of `w.h`.  The method must end with a return statement. -/
def wrapperOk (g : GoProg) (sigs : List GoSig) : Option GoType → Option OutTy → List WStmt → Bool
  | _, _, [] => false
  | i, o, .varIn t :: b => decide (i = none) && typeOk g wrapperNames t && decide (.inXdr ∈ b) &&
      wrapperOk g sigs (some t) o b
  | i, o, .inXdr :: b => i.any (hasXdr g) && wrapperOk g sigs i o b
  | i, o, .setErr :: b => wrapperOk g sigs i o b
  | i, o, .retIfErr :: b => wrapperOk g sigs i o b
  | i, o, .varOut t :: b => decide (o = none) && typeOk g wrapperNames t && decide (.retOut ∈ b) &&
      wrapperOk g sigs i (some (.go t)) b
  | i, o, .varOutVoid :: b => decide (o = none) && decide (.retOut ∈ b) &&
      wrapperOk g sigs i (some .void) b
  | i, o, .callH m assign arg :: b =>
    (match sigs.find? (·.name = m) with
     | none => false
     | some sg =>
       (if arg then decide (sg.arg ≠ none ∧ sg.arg = i) else decide (sg.arg = none)) &&
       (if assign then sg.res.any fun t => decide (o = some (.go t)) else true)) &&
    wrapperOk g sigs i o b
  | i, o, .retOut :: b =>
    (match o with
     | none => false
     | some .void => true
     | some (.go t) => hasXdr g t) && (b.isEmpty || wrapperOk g sigs i o b)

/-- A constant in a `ProcRegistration`. -/
def regConst (g : GoProg) (n : Ident) : Bool :=
  decide (n ∉ ["h", "w"]) && constFits g (.ident n) .uint32

/-- Everything printed for one version: interface, wrapper type, wrapper methods, table. -/
def versOk (g : GoProg) (v : GoVers) : Bool :=
  (v.sigs.all fun s => decide (s.name ≠ "_") && s.arg.all (typeOk g []) && s.res.all (typeOk g [])) &&
  decide (v.sigs.map (·.name)).Nodup &&
  decide (v.wrapperField = v.iface) && decide (v.regsParam = v.iface) &&
  decide (v.regsWrapper = v.wrapperType) &&
  decide (v.wrappers.map (·.name)).Nodup &&
  (v.wrappers.all fun w => decide (w.recv = v.wrapperType) && decide (w.name ≠ "h") &&
    wrapperOk g v.sigs none none w.body) &&
  (v.regs.all fun r => regConst g r.prog && regConst g r.vers && regConst g r.proc &&
    decide (r.handler ∈ v.wrappers.map (·.name))) &&
  decide (v.regsWrapper ∉ ["h", "w"]) &&
  decide (v.regs ≠ [])                      -- otherwise `w` is declared and not used

/-! ### Packages -/

/-- The identifiers declared in the package block. -/
def pkgNames (g : GoProg) (vs : List GoVers) : List Ident :=
  g.consts.map (·.name) ++ g.types.map (·.1) ++
    vs.flatMap fun v => [v.iface, v.wrapperType, v.regsName]

/-- A type declaration, whose type has a method `Xdr` ("Method declarations": the base type is no
pointer, no field has the name of the method). -/
def typeDeclOk (g : GoProg) (p : Ident × GoType) : Bool :=
  typeOk g [] p.2 && finN g (g.types.length + 1) p.1 &&
  match under g p.2 with
  | some (.ptr _) => (g.methods.lookup p.1).isNone
  | some (.struct fs) => (g.methods.lookup p.1).isNone || decide ("Xdr" ∉ fs.names)
  | some _ => true
  | none => false

/-- The package compiles: `package p; import ".../xdr"; ` and the declarations. -/
def pkgOk (g : GoProg) (vs : List GoVers) : Bool :=
  decide (pkgNames g vs).Nodup &&
  ((pkgNames g vs).all fun n => decide (n ∉ "_" :: "init" :: "main" :: predeclared)) &&
  g.consts.all (constDeclOk g) &&
  g.types.all (typeDeclOk g) &&
  decide (g.methods.map (·.1)).Nodup &&
  (g.methods.all fun m => (g.types.lookup m.1).isSome && bodyOk g m.1 m.2) &&
  vs.all (versOk g) &&
  decide (g.methods ≠ [] ∨ vs ≠ [])         -- otherwise `xdr` is imported and not used

end Verif.Spec
