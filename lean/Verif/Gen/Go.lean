/-
The subset of Go that `out.go` emits, and its semantics.

* Values are finite trees.  Pointers in the *data* are owned (`ptr (some v)`): encoding only reads
  through them and decoding always installs freshly allocated ones, so sharing between pointers is
  not observable through the codecs.  Cyclic data (on which the Go encoder would recurse forever)
  is not representable.
* Pointer *expressions* (`&((v).F)`, `*(p)`, `&((*(p))[i])`) evaluate to locations: a base variable
  and a path.
* Blocks scope their local variables as in Go: a declaration shadows outer variables of the same
  name until the end of the enclosing block.  Constants and types are looked up in the package only;
  local variables never hide them in the packages considered (`supported` asks for it, and the static
  rules of `Verif.Spec.GoStatic` check every use).
* `stuck` means the Go compiler rejects the program (ill-typed), `panic` is a Go run-time panic,
  `fuel` is the bound on method-call depth being exhausted (an artefact of the model).
-/
import Verif.Gen.Ast
import Verif.Xdr.Lib

namespace Verif.Gen
open Verif.Xdr

inductive Stop where
  | panic | stuck | fuel
  deriving DecidableEq, Repr

abbrev Res := Except Stop

/-- Go values of the types the generator uses, up to underlying type. -/
inductive GoVal where
  | u32 (x : UInt32)
  | i32 (x : Int32)
  | u64 (x : UInt64)
  | i64 (x : Int64)
  | bool (b : Bool)
  | f32 | f64                          -- floats: never read or written by generated code
  | str (s : List UInt8)
  | bytes (b : GoBytes)                -- []byte
  | barr (b : List UInt8)              -- [N]byte
  | arr (l : List GoVal)               -- [N]T
  | slice (l : Option (List GoVal))    -- []T, none = nil
  | ptr (p : Option GoVal)             -- *T, none = nil
  | struct (fs : List (Ident × GoVal))

mutual
/-- Go type expressions the generator prints (`goType` methods of out.go). -/
inductive GoType where
  | uint32 | int32 | uint64 | int64 | bool | float32 | float64 | string | bytes
  | byteArray (sz : Val)
  | array (sz : Val) (t : GoType)
  | slice (t : GoType)
  | ptr (t : GoType)
  | struct (fs : GoFields)
  | named (n : Ident)
inductive GoFields where
  | nil
  | cons (n : Ident) (t : GoType) (fs : GoFields)
end

deriving instance DecidableEq, Repr for GoType, GoFields

/-- Pointer and place expressions. `recv` is the receiver `v` of the method (a pointer). -/
inductive Ex where
  | recv
  | var (x : Ident)
  | addr (e : Ex)               -- &e
  | deref (e : Ex)              -- *e
  | field (e : Ex) (f : Ident)  -- (e).f
  | index (e : Ex) (ix : Ident) -- e[ix]
  deriving DecidableEq, Repr

mutual
/-- Statements the generator prints; the comment gives the Go text. -/
inductive Stmt where
  | xdrU32 (p : Ex)                       -- xdr.XdrU32(xs, (*uint32)(p))
  | xdrS32 (p : Ex)                       -- xdr.XdrS32(xs, (*int32)(p))
  | xdrU64 (p : Ex)                       -- xdr.XdrU64(xs, (*uint64)(p))
  | xdrS64 (p : Ex)                       -- xdr.XdrS64(xs, (*int64)(p))
  | xdrBool (p : Ex)                      -- xdr.XdrBool(xs, (*bool)(p))
  | xdrArray (p : Ex)                     -- xdr.XdrArray(xs, (*p)[:])
  | xdrVarArray (max : Option Val) (p : Ex) -- xdr.XdrVarArray(xs, int(max), (*[]byte)(p)); none: -1
  | xdrString (max : Option Val) (p : Ex) -- xdr.XdrString(xs, int(max), (*string)(p)); none: -1
  | callXdr (t : Ident) (p : Ex)          -- (*T)(p).Xdr(xs)
  | block (b : Stmts)                     -- { b }
  | varU32 (x : Ident)                    -- var x uint32
  | varBool (x : Ident)                   -- var x bool
  | defNotNil (x : Ident) (p : Ex)        -- x := *(p) != nil
  | encSetSize (x : Ident) (p : Ex)       -- xs.EncodingSetSize(&x, len(*p))
  | ifGt (x : Ident) (sz : Val) (els : Stmts) -- if x > sz { xs.SetError("array too large") } else { els }
  | ifEncoding (b : Stmts)                -- if xs.Encoding() { b }
  | ifDecoding (b : Stmts)                -- if xs.Decoding() { b }
  | ifVar (x : Ident) (b : Stmts)         -- if x { b }
  | assignMake (p : Ex) (t : GoType) (n : Ident) -- *p = make([]T, n)
  | assignNew (p : Ex) (t : GoType)       -- *(p) = new(T)
  | forInt (x : Ident) (sz : Val) (b : Stmts) -- for x := 0; x < sz; x++ { b }
  | forU64 (x : Ident) (n : Ident) (b : Stmts) -- for x := uint64(0); x < uint64(n); x++ { b }
  | switch (e : Ex) (cs : GoCases)        -- switch e { cs }
inductive Stmts where
  | nil
  | cons (s : Stmt) (b : Stmts)
inductive GoCases where
  | nil                                                        -- no default clause
  | dflt (b : Stmts)                                           -- default: b
  | cons (l : Val) (b : Stmts) (ft : Bool) (cs : GoCases)      -- case l: b  [fallthrough]
end

deriving instance DecidableEq, Repr for Stmt, Stmts, GoCases

def Stmts.append : Stmts → Stmts → Stmts
  | .nil, c => c
  | .cons s b, c => .cons s (b.append c)

instance : Append Stmts := ⟨Stmts.append⟩

def Stmts.ofList : List Stmt → Stmts
  | [] => .nil
  | s :: l => .cons s (Stmts.ofList l)

/-- `const name ty = val`; `ty = ""` for an untyped constant. -/
structure GoConst where
  name : Ident
  ty : Ident
  val : Val
  deriving DecidableEq, Repr

/-- A generated Go package: constants, type declarations, `Xdr` methods, each in source order. -/
structure GoProg where
  consts : List GoConst
  types : List (Ident × GoType)
  methods : List (Ident × Stmts)
  deriving DecidableEq, Repr

/-! ### Locations -/

inductive Step where
  | field (f : Ident)
  | idx (n : Nat)
  | deref
  deriving DecidableEq, Repr

/-- A location: a base variable (the receiver's pointee or the innermost local of that name) and a
path, outermost step first. -/
structure Loc where
  base : Option Ident
  path : List Step
  deriving DecidableEq, Repr

def Loc.step (l : Loc) (s : Step) : Loc := { l with path := l.path ++ [s] }

def getField (fs : List (Ident × GoVal)) (f : Ident) : Option GoVal := fs.lookup f

def setField : List (Ident × GoVal) → Ident → GoVal → List (Ident × GoVal)
  | [], _, _ => []
  | (g, w) :: fs, f, v => if g = f then (g, v) :: fs else (g, w) :: setField fs f v

/-- The component of a value that one step selects. -/
def child : GoVal → Step → Res GoVal
  | .struct fs, .field f => match getField fs f with | some w => .ok w | none => .error .stuck
  | .slice (some l), .idx n => match l[n]? with | some w => .ok w | none => .error .panic
  | .slice none, .idx _ => .error .panic
  | .arr l, .idx n => match l[n]? with | some w => .ok w | none => .error .panic
  | .ptr (some w), .deref => .ok w
  | .ptr none, .deref => .error .panic
  | _, _ => .error .stuck

/-- Replace a component that exists. -/
def setChild : GoVal → Step → GoVal → GoVal
  | .struct fs, .field f, x => .struct (setField fs f x)
  | .slice (some l), .idx n, x => .slice (some (l.set n x))
  | .arr l, .idx n, x => .arr (l.set n x)
  | .ptr (some _), .deref, x => .ptr (some x)
  | v, _, _ => v

/-- Content of a path inside a value. -/
def loadPath (v : GoVal) : List Step → Res GoVal
  | [] => .ok v
  | s :: p => do
    let w ← child v s
    loadPath w p

/-- Replace the content of a path inside a value. -/
def storePath (v : GoVal) : List Step → GoVal → Res GoVal
  | [], x => .ok x
  | s :: p, x => do
    let w ← child v s
    let w' ← storePath w p x
    pure (setChild v s w')

/-! ### Machine state of one method activation -/

structure St where
  xs : XdrState
  v : GoVal                        -- what the receiver points to
  locals : List (Ident × GoVal)    -- innermost first

def St.load (st : St) (l : Loc) : Res GoVal :=
  match l.base with
  | none => loadPath st.v l.path
  | some x =>
    match getField st.locals x with
    | some w => loadPath w l.path
    | none => .error .stuck

def St.store (st : St) (l : Loc) (x : GoVal) : Res St :=
  match l.base with
  | none => do
    let v ← storePath st.v l.path x
    pure { st with v := v }
  | some y =>
    match getField st.locals y with
    | some w => do
      let w' ← storePath w l.path x
      pure { st with locals := setField st.locals y w' }
    | none => .error .stuck

/-- Push a local variable. -/
def St.push (st : St) (x : Ident) (v : GoVal) : St := { st with locals := (x, v) :: st.locals }

/-- Leave a block: forget the locals declared since `n` locals were live. -/
def St.popTo (st : St) (n : Nat) : St :=
  { st with locals := st.locals.drop (st.locals.length - n) }

/-! ### Expressions -/

/-- An expression denotes an addressable place or a pointer value (the location it points to). -/
inductive EVal where
  | ptr (l : Loc)
  | place (l : Loc)

/-- The integer value of an index variable. -/
def indexOf : GoVal → Option Nat
  | .u64 x => some x.toNat
  | .i64 x => if x.toInt < 0 then none else some x.toInt.toNat
  | _ => none

/-- Go expression evaluation: selectors dereference pointers automatically, indexing dereferences a
pointer to an array automatically, everything else must have the right type. -/
def evalEx (st : St) : Ex → Res EVal
  | .recv => .ok (.ptr ⟨none, []⟩)
  | .var x => .ok (.place ⟨some x, []⟩)
  | .addr e => do
    match ← evalEx st e with
    | .place l => pure (.ptr l)
    | .ptr _ => .error .stuck
  | .deref e => do
    match ← evalEx st e with
    | .ptr l => pure (.place l)
    | .place l =>
      match ← st.load l with
      | .ptr (some _) => pure (.place (l.step .deref))
      | .ptr none => .error .panic
      | _ => .error .stuck
  | .field e f => do
    match ← evalEx st e with
    | .ptr l => pure (.place (l.step (.field f)))
    | .place l =>
      match ← st.load l with
      | .struct _ => pure (.place (l.step (.field f)))
      | .ptr (some _) => pure (.place ((l.step .deref).step (.field f)))
      | .ptr none => .error .panic
      | _ => .error .stuck
  | .index e ix => do
    let i ← match getField st.locals ix with
      | some w => (match indexOf w with | some i => .ok i | none => .error .stuck)
      | none => .error .stuck
    match ← evalEx st e with
    | .ptr l =>
      match ← st.load l with
      | .arr es => if i < es.length then pure (.place (l.step (.idx i))) else .error .panic
      | _ => .error .stuck
    | .place l =>
      match ← st.load l with
      | .arr es => if i < es.length then pure (.place (l.step (.idx i))) else .error .panic
      | .slice (some es) => if i < es.length then pure (.place (l.step (.idx i))) else .error .panic
      | .slice none => .error .panic
      | _ => .error .stuck

/-- The location an expression of pointer type points to (argument of a conversion `(*T)(e)`, or
operand of `*e`).  A nil pointer is a panic: the callee would dereference it. -/
def evalPtr (st : St) (e : Ex) : Res Loc := do
  match ← evalEx st e with
  | .ptr l => pure l
  | .place l =>
    match ← st.load l with
    | .ptr (some _) => pure (l.step .deref)
    | .ptr none => .error .panic
    | _ => .error .stuck

/-! ### Constants and zero values -/

/-- Value of a constant expression (a literal or the name of a constant, which may itself be defined
by another constant; `fuel` bounds the chain). -/
def constVal (cs : List GoConst) : Nat → Val → Option Nat
  | _, .lit n => some n
  | 0, .ident _ => none
  | k + 1, .ident s =>
    match cs.find? (·.name = s) with
    | some c => constVal cs k c.val
    | none => none

def GoProg.const (g : GoProg) (v : Val) : Option Nat := constVal g.consts (g.consts.length + 1) v

def GoProg.label (g : GoProg) : Val → Option Label
  | .ident "true" => some (.bool true)
  | .ident "false" => some (.bool false)
  | v => (g.const v).map .int

/-- Does a switch value match a case label?  `none`: the comparison does not type-check. -/
def matchLabel : GoVal → Label → Option Bool
  | .u32 x, .int n => some (x.toNat == n)
  | .i32 x, .int n => some (x.toInt == n)
  | .u64 x, .int n => some (x.toNat == n)
  | .i64 x, .int n => some (x.toInt == n)
  | .bool b, .bool c => some (b == c)
  | _, _ => none

mutual
/-- Zero value of a Go type; `zn` gives the zero values of named types. -/
def zeroGo (const : Val → Option Nat) (zn : Ident → Option GoVal) : GoType → Option GoVal
  | .uint32 => some (.u32 0)
  | .int32 => some (.i32 0)
  | .uint64 => some (.u64 0)
  | .int64 => some (.i64 0)
  | .bool => some (.bool false)
  | .float32 => some .f32
  | .float64 => some .f64
  | .string => some (.str [])
  | .bytes => some (.bytes none)
  | .byteArray sz => (const sz).map fun n => .barr (zeros n)
  | .array sz t => do
    let n ← const sz
    let z ← zeroGo const zn t
    pure (.arr (List.replicate n z))
  | .slice _ => some (.slice none)
  | .ptr _ => some (.ptr none)
  | .struct fs => (zeroFields const zn fs).map .struct
  | .named n => zn n
def zeroFields (const : Val → Option Nat) (zn : Ident → Option GoVal) :
    GoFields → Option (List (Ident × GoVal))
  | .nil => some []
  | .cons n t fs => do
    let z ← zeroGo const zn t
    let zs ← zeroFields const zn fs
    pure ((n, z) :: zs)
end

/-- Zero value of a named type; `fuel` bounds the depth of names (a type that contains itself
without indirection, which Go rejects, has none). -/
def GoProg.zeroN (g : GoProg) : Nat → Ident → Option GoVal
  | 0, _ => none
  | k + 1, n =>
    match g.types.lookup n with
    | some t => zeroGo g.const (g.zeroN k) t
    | none => none

def GoProg.zeroNamed (g : GoProg) : Ident → Option GoVal := g.zeroN (g.types.length + 1)

def GoProg.zero (g : GoProg) (t : GoType) : Option GoVal := zeroGo g.const g.zeroNamed t

/-! ### Statements -/

/-- A method call `(*T)(p).Xdr(xs)`, as a function of the state and the pointee. -/
abbrev Call := Ident → XdrState → GoVal → Res (XdrState × GoVal)

/-- `p` points to a value handled by library function `f`. -/
def withPtr (st : St) (p : Ex) (f : XdrState → GoVal → Res (XdrState × GoVal)) : Res St := do
  let l ← evalPtr st p
  let w ← st.load l
  let (xs, w) ← f st.xs w
  St.store { st with xs := xs } l w

/-- The library functions on untyped values; a value of another type does not type-check. -/
def libU32 (xs : XdrState) : GoVal → Res (XdrState × GoVal)
  | .u32 x => let r := xdrU32 xs x; .ok (r.1, .u32 r.2)
  | _ => .error .stuck
def libS32 (xs : XdrState) : GoVal → Res (XdrState × GoVal)
  | .i32 x => let r := xdrS32 xs x; .ok (r.1, .i32 r.2)
  | _ => .error .stuck
def libU64 (xs : XdrState) : GoVal → Res (XdrState × GoVal)
  | .u64 x => let r := xdrU64 xs x; .ok (r.1, .u64 r.2)
  | _ => .error .stuck
def libS64 (xs : XdrState) : GoVal → Res (XdrState × GoVal)
  | .i64 x => let r := xdrS64 xs x; .ok (r.1, .i64 r.2)
  | _ => .error .stuck
def libBool (xs : XdrState) : GoVal → Res (XdrState × GoVal)
  | .bool x => let r := xdrBool xs x; .ok (r.1, .bool r.2)
  | _ => .error .stuck
def libArray (xs : XdrState) : GoVal → Res (XdrState × GoVal)
  | .barr b => let r := xdrArray xs b; .ok (r.1, .barr r.2)
  | _ => .error .stuck
def libVarArray (max : Int) (xs : XdrState) : GoVal → Res (XdrState × GoVal)
  | .bytes b => let r := xdrVarArray xs max b; .ok (r.1, .bytes r.2)
  | _ => .error .stuck
def libString (max : Int) (xs : XdrState) : GoVal → Res (XdrState × GoVal)
  | .str s => let r := xdrString xs max s; .ok (r.1, .str r.2)
  | _ => .error .stuck

/-- `int(max)` where an absent maximum is printed as `-1` (out.go:112-115, 128-131). -/
def maxOf (const : Val → Option Nat) : Option Val → Option Int
  | none => some (-1)
  | some v => (const v).map Int.ofNat

def orStuck {α} : Option α → Res α
  | some a => .ok a
  | none => .error .stuck

/-- Read a local `uint32` (an array size). -/
def localU32 (st : St) (x : Ident) : Res UInt32 :=
  match getField st.locals x with
  | some (.u32 n) => .ok n
  | _ => .error .stuck

/-- Go `for x := 0; x < bound; x++ { body }`: the bound is re-evaluated before every iteration, the
loop variable lives in the scope of the loop only.  `fuel` is the initial bound. -/
def loop (mk : Nat → GoVal) (x : Ident) (bound : St → Res Nat) (body : St → Res St) :
    Nat → Nat → St → Res St
  | fuel, i, st => do
    let n ← bound st
    if i < n then
      match fuel with
      | 0 => .error .fuel
      | fuel + 1 => do
        let d := st.locals.length
        let st' ← body (st.push x (mk i))
        loop mk x bound body fuel (i + 1) (st'.popTo d)
    else pure st

mutual
/-- Execution of one statement.  Declarations extend `locals`; the enclosing block pops them. -/
def exec (g : GoProg) (call : Call) : Stmt → St → Res St
  | .xdrU32 p, st => withPtr st p libU32
  | .xdrS32 p, st => withPtr st p libS32
  | .xdrU64 p, st => withPtr st p libU64
  | .xdrS64 p, st => withPtr st p libS64
  | .xdrBool p, st => withPtr st p libBool
  | .xdrArray p, st => withPtr st p libArray
  | .xdrVarArray max p, st => do
    let m ← orStuck (maxOf g.const max)
    withPtr st p (libVarArray m)
  | .xdrString max p, st => do
    let m ← orStuck (maxOf g.const max)
    withPtr st p (libString m)
  | .callXdr t p, st => withPtr st p (call t)
  | .block b, st => do
    let d := st.locals.length
    let st' ← execs g call b st
    pure (st'.popTo d)
  | .varU32 x, st => .ok (st.push x (.u32 0))
  | .varBool x, st => .ok (st.push x (.bool false))
  | .defNotNil x p, st => do
    let l ← evalPtr st p
    match ← st.load l with
    | .ptr o => pure (st.push x (.bool o.isSome))
    | _ => .error .stuck
  | .encSetSize x p, st => do
    let n ← localU32 st x
    let l ← evalPtr st p
    match ← st.load l with
    | .slice o =>
      let r := encodingSetSize st.xs n (o.getD []).length
      St.store { st with xs := r.1 } ⟨some x, []⟩ (.u32 r.2)
    | _ => .error .stuck
  | .ifGt x sz els, st => do
    let n ← localU32 st x
    let m ← orStuck (g.const sz)
    if n.toNat > m then pure { st with xs := setError st.xs "array too large" }
    else do
      let d := st.locals.length
      let st' ← execs g call els st
      pure (st'.popTo d)
  | .ifEncoding b, st =>
    if encoding st.xs then do
      let d := st.locals.length
      let st' ← execs g call b st
      pure (st'.popTo d)
    else pure st
  | .ifDecoding b, st =>
    if decoding st.xs then do
      let d := st.locals.length
      let st' ← execs g call b st
      pure (st'.popTo d)
    else pure st
  | .ifVar x b, st =>
    match getField st.locals x with
    | some (.bool true) => do
      let d := st.locals.length
      let st' ← execs g call b st
      pure (st'.popTo d)
    | some (.bool false) => pure st
    | _ => .error .stuck
  | .assignMake p t n, st => do
    let l ← evalPtr st p
    let k ← localU32 st n
    let z ← orStuck (g.zero t)
    match ← st.load l with
    | .slice _ => st.store l (.slice (some (List.replicate k.toNat z)))
    | _ => .error .stuck
  | .assignNew p t, st => do
    let l ← evalPtr st p
    let z ← orStuck (g.zero t)
    match ← st.load l with
    | .ptr _ => st.store l (.ptr (some z))
    | _ => .error .stuck
  | .forInt x sz b, st => do
    let m ← orStuck (g.const sz)
    loop (fun i => .i64 (Int64.ofNat i)) x (fun _ => pure m) (execs g call b) m 0 st
  | .forU64 x n b, st => do
    let m ← localU32 st n
    loop (fun i => .u64 (UInt64.ofNat i)) x (fun st => do let k ← localU32 st n; pure k.toNat)
      (execs g call b) m.toNat 0 st
  | .switch e cs, st => do
    match ← evalEx st e with
    | .place l => do
      let d ← st.load l
      execSwitch g call d cs st
    | .ptr _ => .error .stuck
def execs (g : GoProg) (call : Call) : Stmts → St → Res St
  | .nil, st => .ok st
  | .cons s b, st => do
    let st' ← exec g call s st
    execs g call b st'
/-- Find the first matching clause and run it. -/
def execSwitch (g : GoProg) (call : Call) (d : GoVal) : GoCases → St → Res St
  | .nil, st => .ok st
  | .dflt b, st => do
    let n := st.locals.length
    let st' ← execs g call b st
    pure (st'.popTo n)
  | .cons l b ft cs, st => do
    let lab ← orStuck (g.label l)
    let m ← orStuck (matchLabel d lab)
    if m then do
      let n := st.locals.length
      let st' ← execs g call b st
      let st' := st'.popTo n
      if ft then execFall g call cs st' else pure st'
    else execSwitch g call d cs st
/-- `fallthrough`: run the next clause's body without testing its label. -/
def execFall (g : GoProg) (call : Call) : GoCases → St → Res St
  | .nil, _ => .error .stuck
  | .dflt b, st => do
    let n := st.locals.length
    let st' ← execs g call b st
    pure (st'.popTo n)
  | .cons _ b ft cs, st => do
    let n := st.locals.length
    let st' ← execs g call b st
    let st' := st'.popTo n
    if ft then execFall g call cs st' else pure st'
end

/-- `(*T)(p).Xdr(xs)` with call depth at most `fuel`. -/
def GoProg.runXdr (g : GoProg) : Nat → Call
  | 0, _, _, _ => .error .fuel
  | k + 1, n, xs, v =>
    match g.methods.lookup n with
    | some body => do
      let st ← execs g (g.runXdr k) body { xs := xs, v := v, locals := [] }
      pure (st.xs, st.v)
    | none => .error .stuck

end Verif.Gen
