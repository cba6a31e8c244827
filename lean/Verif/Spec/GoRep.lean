/-
SPECIFICATION (not a model of code): how Go values stand for XDR values.

* `has`   — a Go value has the shape of a declaration,
* `abs`   — the XDR value a Go value stands for (what is meant to be on the wire),
* `fill`  — a Go value overwritten with the data of an XDR value,
* `clean` — no optional pointer that a decode may leave alone is set.

Each is given for declarations with the meaning of type names as a parameter, then for names with
at most `k` nested uses of names.  Nothing here refers to `XdrState` or to generated statements.
-/
import Verif.Spec.Rfc4506
import Verif.Gen.Out

namespace Verif.Spec
open Verif.Gen

/-- All results, or nothing. -/
def mapAll {α β} (f : α → Option β) : List α → Option (List β)
  | [] => some []
  | x :: l => do
    let y ← f x
    let ys ← mapAll f l
    pure (y :: ys)

/-! ### Shape -/

mutual
def hasT (E : Env) (call : Ident → GoVal → Prop) : Typespec → GoVal → Prop
  | .int true, v => ∃ x, v = .u32 x
  | .int false, v => ∃ x, v = .i32 x
  | .hyper true, v => ∃ x, v = .u64 x
  | .hyper false, v => ∃ x, v = .i64 x
  | .bool, v => ∃ x, v = .bool x
  | .struct ds, v => ∃ fs, v = .struct fs ∧ hasDs E call ds fs
  | .union sw cs, v => ∃ fs rest, v = .struct fs ∧ hasField E call sw fs rest ∧ hasCs E call cs rest
  | .ident n, v => call n v
  | _, _ => False
def hasD (E : Env) (call : Ident → GoVal → Prop) : DeclType → GoVal → Prop
  | .typespec t, v => hasT E call t v
  | .array _ _, _ => False
  | .varArray t _, v => ∃ o, v = .slice o ∧ ∀ l, o = some l → ∀ w ∈ l, hasT E call t w
  | .opaqueArray sz, v => ∃ b : List UInt8, v = .barr b ∧ E.const sz = some b.length
  | .opaqueVarArray _, v => ∃ b, v = .bytes b
  | .string _, v => ∃ s, v = .str s
  | .ptr t, v => ∃ o, v = .ptr o ∧ ∀ w, o = some w → hasT E call t w
/-- The field of a declaration in front of `rest`. -/
def hasField (E : Env) (call : Ident → GoVal → Prop) :
    Decl → List (Ident × GoVal) → List (Ident × GoVal) → Prop
  | .void, fs, rest => fs = rest
  | .name t n, fs, rest => ∃ w, fs = (i n, w) :: rest ∧ hasD E call t w
def hasDs (E : Env) (call : Ident → GoVal → Prop) : Decls → List (Ident × GoVal) → Prop
  | .nil, fs => fs = []
  | .cons d ds, fs => ∃ rest, hasField E call d fs rest ∧ hasDs E call ds rest
def hasCs (E : Env) (call : Ident → GoVal → Prop) : Cases → List (Ident × GoVal) → Prop
  | .nil, fs => fs = []
  | .dflt d, fs => hasField E call d fs []
  | .cons _ _ d cs, fs => ∃ rest, hasField E call d fs rest ∧ hasCs E call cs rest
end

/-- A named type: a pointer type is wrapped in a struct with the field `P`. -/
def hasTop (E : Env) (call : Ident → GoVal → Prop) (t : DeclType) (v : GoVal) : Prop :=
  match t with
  | .ptr t => ∃ w, v = .struct [("P", w)] ∧ hasD E call (.ptr t) w
  | t => hasD E call t v

def hasN (E : Env) : Nat → Ident → GoVal → Prop
  | 0, _, _ => False
  | k + 1, n, v => ∃ t, E.typeOf n = some t ∧ hasTop E (hasN E k) t v

/-- `v` is a (finite) Go value of the type generated for the XDR type `n`. -/
def Typed (E : Env) (n : Ident) (v : GoVal) : Prop := ∃ k, hasN E k n v

/-! ### Meaning -/

def absU32 : GoVal → Option XVal
  | .u32 x => some (.uint x.toNat)
  | _ => none
def absI32 : GoVal → Option XVal
  | .i32 x => some (.int x.toInt)
  | _ => none
def absU64 : GoVal → Option XVal
  | .u64 x => some (.uhyper x.toNat)
  | _ => none
def absI64 : GoVal → Option XVal
  | .i64 x => some (.hyper x.toInt)
  | _ => none
def absBool : GoVal → Option XVal
  | .bool b => some (.bool b)
  | _ => none

/-- The fields after that of a declaration. -/
def skipField {α} : Decl → List α → List α
  | .void, fs => fs
  | .name _ _, fs => fs.tail

/-- The field of a declaration. -/
def keepField {α} : Decl → List α → List α
  | .void, _ => []
  | .name _ _, fs => fs.take 1

mutual
def absT (E : Env) (call : Ident → GoVal → Option XVal) : Typespec → GoVal → Option XVal
  | .int true, v => absU32 v
  | .int false, v => absI32 v
  | .hyper true, v => absU64 v
  | .hyper false, v => absI64 v
  | .bool, v => absBool v
  | .struct ds, v =>
    match v with
    | .struct fs => (absDs E call ds fs).map .struct
    | _ => none
  | .union sw cs, v =>
    match v with
    | .struct fs => do
      let d ← absDecl E call sw fs
      let a ← absCs E call d cs (skipField sw fs)
      pure (.union d a)
    | _ => none
  | .ident n, v => call n v
  | _, _ => none
def absD (E : Env) (call : Ident → GoVal → Option XVal) : DeclType → GoVal → Option XVal
  | .typespec t, v => absT E call t v
  | .array _ _, _ => none
  | .varArray t _, v =>
    match v with
    | .slice o => (mapAll (fun w => absT E call t w) (o.getD [])).map .array
    | _ => none
  | .opaqueArray _, v => match v with | .barr b => some (.opaque b) | _ => none
  | .opaqueVarArray _, v => match v with | .bytes b => some (.vopaque (b.getD [])) | _ => none
  | .string _, v => match v with | .str s => some (.string s) | _ => none
  | .ptr t, v =>
    match v with
    | .ptr none => some (.opt none)
    | .ptr (some w) => (absT E call t w).map fun x => .opt (some x)
    | _ => none
/-- The value of a declaration whose field is the first one; `void` for no declaration. -/
def absDecl (E : Env) (call : Ident → GoVal → Option XVal) :
    Decl → List (Ident × GoVal) → Option XVal
  | .void, _ => some .void
  | .name t _, fs => match fs with | (_, w) :: _ => absD E call t w | [] => none
def absDs (E : Env) (call : Ident → GoVal → Option XVal) :
    Decls → List (Ident × GoVal) → Option (List XVal)
  | .nil, _ => some []
  | .cons .void ds, fs => absDs E call ds fs
  | .cons (.name t n) ds, fs => do
    let x ← absDecl E call (.name t n) fs
    let l ← absDs E call ds fs.tail
    pure (x :: l)
/-- Only the arm that the discriminant `d` selects matters. -/
def absCs (E : Env) (call : Ident → GoVal → Option XVal) (d : XVal) :
    Cases → List (Ident × GoVal) → Option XVal
  | .nil, _ => some .void
  | .dflt b, fs => absDecl E call b fs
  | .cons l more b cs, fs =>
    if selects E d (l :: more) then absDecl E call b fs
    else absCs E call d cs (skipField b fs)
end

def absTop (E : Env) (call : Ident → GoVal → Option XVal) (t : DeclType) (v : GoVal) :
    Option XVal :=
  match t with
  | .ptr t => match v with | .struct [(_, w)] => absD E call (.ptr t) w | _ => none
  | t => absD E call t v

def absN (E : Env) : Nat → Ident → GoVal → Option XVal
  | 0, _, _ => none
  | k + 1, n, v => (E.typeOf n).bind fun t => absTop E (absN E k) t v

/-- The Go value `v` of type `n` stands for the XDR value `x`. -/
def Denotes (E : Env) (n : Ident) (v : GoVal) (x : XVal) : Prop := ∃ k, absN E k n v = some x

/-! ### Overwriting -/

def fillU32 : XVal → Option GoVal
  | .uint n => some (.u32 (UInt32.ofNat n))
  | _ => none
def fillI32 : XVal → Option GoVal
  | .int z => some (.i32 (Int32.ofInt z))
  | _ => none
def fillU64 : XVal → Option GoVal
  | .uhyper n => some (.u64 (UInt64.ofNat n))
  | _ => none
def fillI64 : XVal → Option GoVal
  | .hyper z => some (.i64 (Int64.ofInt z))
  | _ => none
def fillBool : XVal → Option GoVal
  | .bool b => some (.bool b)
  | _ => none

mutual
/-- `zt` gives Go's zero value of a type. -/
def fillT (E : Env) (zt : Typespec → Option GoVal) (call : Ident → GoVal → XVal → Option GoVal) :
    Typespec → GoVal → XVal → Option GoVal
  | .int true, _, x => fillU32 x
  | .int false, _, x => fillI32 x
  | .hyper true, _, x => fillU64 x
  | .hyper false, _, x => fillI64 x
  | .bool, _, x => fillBool x
  | .struct ds, v, x =>
    match v, x with
    | .struct fs, .struct l => (fillDs E zt call ds fs l).map .struct
    | _, _ => none
  | .union sw cs, v, x =>
    match v, x with
    | .struct fs, .union d a => do
      let rest ← fillCs E zt call d cs (skipField sw fs) a
      let fs ← fillDecl E zt call sw fs d rest
      pure (.struct fs)
    | _, _ => none
  | .ident n, v, x => call n v x
  | _, _, _ => none
def fillD (E : Env) (zt : Typespec → Option GoVal) (call : Ident → GoVal → XVal → Option GoVal) :
    DeclType → GoVal → XVal → Option GoVal
  | .typespec t, v, x => fillT E zt call t v x
  | .array _ _, _, _ => none
  | .varArray t _, _, x =>
    match x with
    | .array l => do
      let z ← zt t
      let l ← mapAll (fun x => fillT E zt call t z x) l
      pure (.slice (some l))
    | _ => none
  | .opaqueArray _, _, x => match x with | .opaque b => some (.barr b) | _ => none
  | .opaqueVarArray _, _, x => match x with | .vopaque b => some (.bytes (some b)) | _ => none
  | .string _, _, x => match x with | .string s => some (.str s) | _ => none
  | .ptr t, v, x =>
    match x with
    | .opt none => some v
    | .opt (some y) => do
      let z ← zt t
      let w ← fillT E zt call t z y
      pure (.ptr (some w))
    | _ => none
/-- Overwrite the first field, if the declaration has one, in front of `rest`. -/
def fillDecl (E : Env) (zt : Typespec → Option GoVal)
    (call : Ident → GoVal → XVal → Option GoVal) :
    Decl → List (Ident × GoVal) → XVal → List (Ident × GoVal) → Option (List (Ident × GoVal))
  | .void, _, _, rest => some rest
  | .name t _, fs, x, rest =>
    match fs with
    | (f, w) :: _ => (fillD E zt call t w x).map fun w => (f, w) :: rest
    | [] => none
def fillDs (E : Env) (zt : Typespec → Option GoVal)
    (call : Ident → GoVal → XVal → Option GoVal) :
    Decls → List (Ident × GoVal) → List XVal → Option (List (Ident × GoVal))
  | .nil, fs, _ => some fs
  | .cons .void ds, fs, l => fillDs E zt call ds fs l
  | .cons (.name t n) ds, fs, l =>
    match l with
    | x :: l => do
      let rest ← fillDs E zt call ds fs.tail l
      fillDecl E zt call (.name t n) fs x rest
    | [] => none
/-- Only the arm that the discriminant `d` selects is overwritten. -/
def fillCs (E : Env) (zt : Typespec → Option GoVal)
    (call : Ident → GoVal → XVal → Option GoVal) (d : XVal) :
    Cases → List (Ident × GoVal) → XVal → Option (List (Ident × GoVal))
  | .nil, fs, _ => some fs
  | .dflt b, fs, x => fillDecl E zt call b fs x (skipField b fs)
  | .cons l more b cs, fs, x =>
    if selects E d (l :: more) then fillDecl E zt call b fs x (skipField b fs)
    else do
      let rest ← fillCs E zt call d cs (skipField b fs) x
      pure (keepField b fs ++ rest)
end

def fillTop (E : Env) (zt : Typespec → Option GoVal) (call : Ident → GoVal → XVal → Option GoVal)
    (t : DeclType) (v : GoVal) (x : XVal) : Option GoVal :=
  match t with
  | .ptr t =>
    match v with
    | .struct [(f, w)] => (fillD E zt call (.ptr t) w x).map fun w => .struct [(f, w)]
    | _ => none
  | t => fillD E zt call t v x

def fillN (E : Env) (zt : Typespec → Option GoVal) : Nat → Ident → GoVal → XVal → Option GoVal
  | 0, _, _, _ => none
  | k + 1, n, v, x => (E.typeOf n).bind fun t => fillTop E zt (fillN E zt k) t v x

/-- Overwriting the Go value `v` of type `n` with the data of `x` gives `v'`. -/
def Fills (E : Env) (zt : Typespec → Option GoVal) (n : Ident) (v : GoVal) (x : XVal)
    (v' : GoVal) : Prop := ∃ k, fillN E zt k n v x = some v'

/-! ### No stale pointers -/

mutual
def cleanT (E : Env) (call : Ident → GoVal → Prop) : Typespec → GoVal → Prop
  | .struct ds, v => ∃ fs, v = .struct fs ∧ cleanDs E call ds fs
  | .union sw cs, v => ∃ fs, v = .struct fs ∧ cleanDecl E call sw fs ∧
      cleanCs E call cs (skipField sw fs)
  | .ident n, v => call n v
  | _, _ => True
def cleanD (E : Env) (call : Ident → GoVal → Prop) : DeclType → GoVal → Prop
  | .typespec t, v => cleanT E call t v
  | .ptr _, v => v = .ptr none
  | _, _ => True
def cleanDecl (E : Env) (call : Ident → GoVal → Prop) : Decl → List (Ident × GoVal) → Prop
  | .void, _ => True
  | .name t _, fs => ∃ f w rest, fs = (f, w) :: rest ∧ cleanD E call t w
def cleanDs (E : Env) (call : Ident → GoVal → Prop) : Decls → List (Ident × GoVal) → Prop
  | .nil, _ => True
  | .cons d ds, fs => cleanDecl E call d fs ∧ cleanDs E call ds (skipField d fs)
def cleanCs (E : Env) (call : Ident → GoVal → Prop) : Cases → List (Ident × GoVal) → Prop
  | .nil, _ => True
  | .dflt d, fs => cleanDecl E call d fs
  | .cons _ _ d cs, fs => cleanDecl E call d fs ∧ cleanCs E call cs (skipField d fs)
end

def cleanTop (E : Env) (call : Ident → GoVal → Prop) (t : DeclType) (v : GoVal) : Prop :=
  match t with
  | .ptr _ => ∃ f, v = .struct [(f, .ptr none)]
  | t => cleanD E call t v

def cleanN (E : Env) : Nat → Ident → GoVal → Prop
  | 0, _, _ => False
  | k + 1, n, v => ∃ t, E.typeOf n = some t ∧ cleanTop E (cleanN E k) t v

/-- No optional pointer of `v` outside of arrays and other pointers is set. -/
def Clean (E : Env) (n : Ident) (v : GoVal) : Prop := ∃ k, cleanN E k n v

end Verif.Spec
