/-
A decidable condition on specifications under which the generated package compiles (`Props.Typing`):
what `supported` asks for, and the rules of Go about names, constant types and ranges that the
generator leaves to the Go compiler.
-/
import Verif.Gen.Supported
import Verif.Spec.GoStatic

namespace Verif.Gen
open Verif.Spec

/-! ### Names -/

/-- The Go names that a definition declares. -/
def defnNames : Defn → List Ident
  | .const n _ => [n]
  | .typedef .void => []
  | .typedef (.name _ n) => [i n]
  | .enum n items => i n :: items.map fun it => i it.name
  | .struct n _ => [i n]
  | .union n _ _ => [i n]
  | .program p => i p.name :: p.vers.flatMap fun v =>
      i v.name :: (v.calls.map fun c => i c.name) ++
        [versName p v "_handler", versName p v "_handler_wrapper", versName p v "_regs"]

/-- Names that the generated package cannot use for its own declarations: predeclared identifiers,
names with a special meaning, and the names of parameters and variables in generated functions.  All
but `_` and `__arraysz` start with a small letter; names made by `i` do not, except that `TRUE` and
`FALSE` become `true` and `false`. -/
def badNames : List Ident :=
  ["", "_", "__arraysz", "i", "opted", "v", "xs", "w", "h", "args", "res", "err", "in", "out", "init",
   "main"] ++ predeclared

/-! ### Constants -/

/-- The Go type of a name used as a constant: what `-const-type` says for `const` definitions, the
enumeration for enumerators. -/
def ctyName (fl : Flags) : Spec → Ident → Option CTy
  | [], _ => none
  | .const m _ :: s, n =>
    if n = m then (if fl.constType = "" then some .untyped else basicTy fl.constType)
    else ctyName fl s n
  | .enum e items :: s, n =>
    if n ∈ items.map (·.name) then some (.typed (.named (i e))) else ctyName fl s n
  | _ :: s, n => ctyName fl s n

def ctyVal (fl : Flags) (s : Spec) : Val → Option CTy
  | .lit _ => some .untyped
  | .ident n => ctyName fl s n

/-- Constant `v` can be used as a value of type `gt`, which has `m` non-negative values: untyped and
in range, or of that very type. -/
def fits (fl : Flags) (s : Spec) (gt : GoType) (m : Nat) (v : Val) : Bool :=
  match ctyVal fl s v with
  | some .untyped => (specConst s v).any fun n => decide (n < m)
  | some (.typed t) => decide (t = gt)
  | _ => false

/-- Number of non-negative values of a discriminant; `none` for booleans. -/
def Kind.max : Kind → Option Nat
  | .u32 => some (2 ^ 32)
  | .i32 => some (2 ^ 31)
  | .u64 => some (2 ^ 64)
  | .i64 => some (2 ^ 63)
  | .bool => none

/-! ### Declarations -/

def Cases.labels : Cases → List Val
  | .nil => []
  | .dflt _ => []
  | .cons l more _ cs => l :: more ++ cs.labels

/-- The labels of a union with a discriminant of type `t`: each fits the type, no two are equal. -/
def labelsOk (fl : Flags) (s : Spec) (t : DeclType) (ls : List Val) : Bool :=
  decide (ls.map (specLabel s)).Nodup &&
  match t.goType, kindOf (envOf fl.unsignedEnum s) (nameBound fl s) t with
  | some gt, some κ =>
    match κ.max with
    | some m => ls.all (fits fl s gt m)
    | none => true
  | _, _ => false

/-- A constant in the range of `int`. -/
def inInt (s : Spec) (v : Val) : Bool := (specConst s v).any fun n => decide (n < 2 ^ 63)

mutual
def Typespec.chk (fl : Flags) (s : Spec) : Typespec → Bool
  | .struct ds => ds.chk fl s
  | .union sw cs => sw.chk fl s && cs.chk fl s &&
      match sw with
      | .void => false
      | .name t _ => labelsOk fl s t cs.labels
  | _ => true
/-- Maximum sizes are compared with a `uint32`; other sizes are converted to `int`. -/
def DeclType.chk (fl : Flags) (s : Spec) : DeclType → Bool
  | .typespec t => t.chk fl s
  | .array _ _ => false
  | .varArray t m => t.chk fl s && m.all (fits fl s .uint32 (2 ^ 32))
  | .opaqueArray sz => inInt s sz
  | .opaqueVarArray m => m.all (inInt s)
  | .string m => m.all (inInt s)
  | .ptr t => t.chk fl s
def Decl.chk (fl : Flags) (s : Spec) : Decl → Bool
  | .void => true
  | .name t n => decide (i n ≠ "_") && t.chk fl s
def Decls.chk (fl : Flags) (s : Spec) : Decls → Bool
  | .nil => true
  | .cons d ds => d.chk fl s && ds.chk fl s
def Cases.chk (fl : Flags) (s : Spec) : Cases → Bool
  | .nil => true
  | .dflt d => d.chk fl s
  | .cons _ _ d cs => d.chk fl s && cs.chk fl s
end

/-! ### Definitions -/

/-- Arguments and results are declared types. -/
def namedOpt (fl : Flags) (s : Spec) : TypespecOpt → Bool
  | none => true
  | some (.ident n) => ((envOf fl.unsignedEnum s).typeOf n).isSome
  | some _ => false

/-- A type with a method `Xdr` cannot have a field of that name. -/
def noXdr : DeclType → Bool
  | .typespec (.struct ds) => decide ("Xdr" ∉ ds.names)
  | .typespec (.union sw cs) => decide ("Xdr" ∉ sw.names ++ cs.names)
  | _ => true

def Defn.chk (fl : Flags) (s : Spec) : Defn → Bool
  | .const _ v =>
    if fl.constType = "" then decide (v < 2 ^ 512)
    else match basicTy fl.constType with
      | some (.typed t) => (intMax t).any fun m => decide (v < m)
      | some (.other n) => (otherMax n).any fun m => decide (v < m)
      | _ => false
  | .typedef .void => true
  | .typedef (.name t _) => t.chk fl s && noXdr t
  | .enum n items => items.all fun it =>
      ((specConst s it.val).any fun c => decide (c < if fl.unsignedEnum then 2 ^ 32 else 2 ^ 31)) &&
      decide (ctyVal fl s it.val = some .untyped ∨ ctyVal fl s it.val = some (.typed (.named (i n))))
  | .struct _ ds => ds.chk fl s && noXdr (.typespec (.struct ds))
  | .union _ sw cs => (Typespec.union sw cs).chk fl s && noXdr (.typespec (.union sw cs))
  | .program p => decide (p.id < 2 ^ 32) && p.vers.all fun v =>
      decide (v.id < 2 ^ 32) && decide (v.calls ≠ []) && v.calls.all fun c =>
        decide (c.id < 2 ^ 32) && namedOpt fl s c.arg && namedOpt fl s c.res

/-- Does a definition make use of package `xdr`? -/
def Defn.usesXdr : Defn → Bool
  | .const _ _ => false
  | .typedef .void => false
  | .program p => decide (p.vers ≠ [])
  | _ => true

/-- The condition. -/
def compilable (fl : Flags) (s : Spec) : Bool :=
  supported fl s &&
  decide (s.flatMap defnNames).Nodup &&
  ((s.flatMap defnNames).all fun n => decide (n ∉ badNames)) &&
  s.all (Defn.chk fl s) &&
  s.any Defn.usesXdr

end Verif.Gen
