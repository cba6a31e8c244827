/-
SPECIFICATION (not a model of code): XDR values, their wire images, and the values of an XDR type,
after RFC 4506.  Nothing here refers to the encoder, the generator or Go.
-/
import Verif.Spec.Bytes
import Verif.Gen.Ast

namespace Verif.Spec
open Verif.Gen

/-- An abstract XDR value. -/
inductive XVal where
  | int (z : Int)                 -- §4.1 integer, §4.3 enumeration
  | uint (n : Nat)                -- §4.2 unsigned integer
  | hyper (z : Int)               -- §4.5 hyper integer
  | uhyper (n : Nat)              -- §4.5 unsigned hyper integer
  | bool (b : Bool)               -- §4.4
  | opaque (b : List UInt8)       -- §4.9 fixed-length opaque data
  | vopaque (b : List UInt8)      -- §4.10 variable-length opaque data
  | string (b : List UInt8)       -- §4.11
  | array (l : List XVal)         -- §4.13 variable-length array
  | struct (l : List XVal)        -- §4.14
  | union (d : XVal) (a : XVal)   -- §4.15 discriminant and selected arm
  | void                          -- §4.16
  | opt (o : Option XVal)         -- §4.19 optional data

mutual
/-- The wire image of a value. -/
def enc : XVal → List UInt8
  | .int z => be 4 (twos 32 z)
  | .uint n => be 4 n
  | .hyper z => be 8 (twos 64 z)
  | .uhyper n => be 8 n
  | .bool b => be 4 (if b then 1 else 0)
  | .opaque b => opaqueFixed b
  | .vopaque b => opaqueVar b
  | .string b => opaqueVar b
  | .array l => be 4 l.length ++ encs l
  | .struct l => encs l
  | .union d a => enc d ++ enc a
  | .void => []
  | .opt none => be 4 0
  | .opt (some x) => be 4 1 ++ enc x
def encs : List XVal → List UInt8
  | [] => []
  | x :: l => enc x ++ encs l
end

mutual
/-- `Reads x b`: `b` is the wire image of `x`, except that a true boolean may be any non-zero word
and padding bytes may have any value. -/
def Reads : XVal → List UInt8 → Prop
  | .int z, b => b = be 4 (twos 32 z)
  | .uint n, b => b = be 4 n
  | .hyper z, b => b = be 8 (twos 64 z)
  | .uhyper n, b => b = be 8 n
  | .bool x, b => b.length = 4 ∧ x = decide (beVal b ≠ 0)
  | .opaque d, b => ∃ p, p.length = pad d.length ∧ b = d ++ p
  | .vopaque d, b => ∃ p, p.length = pad d.length ∧ b = be 4 d.length ++ (d ++ p)
  | .string d, b => ∃ p, p.length = pad d.length ∧ b = be 4 d.length ++ (d ++ p)
  | .array l, b => ∃ r, ReadsL l r ∧ b = be 4 l.length ++ r
  | .struct l, b => ReadsL l b
  | .union d a, b => ∃ p q, Reads d p ∧ Reads a q ∧ b = p ++ q
  | .void, b => b = []
  | .opt none, b => b = be 4 0
  | .opt (some x), b => ∃ p q, p.length = 4 ∧ beVal p ≠ 0 ∧ Reads x q ∧ b = p ++ q
def ReadsL : List XVal → List UInt8 → Prop
  | [], b => b = []
  | x :: l, b => ∃ p q, Reads x p ∧ ReadsL l q ∧ b = p ++ q
end

/-- What the names in declarations mean. -/
structure Env where
  const : Val → Option Nat
  label : Val → Option Label
  typeOf : Ident → Option DeclType

/-- Does a discriminant equal a case label? -/
def XVal.matches : XVal → Label → Bool
  | .int z, .int n => z == n
  | .uint m, .int n => m == n
  | .hyper z, .int n => z == n
  | .uhyper m, .int n => m == n
  | .bool b, .bool c => b == c
  | _, _ => false

/-- Is one of the labels equal to the discriminant? -/
def selects (E : Env) (d : XVal) (ls : List Val) : Bool :=
  ls.any fun l => (E.label l).any d.matches

/-- An optional declared maximum, resolved: `none` if a name has no meaning. -/
def Env.max (E : Env) : Option Val → Option (Option Nat)
  | none => some none
  | some v => (E.const v).map some

mutual
/-- `x` is a value of the XDR type `t`; `call` is the meaning of type names.  Enumerations written
inline, floating point types and fixed-length arrays of other types than opaque are not covered (the
generator does not support them). -/
def memT (E : Env) (call : Ident → XVal → Prop) : Typespec → XVal → Prop
  | .int false, x => ∃ z : Int, -2147483648 ≤ z ∧ z < 2147483648 ∧ x = .int z
  | .int true, x => ∃ n : Nat, n < 4294967296 ∧ x = .uint n
  | .hyper false, x => ∃ z : Int, -9223372036854775808 ≤ z ∧ z < 9223372036854775808 ∧ x = .hyper z
  | .hyper true, x => ∃ n : Nat, n < 18446744073709551616 ∧ x = .uhyper n
  | .bool, x => ∃ b, x = .bool b
  | .struct ds, x => ∃ l, memDs E call ds l ∧ x = .struct l
  | .union sw cs, x => ∃ d a, memDisc E call sw d ∧ memCs E call d cs a ∧ x = .union d a
  | .ident n, x => call n x
  | _, _ => False
def memD (E : Env) (call : Ident → XVal → Prop) : DeclType → XVal → Prop
  | .typespec t, x => memT E call t x
  | .array _ _, _ => False
  | .varArray t m, x => ∃ l mx, E.max m = some mx ∧ withinMax mx l.length ∧
      (∀ y ∈ l, memT E call t y) ∧ x = .array l
  | .opaqueArray sz, x => ∃ b : List UInt8, E.const sz = some b.length ∧ x = .opaque b
  | .opaqueVarArray m, x => ∃ (b : List UInt8) (mx : Option Nat), E.max m = some mx ∧
      withinMax mx b.length ∧ x = .vopaque b
  | .string m, x => ∃ (b : List UInt8) (mx : Option Nat), E.max m = some mx ∧
      withinMax mx b.length ∧ x = .string b
  | .ptr t, x => ∃ o, (∀ y, o = some y → memT E call t y) ∧ x = .opt o
/-- The discriminant of a union. -/
def memDisc (E : Env) (call : Ident → XVal → Prop) : Decl → XVal → Prop
  | .void, _ => False
  | .name t _, d => memD E call t d
/-- The body of an arm. -/
def memArm (E : Env) (call : Ident → XVal → Prop) : Decl → XVal → Prop
  | .void, a => a = .void
  | .name t _, a => memD E call t a
/-- The components of a structure. -/
def memDs (E : Env) (call : Ident → XVal → Prop) : Decls → List XVal → Prop
  | .nil, l => l = []
  | .cons .void ds, l => memDs E call ds l
  | .cons (.name t _) ds, l => ∃ x l', memD E call t x ∧ memDs E call ds l' ∧ l = x :: l'
/-- The arm that discriminant `d` selects; no arm at all counts as void. -/
def memCs (E : Env) (call : Ident → XVal → Prop) (d : XVal) : Cases → XVal → Prop
  | .nil, a => a = .void
  | .dflt b, a => memArm E call b a
  | .cons l more b cs, a =>
    if selects E d (l :: more) then memArm E call b a else memCs E call d cs a
end

/-- Values of a named type, with at most `k` nested uses of names. -/
def memN (E : Env) : Nat → Ident → XVal → Prop
  | 0, _, _ => False
  | k + 1, n, x => ∃ t, E.typeOf n = some t ∧ memD E (memN E k) t x

/-- `x` is a value of the named type `n`. -/
def IsValue (E : Env) (n : Ident) (x : XVal) : Prop := ∃ k, memN E k n x

/-! ### The meaning of names in a specification -/

/-- The constants of a specification: `const` definitions and enumerators. -/
def specConsts : Gen.Spec → List (Ident × Val)
  | [] => []
  | .const n v :: s => (n, .lit v) :: specConsts s
  | .enum _ items :: s => items.map (fun it => (it.name, it.val)) ++ specConsts s
  | _ :: s => specConsts s

/-- The type definitions of a specification.  `enum` types are integers, unsigned if the user asks
for that with `-unsigned-enum`. -/
def specTypes (unsignedEnum : Bool) : Gen.Spec → List (Ident × DeclType)
  | [] => []
  | .typedef (.name t n) :: s => (n, t) :: specTypes unsignedEnum s
  | .enum n _ :: s => (n, .typespec (.int unsignedEnum)) :: specTypes unsignedEnum s
  | .struct n ds :: s => (n, .typespec (.struct ds)) :: specTypes unsignedEnum s
  | .union n sw cs :: s => (n, .typespec (.union sw cs)) :: specTypes unsignedEnum s
  | _ :: s => specTypes unsignedEnum s

/-- Value of a constant; constants may be defined by other constants, `fuel` bounds the chain. -/
def resolve (cs : List (Ident × Val)) : Nat → Val → Option Nat
  | _, .lit n => some n
  | 0, .ident _ => none
  | k + 1, .ident s => (cs.lookup s).bind (resolve cs k)

def specConst (s : Gen.Spec) (v : Val) : Option Nat :=
  resolve (specConsts s) ((specConsts s).length + 1) v

def specLabel (s : Gen.Spec) : Val → Option Label
  | .ident "TRUE" => some (.bool true)
  | .ident "FALSE" => some (.bool false)
  | v => (specConst s v).map .int

def envOf (unsignedEnum : Bool) (s : Gen.Spec) : Env :=
  { const := specConst s
    label := specLabel s
    typeOf := fun n => (specTypes unsignedEnum s).lookup n }

end Verif.Spec
