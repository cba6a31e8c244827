/-
The generated code without pointers: what the `Xdr` method of a type does to the value it points
to, as a function of the AST.  This is not a second model of the program but an intermediate step:
`Verif.Gen.Compile` proves that running the generated code (`execs (goXdr ..)`) is this function.
-/
import Verif.Gen.Out

namespace Verif.Gen
open Verif.Xdr

/-- Does one of the labels of an arm match?  The labels are tried in order. -/
def matchLabels (g : GoProg) (d : GoVal) : List Val → Res Bool
  | [] => .ok false
  | l :: ls => do
    let lab ← orStuck (g.label (iVal l))
    let m ← orStuck (matchLabel d lab)
    if m then pure true else matchLabels g d ls

/-- The first `n` elements in turn. -/
def codecElems (f : XdrState → GoVal → Res (XdrState × GoVal)) :
    Nat → XdrState → List GoVal → Res (XdrState × List GoVal)
  | 0, xs, l => .ok (xs, l)
  | _ + 1, _, [] => .error .stuck
  | n + 1, xs, w :: l => do
    let (xs, w) ← f xs w
    let (xs, l) ← codecElems f n xs l
    pure (xs, w :: l)

/-- Variable-length arrays (generated by out.go:72-90). -/
def codecVar (max : Option Nat) (z : Option GoVal) (f : XdrState → GoVal → Res (XdrState × GoVal))
    (xs : XdrState) : GoVal → Res (XdrState × GoVal)
  | .slice o =>
    let (xs, n) := encodingSetSize xs 0 (o.getD []).length
    let (xs, n) := xdrU32 xs n
    if max.any (fun m => n.toNat > m) then .ok (setError xs "array too large", .slice o)
    else if decoding xs then do
      let z ← orStuck z
      let (xs, l) ← codecElems f n.toNat xs (List.replicate n.toNat z)
      pure (xs, .slice (some l))
    else
      match o with
      | some l => do
        let (xs, l) ← codecElems f n.toNat xs l
        pure (xs, .slice (some l))
      | none => if n = 0 then pure (xs, .slice none) else .error .stuck
  | _ => .error .stuck

/-- Optional data, encoding half (out.go:146-152). -/
def codecPtrEnc (f : XdrState → GoVal → Res (XdrState × GoVal)) (xs : XdrState) (o : Option GoVal) :
    Res (XdrState × Option GoVal) :=
  if encoding xs then
    let (xs, b) := xdrBool xs o.isSome
    if b then
      match o with
      | some w => do
        let (xs, w) ← f xs w
        pure (xs, some w)
      | none => .error .stuck
    else pure (xs, o)
  else pure (xs, o)

/-- Optional data, decoding half (out.go:154-161). -/
def codecPtrDec (z : Option GoVal) (f : XdrState → GoVal → Res (XdrState × GoVal)) (xs : XdrState)
    (o : Option GoVal) : Res (XdrState × Option GoVal) :=
  if decoding xs then
    let (xs, b) := xdrBool xs false
    if b then do
      let z ← orStuck z
      let (xs, w) ← f xs z
      pure (xs, some w)
    else pure (xs, o)
  else pure (xs, o)

/-- Optional data (generated by out.go:144-163). -/
def codecPtr (z : Option GoVal) (f : XdrState → GoVal → Res (XdrState × GoVal))
    (xs : XdrState) : GoVal → Res (XdrState × GoVal)
  | .ptr o => do
    let (xs, o) ← codecPtrEnc f xs o
    let (xs, o) ← codecPtrDec z f xs o
    pure (xs, .ptr o)
  | _ => .error .stuck

mutual
def Typespec.codec (g : GoProg) (call : Call) : Typespec → XdrState → GoVal → Res (XdrState × GoVal)
  | .int true, xs, v => libU32 xs v
  | .int false, xs, v => libS32 xs v
  | .hyper true, xs, v => libU64 xs v
  | .hyper false, xs, v => libS64 xs v
  | .float, _, _ => .error .stuck
  | .double, _, _ => .error .stuck
  | .quadruple, _, _ => .error .stuck
  | .bool, xs, v => libBool xs v
  | .enum _, _, _ => .error .stuck
  | .struct ds, xs, v =>
    match v with
    | .struct fs => do
      let (xs, fs) ← ds.codec g call xs fs
      pure (xs, .struct fs)
    | _ => .error .stuck
  | .union sw cs, xs, v =>
    match sw, v with
    | .name t n, .struct ((f, d) :: arms) =>
      if f = i n then do
        let (xs, d) ← t.codec g call xs d
        let (xs, arms) ← cs.codec g call d xs arms
        pure (xs, .struct ((f, d) :: arms))
      else .error .stuck
    | _, _ => .error .stuck
  | .ident n, xs, v => call (i n) xs v
def DeclType.codec (g : GoProg) (call : Call) : DeclType → XdrState → GoVal → Res (XdrState × GoVal)
  | .typespec t, xs, v => t.codec g call xs v
  | .array _ _, _, _ => .error .stuck
  | .varArray t none, xs, v =>
    codecVar none (t.goType.bind g.zero) (fun xs v => t.codec g call xs v) xs v
  | .varArray t (some m), xs, v => do
    let m ← orStuck (g.const m)
    codecVar (some m) (t.goType.bind g.zero) (fun xs v => t.codec g call xs v) xs v
  | .opaqueArray _, xs, v => libArray xs v
  | .opaqueVarArray m, xs, v => do
    let m ← orStuck (maxOf g.const m)
    libVarArray m xs v
  | .string m, xs, v => do
    let m ← orStuck (maxOf g.const m)
    libString m xs v
  | .ptr t, xs, v =>
    codecPtr (t.goType.bind g.zero) (fun xs v => t.codec g call xs v) xs v
/-- A declaration, on the list of fields starting with its own. -/
def Decl.codec (g : GoProg) (call : Call) : Decl → XdrState → List (Ident × GoVal) →
    Res (XdrState × List (Ident × GoVal))
  | .void, xs, fs => .ok (xs, fs)
  | .name t n, xs, (f, w) :: fs =>
    if f = i n then do
      let (xs, w) ← t.codec g call xs w
      pure (xs, (f, w) :: fs)
    else .error .stuck
  | .name _ _, _, [] => .error .stuck
def Decls.codec (g : GoProg) (call : Call) : Decls → XdrState → List (Ident × GoVal) →
    Res (XdrState × List (Ident × GoVal))
  | .nil, xs, fs => .ok (xs, fs)
  | .cons .void ds, xs, fs => ds.codec g call xs fs
  | .cons (.name t n) ds, xs, (f, w) :: fs =>
    if f = i n then do
      let (xs, w) ← t.codec g call xs w
      let (xs, fs) ← ds.codec g call xs fs
      pure (xs, (f, w) :: fs)
    else .error .stuck
  | .cons (.name _ _) _, _, [] => .error .stuck
/-- The arms of a union whose discriminant is `d`, on the list of arm fields. -/
def Cases.codec (g : GoProg) (call : Call) (d : GoVal) : Cases → XdrState →
    List (Ident × GoVal) → Res (XdrState × List (Ident × GoVal))
  | .nil, xs, fs => .ok (xs, fs)
  | .dflt b, xs, fs => b.codec g call xs fs
  | .cons l more b cs, xs, fs => do
    if ← matchLabels g d (l :: more) then b.codec g call xs fs
    else
      match b, fs with
      | .void, fs => cs.codec g call d xs fs
      | .name _ n, (f, w) :: fs =>
        if f = i n then do
          let (xs, fs) ← cs.codec g call d xs fs
          pure (xs, (f, w) :: fs)
        else .error .stuck
      | .name _ _, [] => .error .stuck
end

end Verif.Gen
