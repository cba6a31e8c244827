/-
The specifications that the generator supports: a decidable condition, stated on the specification
and on the Go package generated for it (what `go build` checks about names).
-/
import Verif.Spec.GoRep
import Verif.Gen.Compile

namespace Verif.Gen
open Verif.Spec

/-- Kinds of union discriminants. -/
inductive Kind where
  | u32 | i32 | u64 | i64 | bool
  deriving DecidableEq, Repr

/-- The integer or boolean kind of a discriminant type, through at most `k` names. -/
def kindOf (E : Env) : Nat → DeclType → Option Kind
  | _, .typespec (.int true) => some .u32
  | _, .typespec (.int false) => some .i32
  | _, .typespec (.hyper true) => some .u64
  | _, .typespec (.hyper false) => some .i64
  | _, .typespec .bool => some .bool
  | k + 1, .typespec (.ident n) => (E.typeOf n).bind (kindOf E k)
  | _, _ => none

/-- A case label fits the kind of the discriminant. -/
def labelFits : Kind → Label → Bool
  | .bool, .bool _ => true
  | .bool, .int _ => false
  | _, .int _ => true
  | _, .bool _ => false

def Decl.kindOf (E : Env) (k : Nat) : Decl → Option Kind
  | .void => none
  | .name t _ => Verif.Gen.kindOf E k t

mutual
/-- Supported declarations; `inArr` says that the declaration is the inline element type of a
variable-length array, `K` bounds chains of names. -/
def Typespec.wf (E : Env) (K : Nat) (inArr : Bool) : Typespec → Bool
  | .int _ => true
  | .hyper _ => true
  | .bool => true
  | .struct ds => decide ds.names.Nodup && ds.wf E K inArr
  | .union sw cs => decide (sw.names ++ cs.names).Nodup && sw.wf E K inArr &&
      (match sw.kindOf E K with
       | some κ => cs.wf E K inArr κ
       | none => false)
  | .ident n => (E.typeOf n).isSome
  | .float => false
  | .double => false
  | .quadruple => false
  | .enum _ => false
def DeclType.wf (E : Env) (K : Nat) (inArr : Bool) : DeclType → Bool
  | .typespec t => t.wf E K inArr
  | .array _ _ => false
  | .varArray t m => !inArr && t.wf E K true && (E.max m).isSome
  | .opaqueArray sz => (E.const sz).isSome
  | .opaqueVarArray m => (E.max m).isSome
  | .string m => (E.max m).isSome
  | .ptr t => t.wf E K inArr
def Decl.wf (E : Env) (K : Nat) (inArr : Bool) : Decl → Bool
  | .void => true
  | .name t _ => t.wf E K inArr
def Decls.wf (E : Env) (K : Nat) (inArr : Bool) : Decls → Bool
  | .nil => true
  | .cons d ds => d.wf E K inArr && ds.wf E K inArr
def Cases.wf (E : Env) (K : Nat) (inArr : Bool) (κ : Kind) : Cases → Bool
  | .nil => true
  | .dflt d => d.wf E K inArr
  | .cons l more d cs => ((l :: more).all fun l => (E.label l).any (labelFits κ)) &&
      d.wf E K inArr && cs.wf E K inArr κ
end

mutual
theorem Typespec.ok_of_wf {E : Env} {K : Nat} {inArr : Bool} :
    ∀ t : Typespec, t.wf E K inArr = true → t.ok inArr = true
  | .int _, _ => by simp only [Typespec.ok]
  | .hyper _, _ => by simp only [Typespec.ok]
  | .bool, _ => by simp only [Typespec.ok]
  | .struct ds, h => by
    simp only [Typespec.wf, Typespec.ok, Bool.and_eq_true] at h ⊢
    exact ⟨h.1, Decls.ok_of_wf ds h.2⟩
  | .union sw cs, h => by
    simp only [Typespec.wf, Typespec.ok, Bool.and_eq_true] at h ⊢
    refine ⟨⟨h.1.1, Decl.ok_of_wf sw h.1.2⟩, ?_⟩
    cases hk : sw.kindOf E K with
    | none => rw [hk] at h; simp at h
    | some κ => rw [hk] at h; exact Cases.ok_of_wf κ cs h.2
  | .ident _, _ => by simp only [Typespec.ok]
  | .float, _ => by simp only [Typespec.ok]
  | .double, _ => by simp only [Typespec.ok]
  | .quadruple, _ => by simp only [Typespec.ok]
  | .enum _, _ => by simp only [Typespec.ok]
theorem DeclType.ok_of_wf {E : Env} {K : Nat} {inArr : Bool} :
    ∀ t : DeclType, t.wf E K inArr = true → t.ok inArr = true
  | .typespec t, h => by
    simp only [DeclType.wf, DeclType.ok] at h ⊢; exact Typespec.ok_of_wf t h
  | .array _ _, h => by simp [DeclType.wf] at h
  | .varArray t m, h => by
    simp only [DeclType.wf, DeclType.ok, Bool.and_eq_true] at h ⊢
    exact ⟨h.1.1, Typespec.ok_of_wf t h.1.2⟩
  | .opaqueArray _, _ => by simp only [DeclType.ok]
  | .opaqueVarArray _, _ => by simp only [DeclType.ok]
  | .string _, _ => by simp only [DeclType.ok]
  | .ptr t, h => by
    simp only [DeclType.wf, DeclType.ok] at h ⊢; exact Typespec.ok_of_wf t h
theorem Decl.ok_of_wf {E : Env} {K : Nat} {inArr : Bool} :
    ∀ t : Decl, t.wf E K inArr = true → t.ok inArr = true
  | .void, _ => by simp only [Decl.ok]
  | .name t _, h => by
    simp only [Decl.wf, Decl.ok] at h ⊢; exact DeclType.ok_of_wf t h
theorem Decls.ok_of_wf {E : Env} {K : Nat} {inArr : Bool} :
    ∀ t : Decls, t.wf E K inArr = true → t.ok inArr = true
  | .nil, _ => by simp only [Decls.ok]
  | .cons d ds, h => by
    simp only [Decls.wf, Decls.ok, Bool.and_eq_true] at h ⊢
    exact ⟨Decl.ok_of_wf d h.1, Decls.ok_of_wf ds h.2⟩
theorem Cases.ok_of_wf {E : Env} {K : Nat} {inArr : Bool} (κ : Kind) :
    ∀ t : Cases, t.wf E K inArr κ = true → t.ok inArr = true
  | .nil, _ => by simp only [Cases.ok]
  | .dflt d, h => by
    simp only [Cases.wf, Cases.ok] at h ⊢; exact Decl.ok_of_wf d h
  | .cons l more d cs, h => by
    simp only [Cases.wf, Cases.ok, Bool.and_eq_true] at h ⊢
    exact ⟨Decl.ok_of_wf d h.1.2, Cases.ok_of_wf κ cs h.2⟩
end

/-- `goType` of supported declarations is defined. -/
structure Link (g : GoProg) (E : Env) (defs : Ident → Option DeclType) (K : Nat) : Prop where
  /-- constants used as sizes mean the same in the Go package -/
  const : ∀ v c, E.const v = some c → g.const v = some c
  /-- constants used as labels mean the same in the Go package -/
  label : ∀ v l, E.label v = some l → g.label (iVal v) = some l
  /-- type names mean the same -/
  typeOf : ∀ n t, E.typeOf n = some t → defs (i n) = some t
  /-- every definition is supported -/
  wf : ∀ n t, E.typeOf n = some t → t.wf E K false = true
  /-- Go type declared for a name -/
  goType : ∀ n t, E.typeOf n = some t → ∃ gt, t.goType = some gt ∧
    g.types.lookup (i n) = some (match t with | .ptr _ => .struct (.cons "P" gt .nil) | _ => gt)
  /-- types have finite size -/
  zero : ∀ n t, E.typeOf n = some t → (g.zeroNamed (i n)).isSome = true

end Verif.Gen
