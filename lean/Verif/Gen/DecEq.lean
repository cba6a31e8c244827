/-
Decidable equality of Go values and of XDR values (used in examples and concrete witnesses only).
-/
import Verif.Gen.Go
import Verif.Spec.Rfc4506

namespace Verif.Gen
open Verif.Spec

mutual
def GoVal.beq : GoVal → GoVal → Bool
  | .u32 a, .u32 b => decide (a = b)
  | .i32 a, .i32 b => decide (a = b)
  | .u64 a, .u64 b => decide (a = b)
  | .i64 a, .i64 b => decide (a = b)
  | .bool a, .bool b => decide (a = b)
  | .f32, .f32 => true
  | .f64, .f64 => true
  | .str a, .str b => decide (a = b)
  | .bytes a, .bytes b => decide (a = b)
  | .barr a, .barr b => decide (a = b)
  | .arr a, .arr b => GoVal.beqL a b
  | .slice none, .slice none => true
  | .slice (some a), .slice (some b) => GoVal.beqL a b
  | .ptr none, .ptr none => true
  | .ptr (some a), .ptr (some b) => GoVal.beq a b
  | .struct a, .struct b => GoVal.beqF a b
  | _, _ => false
def GoVal.beqL : List GoVal → List GoVal → Bool
  | [], [] => true
  | a :: l, b :: m => GoVal.beq a b && GoVal.beqL l m
  | _, _ => false
def GoVal.beqF : List (Ident × GoVal) → List (Ident × GoVal) → Bool
  | [], [] => true
  | (n, a) :: l, (m, b) :: k => decide (n = m) && (GoVal.beq a b && GoVal.beqF l k)
  | _, _ => false
end

mutual
theorem GoVal.beq_eq : ∀ a b : GoVal, GoVal.beq a b = true → a = b
  | .u32 a, b, h => by cases b <;> simp [GoVal.beq] at h ⊢; exact h
  | .i32 a, b, h => by cases b <;> simp [GoVal.beq] at h ⊢; exact h
  | .u64 a, b, h => by cases b <;> simp [GoVal.beq] at h ⊢; exact h
  | .i64 a, b, h => by cases b <;> simp [GoVal.beq] at h ⊢; exact h
  | .bool a, b, h => by cases b <;> simp [GoVal.beq] at h ⊢; exact h
  | .f32, b, h => by cases b <;> simp [GoVal.beq] at h ⊢
  | .f64, b, h => by cases b <;> simp [GoVal.beq] at h ⊢
  | .str a, b, h => by cases b <;> simp [GoVal.beq] at h ⊢; exact h
  | .bytes a, b, h => by cases b <;> simp [GoVal.beq] at h ⊢; exact h
  | .barr a, b, h => by cases b <;> simp [GoVal.beq] at h ⊢; exact h
  | .arr a, b, h => by cases b <;> simp [GoVal.beq] at h ⊢; exact GoVal.beqL_eq a _ h
  | .slice none, b, h => by
    cases b with
    | slice o => cases o with
      | none => rfl
      | some l => simp [GoVal.beq] at h
    | _ => simp [GoVal.beq] at h
  | .slice (some a), b, h => by
    cases b with
    | slice o => cases o with
      | none => simp [GoVal.beq] at h
      | some l => simp only [GoVal.beq] at h; rw [GoVal.beqL_eq a l h]
    | _ => simp [GoVal.beq] at h
  | .ptr none, b, h => by
    cases b with
    | ptr o => cases o with
      | none => rfl
      | some l => simp [GoVal.beq] at h
    | _ => simp [GoVal.beq] at h
  | .ptr (some a), b, h => by
    cases b with
    | ptr o => cases o with
      | none => simp [GoVal.beq] at h
      | some l => simp only [GoVal.beq] at h; rw [GoVal.beq_eq a l h]
    | _ => simp [GoVal.beq] at h
  | .struct a, b, h => by cases b <;> simp [GoVal.beq] at h ⊢; exact GoVal.beqF_eq a _ h
theorem GoVal.beqL_eq : ∀ a b : List GoVal, GoVal.beqL a b = true → a = b
  | [], b, h => by cases b <;> simp [GoVal.beqL] at h ⊢
  | a :: l, b, h => by
    cases b with
    | nil => simp [GoVal.beqL] at h
    | cons b m =>
      simp only [GoVal.beqL, Bool.and_eq_true] at h
      rw [GoVal.beq_eq a b h.1, GoVal.beqL_eq l m h.2]
theorem GoVal.beqF_eq : ∀ a b : List (Ident × GoVal), GoVal.beqF a b = true → a = b
  | [], b, h => by cases b <;> simp [GoVal.beqF] at h ⊢
  | (n, a) :: l, b, h => by
    cases b with
    | nil => simp [GoVal.beqF] at h
    | cons b m =>
      obtain ⟨k, b⟩ := b
      simp only [GoVal.beqF, Bool.and_eq_true, decide_eq_true_eq] at h
      rw [h.1, GoVal.beq_eq a b h.2.1, GoVal.beqF_eq l m h.2.2]
end

mutual
theorem GoVal.beq_refl : ∀ a : GoVal, GoVal.beq a a = true
  | .u32 _ => by simp [GoVal.beq]
  | .i32 _ => by simp [GoVal.beq]
  | .u64 _ => by simp [GoVal.beq]
  | .i64 _ => by simp [GoVal.beq]
  | .bool _ => by simp [GoVal.beq]
  | .f32 => by simp [GoVal.beq]
  | .f64 => by simp [GoVal.beq]
  | .str _ => by simp [GoVal.beq]
  | .bytes _ => by simp [GoVal.beq]
  | .barr _ => by simp [GoVal.beq]
  | .arr a => by simp only [GoVal.beq]; exact GoVal.beqL_refl a
  | .slice none => by simp [GoVal.beq]
  | .slice (some a) => by simp only [GoVal.beq]; exact GoVal.beqL_refl a
  | .ptr none => by simp [GoVal.beq]
  | .ptr (some a) => by simp only [GoVal.beq]; exact GoVal.beq_refl a
  | .struct a => by simp only [GoVal.beq]; exact GoVal.beqF_refl a
theorem GoVal.beqL_refl : ∀ a : List GoVal, GoVal.beqL a a = true
  | [] => by simp [GoVal.beqL]
  | a :: l => by simp [GoVal.beqL, GoVal.beq_refl a, GoVal.beqL_refl l]
theorem GoVal.beqF_refl : ∀ a : List (Ident × GoVal), GoVal.beqF a a = true
  | [] => by simp [GoVal.beqF]
  | (n, a) :: l => by simp [GoVal.beqF, GoVal.beq_refl a, GoVal.beqF_refl l]
end

instance : DecidableEq GoVal := fun a b =>
  if h : GoVal.beq a b = true then isTrue (GoVal.beq_eq a b h)
  else isFalse (fun he => h (he ▸ GoVal.beq_refl a))

mutual
def XVal.beq : XVal → XVal → Bool
  | .int a, .int b => decide (a = b)
  | .uint a, .uint b => decide (a = b)
  | .hyper a, .hyper b => decide (a = b)
  | .uhyper a, .uhyper b => decide (a = b)
  | .bool a, .bool b => decide (a = b)
  | .opaque a, .opaque b => decide (a = b)
  | .vopaque a, .vopaque b => decide (a = b)
  | .string a, .string b => decide (a = b)
  | .array a, .array b => XVal.beqL a b
  | .struct a, .struct b => XVal.beqL a b
  | .union a c, .union b d => XVal.beq a b && XVal.beq c d
  | .void, .void => true
  | .opt none, .opt none => true
  | .opt (some a), .opt (some b) => XVal.beq a b
  | _, _ => false
def XVal.beqL : List XVal → List XVal → Bool
  | [], [] => true
  | a :: l, b :: m => XVal.beq a b && XVal.beqL l m
  | _, _ => false
end

mutual
theorem XVal.beq_eq : ∀ a b : XVal, XVal.beq a b = true → a = b
  | .int a, b, h => by cases b <;> simp [XVal.beq] at h ⊢; exact h
  | .uint a, b, h => by cases b <;> simp [XVal.beq] at h ⊢; exact h
  | .hyper a, b, h => by cases b <;> simp [XVal.beq] at h ⊢; exact h
  | .uhyper a, b, h => by cases b <;> simp [XVal.beq] at h ⊢; exact h
  | .bool a, b, h => by cases b <;> simp [XVal.beq] at h ⊢; exact h
  | .opaque a, b, h => by cases b <;> simp [XVal.beq] at h ⊢; exact h
  | .vopaque a, b, h => by cases b <;> simp [XVal.beq] at h ⊢; exact h
  | .string a, b, h => by cases b <;> simp [XVal.beq] at h ⊢; exact h
  | .array a, b, h => by cases b <;> simp [XVal.beq] at h ⊢; exact XVal.beqL_eq a _ h
  | .struct a, b, h => by cases b <;> simp [XVal.beq] at h ⊢; exact XVal.beqL_eq a _ h
  | .union a c, b, h => by
    cases b <;> simp [XVal.beq] at h ⊢; exact ⟨XVal.beq_eq a _ h.1, XVal.beq_eq c _ h.2⟩
  | .void, b, h => by cases b <;> simp [XVal.beq] at h ⊢
  | .opt none, b, h => by
    cases b with
    | opt o => cases o with
      | none => rfl
      | some l => simp [XVal.beq] at h
    | _ => simp [XVal.beq] at h
  | .opt (some a), b, h => by
    cases b with
    | opt o => cases o with
      | none => simp [XVal.beq] at h
      | some l => simp only [XVal.beq] at h; rw [XVal.beq_eq a l h]
    | _ => simp [XVal.beq] at h
theorem XVal.beqL_eq : ∀ a b : List XVal, XVal.beqL a b = true → a = b
  | [], b, h => by cases b <;> simp [XVal.beqL] at h ⊢
  | a :: l, b, h => by
    cases b with
    | nil => simp [XVal.beqL] at h
    | cons b m =>
      simp only [XVal.beqL, Bool.and_eq_true] at h
      rw [XVal.beq_eq a b h.1, XVal.beqL_eq l m h.2]
end

mutual
theorem XVal.beq_refl : ∀ a : XVal, XVal.beq a a = true
  | .int _ => by simp [XVal.beq]
  | .uint _ => by simp [XVal.beq]
  | .hyper _ => by simp [XVal.beq]
  | .uhyper _ => by simp [XVal.beq]
  | .bool _ => by simp [XVal.beq]
  | .opaque _ => by simp [XVal.beq]
  | .vopaque _ => by simp [XVal.beq]
  | .string _ => by simp [XVal.beq]
  | .array a => by simp only [XVal.beq]; exact XVal.beqL_refl a
  | .struct a => by simp only [XVal.beq]; exact XVal.beqL_refl a
  | .union a b => by simp [XVal.beq, XVal.beq_refl a, XVal.beq_refl b]
  | .void => by simp [XVal.beq]
  | .opt none => by simp [XVal.beq]
  | .opt (some a) => by simp only [XVal.beq]; exact XVal.beq_refl a
theorem XVal.beqL_refl : ∀ a : List XVal, XVal.beqL a a = true
  | [] => by simp [XVal.beqL]
  | a :: l => by simp [XVal.beqL, XVal.beq_refl a, XVal.beqL_refl l]
end

instance : DecidableEq XVal := fun a b =>
  if h : XVal.beq a b = true then isTrue (XVal.beq_eq a b h)
  else isFalse (fun he => h (he ▸ XVal.beq_refl a))

instance {α} [DecidableEq α] : DecidableEq (Res α)
  | .ok a, .ok b => if h : a = b then isTrue (by rw [h]) else isFalse (by intro h'; cases h'; exact h rfl)
  | .error a, .error b =>
    if h : a = b then isTrue (by rw [h]) else isFalse (by intro h'; cases h'; exact h rfl)
  | .ok _, .error _ => isFalse (by intro h; cases h)
  | .error _, .ok _ => isFalse (by intro h; cases h)

end Verif.Gen
