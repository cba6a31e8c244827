/-
Facts about the shape of Go values: monotonicity, zero values, discriminants.
-/
import Verif.Gen.Wf
import Verif.Spec.Rfc4506Lemmas

namespace Verif.Gen
open Verif.Spec Verif.Xdr

/-! ### Monotonicity -/

mutual
theorem hasT_mono {E : Env} {c1 c2 : Ident → GoVal → Prop} (hc : ∀ n v, c1 n v → c2 n v) :
    ∀ (t : Typespec) (v : GoVal), hasT E c1 t v → hasT E c2 t v
  | .int true, _, h => by simpa only [hasT] using h
  | .int false, _, h => by simpa only [hasT] using h
  | .hyper true, _, h => by simpa only [hasT] using h
  | .hyper false, _, h => by simpa only [hasT] using h
  | .bool, _, h => by simpa only [hasT] using h
  | .struct ds, v, h => by
    simp only [hasT] at h ⊢
    obtain ⟨fs, h1, h2⟩ := h
    exact ⟨fs, h1, hasDs_mono hc ds fs h2⟩
  | .union sw cs, v, h => by
    simp only [hasT] at h ⊢
    obtain ⟨fs, rest, h1, h2, h3⟩ := h
    exact ⟨fs, rest, h1, hasField_mono hc sw fs rest h2, hasCs_mono hc cs rest h3⟩
  | .ident n, v, h => by simp only [hasT] at h ⊢; exact hc n v h
  | .float, _, h => by simp only [hasT] at h
  | .double, _, h => by simp only [hasT] at h
  | .quadruple, _, h => by simp only [hasT] at h
  | .enum _, _, h => by simp only [hasT] at h
theorem hasD_mono {E : Env} {c1 c2 : Ident → GoVal → Prop} (hc : ∀ n v, c1 n v → c2 n v) :
    ∀ (t : DeclType) (v : GoVal), hasD E c1 t v → hasD E c2 t v
  | .typespec t, v, h => by simp only [hasD] at h ⊢; exact hasT_mono hc t v h
  | .array _ _, _, h => by simp only [hasD] at h
  | .varArray t _, v, h => by
    simp only [hasD] at h ⊢
    obtain ⟨o, h1, h2⟩ := h
    exact ⟨o, h1, fun l hl w hw => hasT_mono hc t w (h2 l hl w hw)⟩
  | .opaqueArray _, _, h => by simpa only [hasD] using h
  | .opaqueVarArray _, _, h => by simpa only [hasD] using h
  | .string _, _, h => by simpa only [hasD] using h
  | .ptr t, v, h => by
    simp only [hasD] at h ⊢
    obtain ⟨o, h1, h2⟩ := h
    exact ⟨o, h1, fun w hw => hasT_mono hc t w (h2 w hw)⟩
theorem hasField_mono {E : Env} {c1 c2 : Ident → GoVal → Prop} (hc : ∀ n v, c1 n v → c2 n v) :
    ∀ (d : Decl) (fs rest : List (Ident × GoVal)), hasField E c1 d fs rest → hasField E c2 d fs rest
  | .void, _, _, h => by simpa only [hasField] using h
  | .name t n, fs, rest, h => by
    simp only [hasField] at h ⊢
    obtain ⟨w, h1, h2⟩ := h
    exact ⟨w, h1, hasD_mono hc t w h2⟩
theorem hasDs_mono {E : Env} {c1 c2 : Ident → GoVal → Prop} (hc : ∀ n v, c1 n v → c2 n v) :
    ∀ (ds : Decls) (fs : List (Ident × GoVal)), hasDs E c1 ds fs → hasDs E c2 ds fs
  | .nil, _, h => by simpa only [hasDs] using h
  | .cons d ds, fs, h => by
    simp only [hasDs] at h ⊢
    obtain ⟨rest, h1, h2⟩ := h
    exact ⟨rest, hasField_mono hc d fs rest h1, hasDs_mono hc ds rest h2⟩
theorem hasCs_mono {E : Env} {c1 c2 : Ident → GoVal → Prop} (hc : ∀ n v, c1 n v → c2 n v) :
    ∀ (cs : Cases) (fs : List (Ident × GoVal)), hasCs E c1 cs fs → hasCs E c2 cs fs
  | .nil, _, h => by simpa only [hasCs] using h
  | .dflt d, fs, h => by
    simp only [hasCs] at h ⊢; exact hasField_mono hc d fs [] h
  | .cons _ _ d cs, fs, h => by
    simp only [hasCs] at h ⊢
    obtain ⟨rest, h1, h2⟩ := h
    exact ⟨rest, hasField_mono hc d fs rest h1, hasCs_mono hc cs rest h2⟩
end

/-- `hasTop` by cases on the declaration. -/
theorem hasTop_ptr {E : Env} {call : Ident → GoVal → Prop} {t : Typespec} {v : GoVal} :
    hasTop E call (.ptr t) v ↔ ∃ w, v = .struct [("P", w)] ∧ hasD E call (.ptr t) w := Iff.rfl

/-- A declaration that `emitTypedef` does not wrap. -/
def DeclType.NotPtr : DeclType → Prop
  | .ptr _ => False
  | _ => True

theorem DeclType.ptr_or (t : DeclType) : (∃ t', t = .ptr t') ∨ t.NotPtr := by
  cases t <;> simp [DeclType.NotPtr]

theorem hasTop_notPtr {E : Env} {call : Ident → GoVal → Prop} {t : DeclType} (ht : t.NotPtr)
    (v : GoVal) : hasTop E call t v ↔ hasD E call t v := by
  cases t <;> first | exact Iff.rfl | exact ht.elim

theorem hasTop_mono {E : Env} {c1 c2 : Ident → GoVal → Prop} (hc : ∀ n v, c1 n v → c2 n v)
    {t : DeclType} {v : GoVal} (h : hasTop E c1 t v) : hasTop E c2 t v := by
  rcases t.ptr_or with ⟨t', rfl⟩ | ht
  · obtain ⟨w, h1, h2⟩ := h
    exact ⟨w, h1, hasD_mono hc _ w h2⟩
  · rw [hasTop_notPtr ht] at h ⊢
    exact hasD_mono hc t v h

theorem hasN_succ {E : Env} {k : Nat} : ∀ (n : Ident) (v : GoVal), hasN E k n v → hasN E (k + 1) n v := by
  induction k with
  | zero => intro n v h; exact h.elim
  | succ k ih =>
    intro n v h
    obtain ⟨t, ht, hv⟩ := h
    exact ⟨t, ht, hasTop_mono ih hv⟩

theorem hasN_le {E : Env} {k k' : Nat} (h : k ≤ k') {n : Ident} {v : GoVal} (hv : hasN E k n v) :
    hasN E k' n v := by
  induction h with
  | refl => exact hv
  | step _ ih => exact hasN_succ n v ih

theorem typed_of_hasN {E : Env} {k : Nat} (n : Ident) (v : GoVal) (h : hasN E k n v) : Typed E n v :=
  ⟨k, h⟩

theorem typed_unfold {E : Env} {n : Ident} {v : GoVal} (h : Typed E n v) :
    ∃ t, E.typeOf n = some t ∧ hasTop E (Typed E) t v := by
  obtain ⟨k, h⟩ := h
  cases k with
  | zero => exact h.elim
  | succ k =>
    obtain ⟨t, ht, hv⟩ := h
    exact ⟨t, ht, hasTop_mono (fun n v h => ⟨k, h⟩) hv⟩

/-! ### From all names to a bound (values are finite) -/

theorem list_bound {α} {P : Nat → α → Prop} (hm : ∀ k k' a, k ≤ k' → P k a → P k' a) :
    ∀ l : List α, (∀ a ∈ l, ∃ k, P k a) → ∃ k, ∀ a ∈ l, P k a
  | [], _ => ⟨0, by simp⟩
  | a :: l, h => by
    obtain ⟨k1, h1⟩ := h a (by simp)
    obtain ⟨k2, h2⟩ := list_bound hm l (fun b hb => h b (by simp [hb]))
    refine ⟨max k1 k2, ?_⟩
    intro b hb
    rcases List.mem_cons.mp hb with rfl | hb
    · exact hm _ _ _ (Nat.le_max_left _ _) h1
    · exact hm _ _ _ (Nat.le_max_right _ _) (h2 b hb)

theorem hasN_mono_le {E : Env} {k k' : Nat} (h : k ≤ k') : ∀ n v, hasN E k n v → hasN E k' n v :=
  fun _ _ => hasN_le h

mutual
theorem hasT_bound {E : Env} :
    ∀ (t : Typespec) (v : GoVal), hasT E (Typed E) t v → ∃ k, hasT E (hasN E k) t v
  | .int true, _, h => ⟨0, by simpa only [hasT] using h⟩
  | .int false, _, h => ⟨0, by simpa only [hasT] using h⟩
  | .hyper true, _, h => ⟨0, by simpa only [hasT] using h⟩
  | .hyper false, _, h => ⟨0, by simpa only [hasT] using h⟩
  | .bool, _, h => ⟨0, by simpa only [hasT] using h⟩
  | .struct ds, v, h => by
    simp only [hasT] at h
    obtain ⟨fs, h1, h2⟩ := h
    obtain ⟨k, hk⟩ := hasDs_bound ds fs h2
    exact ⟨k, by simp only [hasT]; exact ⟨fs, h1, hk⟩⟩
  | .union sw cs, v, h => by
    simp only [hasT] at h
    obtain ⟨fs, rest, h1, h2, h3⟩ := h
    obtain ⟨k1, hk1⟩ := hasField_bound sw fs rest h2
    obtain ⟨k2, hk2⟩ := hasCs_bound cs rest h3
    refine ⟨max k1 k2, ?_⟩
    simp only [hasT]
    exact ⟨fs, rest, h1, hasField_mono (hasN_mono_le (Nat.le_max_left _ _)) _ _ _ hk1,
      hasCs_mono (hasN_mono_le (Nat.le_max_right _ _)) _ _ hk2⟩
  | .ident n, v, h => by simp only [hasT] at h ⊢; exact h
  | .float, _, h => by simp only [hasT] at h
  | .double, _, h => by simp only [hasT] at h
  | .quadruple, _, h => by simp only [hasT] at h
  | .enum _, _, h => by simp only [hasT] at h
theorem hasD_bound {E : Env} :
    ∀ (t : DeclType) (v : GoVal), hasD E (Typed E) t v → ∃ k, hasD E (hasN E k) t v
  | .typespec t, v, h => by simp only [hasD] at h ⊢; exact hasT_bound t v h
  | .array _ _, _, h => by simp only [hasD] at h
  | .varArray t _, v, h => by
    simp only [hasD] at h ⊢
    obtain ⟨o, h1, h2⟩ := h
    cases o with
    | none => exact ⟨0, none, h1, by simp⟩
    | some l =>
      obtain ⟨k, hk⟩ := list_bound (P := fun k w => hasT E (hasN E k) t w)
        (fun k k' a hk => hasT_mono (hasN_mono_le hk) t a) l
        (fun w hw => hasT_bound t w (h2 l rfl w hw))
      exact ⟨k, some l, h1, fun l' hl' => by cases hl'; exact hk⟩
  | .opaqueArray _, _, h => ⟨0, by simpa only [hasD] using h⟩
  | .opaqueVarArray _, _, h => ⟨0, by simpa only [hasD] using h⟩
  | .string _, _, h => ⟨0, by simpa only [hasD] using h⟩
  | .ptr t, v, h => by
    simp only [hasD] at h ⊢
    obtain ⟨o, h1, h2⟩ := h
    cases o with
    | none => exact ⟨0, none, h1, by simp⟩
    | some w =>
      obtain ⟨k, hk⟩ := hasT_bound t w (h2 w rfl)
      exact ⟨k, some w, h1, fun w' hw' => by cases hw'; exact hk⟩
theorem hasField_bound {E : Env} :
    ∀ (d : Decl) (fs rest : List (Ident × GoVal)), hasField E (Typed E) d fs rest →
      ∃ k, hasField E (hasN E k) d fs rest
  | .void, _, _, h => ⟨0, by simpa only [hasField] using h⟩
  | .name t n, fs, rest, h => by
    simp only [hasField] at h ⊢
    obtain ⟨w, h1, h2⟩ := h
    obtain ⟨k, hk⟩ := hasD_bound t w h2
    exact ⟨k, w, h1, hk⟩
theorem hasDs_bound {E : Env} :
    ∀ (ds : Decls) (fs : List (Ident × GoVal)), hasDs E (Typed E) ds fs → ∃ k, hasDs E (hasN E k) ds fs
  | .nil, _, h => ⟨0, by simpa only [hasDs] using h⟩
  | .cons d ds, fs, h => by
    simp only [hasDs] at h ⊢
    obtain ⟨rest, h1, h2⟩ := h
    obtain ⟨k1, hk1⟩ := hasField_bound d fs rest h1
    obtain ⟨k2, hk2⟩ := hasDs_bound ds rest h2
    exact ⟨max k1 k2, rest, hasField_mono (hasN_mono_le (Nat.le_max_left _ _)) _ _ _ hk1,
      hasDs_mono (hasN_mono_le (Nat.le_max_right _ _)) _ _ hk2⟩
theorem hasCs_bound {E : Env} :
    ∀ (cs : Cases) (fs : List (Ident × GoVal)), hasCs E (Typed E) cs fs → ∃ k, hasCs E (hasN E k) cs fs
  | .nil, _, h => ⟨0, by simpa only [hasCs] using h⟩
  | .dflt d, fs, h => by
    simp only [hasCs] at h ⊢; exact hasField_bound d fs [] h
  | .cons _ _ d cs, fs, h => by
    simp only [hasCs] at h ⊢
    obtain ⟨rest, h1, h2⟩ := h
    obtain ⟨k1, hk1⟩ := hasField_bound d fs rest h1
    obtain ⟨k2, hk2⟩ := hasCs_bound cs rest h2
    exact ⟨max k1 k2, rest, hasField_mono (hasN_mono_le (Nat.le_max_left _ _)) _ _ _ hk1,
      hasCs_mono (hasN_mono_le (Nat.le_max_right _ _)) _ _ hk2⟩
end

theorem typed_fold {E : Env} {n : Ident} {t : DeclType} {v : GoVal} (ht : E.typeOf n = some t)
    (h : hasTop E (Typed E) t v) : Typed E n v := by
  rcases t.ptr_or with ⟨t', rfl⟩ | hn
  · obtain ⟨w, h1, h2⟩ := h
    obtain ⟨k, hk⟩ := hasD_bound _ w h2
    exact ⟨k + 1, _, ht, w, h1, hk⟩
  · rw [hasTop_notPtr hn] at h
    obtain ⟨k, hk⟩ := hasD_bound t v h
    exact ⟨k + 1, t, ht, (hasTop_notPtr hn v).mpr hk⟩

/-! ### The same for abstract values -/

mutual
theorem memT_bound {E : Env} :
    ∀ (t : Typespec) (x : XVal), memT E (IsValue E) t x → ∃ k, memT E (memN E k) t x
  | .int true, _, h => ⟨0, by simpa only [memT] using h⟩
  | .int false, _, h => ⟨0, by simpa only [memT] using h⟩
  | .hyper true, _, h => ⟨0, by simpa only [memT] using h⟩
  | .hyper false, _, h => ⟨0, by simpa only [memT] using h⟩
  | .bool, _, h => ⟨0, by simpa only [memT] using h⟩
  | .struct ds, x, h => by
    simp only [memT] at h ⊢
    obtain ⟨l, h1, h2⟩ := h
    obtain ⟨k, hk⟩ := memDs_bound ds l h1
    exact ⟨k, l, hk, h2⟩
  | .union sw cs, x, h => by
    simp only [memT] at h ⊢
    obtain ⟨d, a, h1, h2, h3⟩ := h
    obtain ⟨k1, hk1⟩ := memDisc_bound sw d h1
    obtain ⟨k2, hk2⟩ := memCs_bound d cs a h2
    exact ⟨max k1 k2, d, a, memDisc_mono (fun _ _ => memN_le (Nat.le_max_left _ _)) _ _ hk1,
      memCs_mono (fun _ _ => memN_le (Nat.le_max_right _ _)) d _ _ hk2, h3⟩
  | .ident n, v, h => by simp only [memT] at h ⊢; exact h
  | .float, _, h => by simp only [memT] at h
  | .double, _, h => by simp only [memT] at h
  | .quadruple, _, h => by simp only [memT] at h
  | .enum _, _, h => by simp only [memT] at h
theorem memD_bound {E : Env} :
    ∀ (t : DeclType) (x : XVal), memD E (IsValue E) t x → ∃ k, memD E (memN E k) t x
  | .typespec t, v, h => by simp only [memD] at h ⊢; exact memT_bound t v h
  | .array _ _, _, h => by simp only [memD] at h
  | .varArray t _, v, h => by
    simp only [memD] at h ⊢
    obtain ⟨l, mx, h1, h2, h3, h4⟩ := h
    obtain ⟨k, hk⟩ := list_bound (P := fun k w => memT E (memN E k) t w)
        (fun k k' a hk => memT_mono (fun _ _ => memN_le hk) t a) l
        (fun w hw => memT_bound t w (h3 w hw))
    exact ⟨k, l, mx, h1, h2, hk, h4⟩
  | .opaqueArray _, _, h => ⟨0, by simpa only [memD] using h⟩
  | .opaqueVarArray _, _, h => ⟨0, by simpa only [memD] using h⟩
  | .string _, _, h => ⟨0, by simpa only [memD] using h⟩
  | .ptr t, v, h => by
    simp only [memD] at h ⊢
    obtain ⟨o, h1, h2⟩ := h
    cases o with
    | none => exact ⟨0, none, by simp, h2⟩
    | some w =>
      obtain ⟨k, hk⟩ := memT_bound t w (h1 w rfl)
      exact ⟨k, some w, fun w' hw' => by cases hw'; exact hk, h2⟩
theorem memDisc_bound {E : Env} :
    ∀ (d : Decl) (x : XVal), memDisc E (IsValue E) d x → ∃ k, memDisc E (memN E k) d x
  | .void, _, h => by simp only [memDisc] at h
  | .name t n, x, h => by simp only [memDisc] at h ⊢; exact memD_bound t x h
theorem memArm_bound {E : Env} :
    ∀ (d : Decl) (x : XVal), memArm E (IsValue E) d x → ∃ k, memArm E (memN E k) d x
  | .void, _, h => ⟨0, by simpa only [memArm] using h⟩
  | .name t n, x, h => by simp only [memArm] at h ⊢; exact memD_bound t x h
theorem memDs_bound {E : Env} :
    ∀ (ds : Decls) (l : List XVal), memDs E (IsValue E) ds l → ∃ k, memDs E (memN E k) ds l
  | .nil, _, h => ⟨0, by simpa only [memDs] using h⟩
  | .cons .void ds, l, h => by simp only [memDs] at h ⊢; exact memDs_bound ds l h
  | .cons (.name t n) ds, l, h => by
    simp only [memDs] at h ⊢
    obtain ⟨x, l', h1, h2, h3⟩ := h
    obtain ⟨k1, hk1⟩ := memD_bound t x h1
    obtain ⟨k2, hk2⟩ := memDs_bound ds l' h2
    exact ⟨max k1 k2, x, l', memD_mono (fun _ _ => memN_le (Nat.le_max_left _ _)) _ _ hk1,
      memDs_mono (fun _ _ => memN_le (Nat.le_max_right _ _)) _ _ hk2, h3⟩
theorem memCs_bound {E : Env} (d : XVal) :
    ∀ (cs : Cases) (a : XVal), memCs E (IsValue E) d cs a → ∃ k, memCs E (memN E k) d cs a
  | .nil, _, h => ⟨0, by simpa only [memCs] using h⟩
  | .dflt b, a, h => by simp only [memCs] at h ⊢; exact memArm_bound b a h
  | .cons l more b cs, a, h => by
    simp only [memCs] at h ⊢
    split at h
    · rename_i hs
      simp only [hs, if_true]
      exact memArm_bound b a h
    · rename_i hs
      simp only [hs, if_false]
      exact memCs_bound d cs a h
end

theorem isValue_fold {E : Env} {n : Ident} {t : DeclType} {x : XVal} (ht : E.typeOf n = some t)
    (h : memD E (IsValue E) t x) : IsValue E n x := by
  obtain ⟨k, hk⟩ := memD_bound t x h
  exact ⟨k + 1, t, ht, hk⟩

theorem isValue_iff {E : Env} {n : Ident} {t : DeclType} {x : XVal} (ht : E.typeOf n = some t) :
    IsValue E n x ↔ memD E (IsValue E) t x := by
  constructor
  · intro h
    obtain ⟨t', ht', hx⟩ := IsValue.unfold h
    rw [ht] at ht'; cases ht'; exact hx
  · exact isValue_fold ht

/-! ### Discriminants -/

/-- A Go value of a discriminant kind. -/
def ofKind : Kind → GoVal → Prop
  | .u32, v => ∃ x, v = .u32 x
  | .i32, v => ∃ x, v = .i32 x
  | .u64, v => ∃ x, v = .u64 x
  | .i64, v => ∃ x, v = .i64 x
  | .bool, v => ∃ x, v = .bool x

theorem kind_has {E : Env} {κ : Kind} : ∀ (k : Nat) (t : DeclType) (v : GoVal),
    kindOf E k t = some κ → hasD E (Typed E) t v → ofKind κ v := by
  intro k
  induction k with
  | zero =>
    intro t v hk hv
    unfold kindOf at hk
    split at hk <;> first | (cases hk; simp only [hasD, hasT] at hv; exact hv) | simp_all
  | succ k ih =>
    intro t v hk hv
    unfold kindOf at hk
    split at hk <;> first | (cases hk; simp only [hasD, hasT] at hv; exact hv) | skip
    · rename_i n heq
      cases heq
      simp only [hasD, hasT] at hv
      obtain ⟨t', ht', hv⟩ := typed_unfold hv
      rw [ht'] at hk
      simp only [Option.bind_some] at hk
      rcases t'.ptr_or with ⟨t'', rfl⟩ | hn
      · cases k <;> simp [kindOf] at hk
      · rw [hasTop_notPtr hn] at hv
        exact ih t' v hk hv
    · simp at hk

end Verif.Gen
