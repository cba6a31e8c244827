/-
Overwriting a value without stale pointers gives a value that stands for the data written; and the
bounds on nested names in `abs` and `fill` do not matter.
-/
import Verif.Gen.Decode

namespace Verif.Gen
open Verif.Spec Verif.Xdr

theorem mapAll_mono {α β} {f1 f2 : α → Option β} (h : ∀ a b, f1 a = some b → f2 a = some b) :
    ∀ (l : List α) (r : List β), mapAll f1 l = some r → mapAll f2 l = some r
  | [], r, e => e
  | a :: l, r, e => by
    simp only [mapAll, bind, Option.bind, Pure.pure] at e ⊢
    cases h1 : f1 a with
    | none => rw [h1] at e; cases e
    | some b =>
      rw [h1] at e; rw [h a b h1]
      cases h2 : mapAll f1 l with
      | none => simp [h2] at e
      | some r' => simp only [h2] at e; simpa [mapAll_mono h l r' h2] using e

theorem mapAll_inv {α β} {f : α → Option β} {g : β → Option α} {P : α → Prop}
    (h : ∀ a b, P a → f a = some b → g b = some a) :
    ∀ (l : List α) (r : List β), (∀ a ∈ l, P a) → mapAll f l = some r → mapAll g r = some l
  | [], r, _, e => by cases e; rfl
  | a :: l, r, hP, e => by
    simp only [mapAll, bind, Option.bind, Pure.pure] at e
    cases h1 : f a with
    | none => rw [h1] at e; cases e
    | some b =>
      rw [h1] at e
      cases h2 : mapAll f l with
      | none => simp [h2] at e
      | some r' =>
        simp only [h2, Option.some.injEq] at e
        subst e
        simp [mapAll, h a b (hP a (by simp)) h1, mapAll_inv h l r' (fun a ha => hP a (by simp [ha])) h2]

/-! ### Fuel -/

mutual
theorem absT_mono {E : Env} {c1 c2 : Ident → GoVal → Option XVal}
    (hc : ∀ n v x, c1 n v = some x → c2 n v = some x) :
    ∀ (t : Typespec) (v : GoVal) (x : XVal), absT E c1 t v = some x → absT E c2 t v = some x
  | .int true, v, x, h => by simpa only [absT] using h
  | .int false, v, x, h => by simpa only [absT] using h
  | .hyper true, v, x, h => by simpa only [absT] using h
  | .hyper false, v, x, h => by simpa only [absT] using h
  | .bool, v, x, h => by simpa only [absT] using h
  | .struct ds, v, x, h => by
    simp only [absT] at h ⊢
    split at h
    · obtain ⟨l, h1, h2⟩ := except_map_eq h
      rw [absDs_mono hc ds _ l h1]; simp [h2]
    · cases h
  | .union sw cs, v, x, h => by
    simp only [absT] at h ⊢
    split at h
    · rename_i fs
      simp only [bind, Option.bind, Pure.pure] at h ⊢
      cases h1 : absDecl E c1 sw fs with
      | none => rw [h1] at h; cases h
      | some d =>
        rw [h1] at h; rw [absDecl_mono hc sw fs d h1]
        simp only at h ⊢
        cases h2 : absCs E c1 d cs (skipField sw fs) with
        | none => rw [h2] at h; cases h
        | some a => rw [h2] at h; rw [absCs_mono hc d cs _ a h2]; exact h
    · cases h
  | .ident n, v, x, h => by simp only [absT] at h ⊢; exact hc n v x h
  | .float, _, _, h => by simp [absT] at h
  | .double, _, _, h => by simp [absT] at h
  | .quadruple, _, _, h => by simp [absT] at h
  | .enum _, _, _, h => by simp [absT] at h
theorem absD_mono {E : Env} {c1 c2 : Ident → GoVal → Option XVal}
    (hc : ∀ n v x, c1 n v = some x → c2 n v = some x) :
    ∀ (t : DeclType) (v : GoVal) (x : XVal), absD E c1 t v = some x → absD E c2 t v = some x
  | .typespec t, v, x, h => by simp only [absD] at h ⊢; exact absT_mono hc t v x h
  | .array _ _, _, _, h => by simp [absD] at h
  | .varArray t m, v, x, h => by
    simp only [absD] at h ⊢
    split at h
    · obtain ⟨l, h1, h2⟩ := except_map_eq h
      rw [mapAll_mono (fun a b => absT_mono hc t a b) _ l h1]; simp [h2]
    · cases h
  | .opaqueArray _, v, x, h => by simpa only [absD] using h
  | .opaqueVarArray _, v, x, h => by simpa only [absD] using h
  | .string _, v, x, h => by simpa only [absD] using h
  | .ptr t, v, x, h => by
    simp only [absD] at h ⊢
    split at h
    · exact h
    · obtain ⟨y, h1, h2⟩ := except_map_eq h
      rw [absT_mono hc t _ y h1]; simp [h2]
    · cases h
theorem absDecl_mono {E : Env} {c1 c2 : Ident → GoVal → Option XVal}
    (hc : ∀ n v x, c1 n v = some x → c2 n v = some x) :
    ∀ (d : Decl) (fs : List (Ident × GoVal)) (x : XVal), absDecl E c1 d fs = some x →
      absDecl E c2 d fs = some x
  | .void, fs, x, h => by simpa only [absDecl] using h
  | .name t n, fs, x, h => by
    simp only [absDecl] at h ⊢
    split at h
    · exact absD_mono hc t _ x h
    · cases h
theorem absDs_mono {E : Env} {c1 c2 : Ident → GoVal → Option XVal}
    (hc : ∀ n v x, c1 n v = some x → c2 n v = some x) :
    ∀ (ds : Decls) (fs : List (Ident × GoVal)) (l : List XVal), absDs E c1 ds fs = some l →
      absDs E c2 ds fs = some l
  | .nil, fs, x, h => by simpa only [absDs] using h
  | .cons .void ds, fs, x, h => by simp only [absDs] at h ⊢; exact absDs_mono hc ds fs x h
  | .cons (.name t n) ds, fs, l, h => by
    simp only [absDs, bind, Option.bind, Pure.pure] at h ⊢
    cases h1 : absDecl E c1 (.name t n) fs with
    | none => rw [h1] at h; cases h
    | some d =>
      rw [h1] at h; rw [absDecl_mono hc (.name t n) fs d h1]
      simp only at h ⊢
      cases h2 : absDs E c1 ds fs.tail with
      | none => rw [h2] at h; cases h
      | some a => rw [h2] at h; rw [absDs_mono hc ds _ a h2]; exact h
theorem absCs_mono {E : Env} {c1 c2 : Ident → GoVal → Option XVal}
    (hc : ∀ n v x, c1 n v = some x → c2 n v = some x) (d : XVal) :
    ∀ (cs : Cases) (fs : List (Ident × GoVal)) (x : XVal), absCs E c1 d cs fs = some x →
      absCs E c2 d cs fs = some x
  | .nil, fs, x, h => by simpa only [absCs] using h
  | .dflt b, fs, x, h => by simp only [absCs] at h ⊢; exact absDecl_mono hc b fs x h
  | .cons l more b cs, fs, x, h => by
    simp only [absCs] at h ⊢
    split
    · rename_i hs; rw [if_pos hs] at h; exact absDecl_mono hc b fs x h
    · rename_i hs; rw [if_neg hs] at h; exact absCs_mono hc d cs _ x h
end

theorem absTop_mono {E : Env} {c1 c2 : Ident → GoVal → Option XVal}
    (hc : ∀ n v x, c1 n v = some x → c2 n v = some x) (t : DeclType) (v : GoVal) (x : XVal)
    (h : absTop E c1 t v = some x) : absTop E c2 t v = some x := by
  cases t with
  | ptr t =>
    simp only [absTop] at h ⊢
    split at h
    · exact absD_mono (E := E) hc (.ptr t) _ x h
    · cases h
  | typespec t => exact absD_mono (E := E) hc (.typespec t) v x h
  | array t sz => exact absD_mono (E := E) hc (.array t sz) v x h
  | varArray t sz => exact absD_mono (E := E) hc (.varArray t sz) v x h
  | opaqueArray sz => exact absD_mono (E := E) hc (.opaqueArray sz) v x h
  | opaqueVarArray sz => exact absD_mono (E := E) hc (.opaqueVarArray sz) v x h
  | string sz => exact absD_mono (E := E) hc (.string sz) v x h

theorem absN_succ {E : Env} {k : Nat} : ∀ n v x, absN E k n v = some x → absN E (k + 1) n v = some x := by
  induction k with
  | zero => intro n v x h; cases h
  | succ k ih =>
    intro n v x h
    unfold absN at h ⊢
    cases ht : E.typeOf n with
    | none => rw [ht] at h; cases h
    | some t =>
      rw [ht] at h
      exact absTop_mono ih t v x h

theorem absN_le {E : Env} {k k' : Nat} (h : k ≤ k') {n : Ident} {v : GoVal} {x : XVal}
    (hx : absN E k n v = some x) : absN E k' n v = some x := by
  induction h with
  | refl => exact hx
  | step _ ih => exact absN_succ n v x ih

/-- A Go value stands for at most one XDR value. -/
theorem denotes_unique {E : Env} {n : Ident} {v : GoVal} {x y : XVal} (hx : Denotes E n v x)
    (hy : Denotes E n v y) : x = y := by
  obtain ⟨k, hx⟩ := hx
  obtain ⟨k', hy⟩ := hy
  have h1 := absN_le (Nat.le_max_left k k') hx
  have h2 := absN_le (Nat.le_max_right k k') hy
  rw [h1] at h2; exact Option.some.inj h2

mutual
theorem fillT_mono {E : Env} {zt : Typespec → Option GoVal}
    {c1 c2 : Ident → GoVal → XVal → Option GoVal}
    (hc : ∀ n v x v', c1 n v x = some v' → c2 n v x = some v') :
    ∀ (t : Typespec) (v : GoVal) (x : XVal) (v' : GoVal), fillT E zt c1 t v x = some v' →
      fillT E zt c2 t v x = some v'
  | .int true, v, x, v', h => by simpa only [fillT] using h
  | .int false, v, x, v', h => by simpa only [fillT] using h
  | .hyper true, v, x, v', h => by simpa only [fillT] using h
  | .hyper false, v, x, v', h => by simpa only [fillT] using h
  | .bool, v, x, v', h => by simpa only [fillT] using h
  | .struct ds, v, x, v', h => by
    simp only [fillT] at h ⊢
    split at h
    · obtain ⟨l, h1, h2⟩ := except_map_eq h
      rw [fillDs_mono hc ds _ _ l h1]; simp [h2]
    · cases h
  | .union sw cs, v, x, v', h => by
    simp only [fillT] at h ⊢
    split at h
    · rename_i fs d a
      simp only [bind, Option.bind, Pure.pure] at h ⊢
      cases h1 : fillCs E zt c1 d cs (skipField sw fs) a with
      | none => rw [h1] at h; cases h
      | some rest =>
        rw [h1] at h; rw [fillCs_mono hc d cs _ a rest h1]
        simp only at h ⊢
        cases h2 : fillDecl E zt c1 sw fs d rest with
        | none => rw [h2] at h; cases h
        | some fs' => rw [h2] at h; rw [fillDecl_mono hc sw fs d rest fs' h2]; exact h
    · cases h
  | .ident n, v, x, v', h => by simp only [fillT] at h ⊢; exact hc n v x v' h
  | .float, _, _, _, h => by simp [fillT] at h
  | .double, _, _, _, h => by simp [fillT] at h
  | .quadruple, _, _, _, h => by simp [fillT] at h
  | .enum _, _, _, _, h => by simp [fillT] at h
theorem fillD_mono {E : Env} {zt : Typespec → Option GoVal}
    {c1 c2 : Ident → GoVal → XVal → Option GoVal}
    (hc : ∀ n v x v', c1 n v x = some v' → c2 n v x = some v') :
    ∀ (t : DeclType) (v : GoVal) (x : XVal) (v' : GoVal), fillD E zt c1 t v x = some v' →
      fillD E zt c2 t v x = some v'
  | .typespec t, v, x, v', h => by simp only [fillD] at h ⊢; exact fillT_mono hc t v x v' h
  | .array _ _, _, _, _, h => by simp [fillD] at h
  | .varArray t m, v, x, v', h => by
    simp only [fillD] at h ⊢
    split at h
    · rename_i l
      simp only [bind, Option.bind, Pure.pure] at h ⊢
      cases hz : zt t with
      | none => rw [hz] at h; cases h
      | some z =>
        rw [hz] at h
        simp only at h ⊢
        cases h1 : mapAll (fun x => fillT E zt c1 t z x) l with
        | none => rw [h1] at h; cases h
        | some r =>
          rw [h1] at h
          rw [mapAll_mono (fun a b => fillT_mono hc t z a b) l r h1]
          exact h
    · cases h
  | .opaqueArray _, v, x, v', h => by simpa only [fillD] using h
  | .opaqueVarArray _, v, x, v', h => by simpa only [fillD] using h
  | .string _, v, x, v', h => by simpa only [fillD] using h
  | .ptr t, v, x, v', h => by
    simp only [fillD] at h ⊢
    split at h
    · exact h
    · rename_i y
      simp only [bind, Option.bind, Pure.pure] at h ⊢
      cases hz : zt t with
      | none => rw [hz] at h; cases h
      | some z =>
        rw [hz] at h
        simp only at h ⊢
        cases h1 : fillT E zt c1 t z y with
        | none => rw [h1] at h; cases h
        | some r =>
          rw [h1] at h
          rw [fillT_mono hc t z y r h1]
          exact h
    · cases h
theorem fillDecl_mono {E : Env} {zt : Typespec → Option GoVal}
    {c1 c2 : Ident → GoVal → XVal → Option GoVal}
    (hc : ∀ n v x v', c1 n v x = some v' → c2 n v x = some v') :
    ∀ (d : Decl) (fs : List (Ident × GoVal)) (x : XVal) (rest fs' : List (Ident × GoVal)),
      fillDecl E zt c1 d fs x rest = some fs' → fillDecl E zt c2 d fs x rest = some fs'
  | .void, fs, x, rest, fs', h => by simpa only [fillDecl] using h
  | .name t n, fs, x, rest, fs', h => by
    simp only [fillDecl] at h ⊢
    split at h
    · obtain ⟨l, h1, h2⟩ := except_map_eq h
      rw [fillD_mono hc t _ x l h1]; simp [h2]
    · cases h
theorem fillDs_mono {E : Env} {zt : Typespec → Option GoVal}
    {c1 c2 : Ident → GoVal → XVal → Option GoVal}
    (hc : ∀ n v x v', c1 n v x = some v' → c2 n v x = some v') :
    ∀ (ds : Decls) (fs : List (Ident × GoVal)) (l : List XVal) (fs' : List (Ident × GoVal)),
      fillDs E zt c1 ds fs l = some fs' → fillDs E zt c2 ds fs l = some fs'
  | .nil, fs, x, fs', h => by simpa only [fillDs] using h
  | .cons .void ds, fs, x, fs', h => by simp only [fillDs] at h ⊢; exact fillDs_mono hc ds fs x fs' h
  | .cons (.name t n) ds, fs, l, fs', h => by
    simp only [fillDs] at h ⊢
    split at h
    · rename_i x l
      simp only [bind, Option.bind] at h ⊢
      cases h2 : fillDs E zt c1 ds fs.tail l with
      | none => rw [h2] at h; cases h
      | some a =>
        rw [h2] at h; rw [fillDs_mono hc ds _ _ a h2]
        exact fillDecl_mono hc (.name t n) fs x a fs' h
    · cases h
theorem fillCs_mono {E : Env} {zt : Typespec → Option GoVal}
    {c1 c2 : Ident → GoVal → XVal → Option GoVal}
    (hc : ∀ n v x v', c1 n v x = some v' → c2 n v x = some v') (d : XVal) :
    ∀ (cs : Cases) (fs : List (Ident × GoVal)) (x : XVal) (fs' : List (Ident × GoVal)),
      fillCs E zt c1 d cs fs x = some fs' → fillCs E zt c2 d cs fs x = some fs'
  | .nil, fs, x, fs', h => by simpa only [fillCs] using h
  | .dflt b, fs, x, fs', h => by simp only [fillCs] at h ⊢; exact fillDecl_mono hc b fs x _ fs' h
  | .cons l more b cs, fs, x, fs', h => by
    simp only [fillCs] at h ⊢
    split
    · rename_i hs; rw [if_pos hs] at h; exact fillDecl_mono hc b fs x _ fs' h
    · rename_i hs; rw [if_neg hs] at h
      simp only [bind, Option.bind, Pure.pure] at h ⊢
      cases h2 : fillCs E zt c1 d cs (skipField b fs) x with
      | none => rw [h2] at h; cases h
      | some a => rw [h2] at h; rw [fillCs_mono hc d cs _ x a h2]; exact h
end

theorem fillTop_mono {E : Env} {zt : Typespec → Option GoVal}
    {c1 c2 : Ident → GoVal → XVal → Option GoVal}
    (hc : ∀ n v x v', c1 n v x = some v' → c2 n v x = some v') (t : DeclType) (v : GoVal) (x : XVal)
    (v' : GoVal) (h : fillTop E zt c1 t v x = some v') : fillTop E zt c2 t v x = some v' := by
  cases t with
  | ptr t =>
    simp only [fillTop] at h ⊢
    split at h
    · obtain ⟨l, h1, h2⟩ := except_map_eq h
      rw [fillD_mono hc (.ptr t) _ x l h1]; simp [h2]
    · cases h
  | typespec t => exact fillD_mono (E := E) (zt := zt) hc (.typespec t) v x v' h
  | array t sz => exact fillD_mono (E := E) (zt := zt) hc (.array t sz) v x v' h
  | varArray t sz => exact fillD_mono (E := E) (zt := zt) hc (.varArray t sz) v x v' h
  | opaqueArray sz => exact fillD_mono (E := E) (zt := zt) hc (.opaqueArray sz) v x v' h
  | opaqueVarArray sz => exact fillD_mono (E := E) (zt := zt) hc (.opaqueVarArray sz) v x v' h
  | string sz => exact fillD_mono (E := E) (zt := zt) hc (.string sz) v x v' h

theorem fillN_succ {E : Env} {zt : Typespec → Option GoVal} {k : Nat} : ∀ n v x v',
    fillN E zt k n v x = some v' → fillN E zt (k + 1) n v x = some v' := by
  induction k with
  | zero => intro n v x v' h; cases h
  | succ k ih =>
    intro n v x v' h
    unfold fillN at h ⊢
    cases ht : E.typeOf n with
    | none => rw [ht] at h; cases h
    | some t =>
      rw [ht] at h
      exact fillTop_mono ih t v x v' h

theorem fillN_le {E : Env} {zt : Typespec → Option GoVal} {k k' : Nat} (h : k ≤ k') {n : Ident}
    {v : GoVal} {x : XVal} {v' : GoVal}
    (hx : fillN E zt k n v x = some v') : fillN E zt k' n v x = some v' := by
  induction h with
  | refl => exact hx
  | step _ ih => exact fillN_succ n v x v' ih

theorem fills_unique {E : Env} {zt : Typespec → Option GoVal} {n : Ident} {v : GoVal} {x : XVal}
    {v1 v2 : GoVal} (hx : Fills E zt n v x v1) (hy : Fills E zt n v x v2) : v1 = v2 := by
  obtain ⟨k, hx⟩ := hx
  obtain ⟨k', hy⟩ := hy
  have h1 := fillN_le (Nat.le_max_left k k') hx
  have h2 := fillN_le (Nat.le_max_right k k') hy
  rw [h1] at h2; exact Option.some.inj h2

/-! ### Clean values -/

mutual
theorem cleanT_mono {E : Env} {c1 c2 : Ident → GoVal → Prop} (hc : ∀ n v, c1 n v → c2 n v) :
    ∀ (t : Typespec) (v : GoVal), cleanT E c1 t v → cleanT E c2 t v
  | .int _, _, _ => by simp only [cleanT]
  | .hyper _, _, _ => by simp only [cleanT]
  | .bool, _, _ => by simp only [cleanT]
  | .float, _, _ => by simp only [cleanT]
  | .double, _, _ => by simp only [cleanT]
  | .quadruple, _, _ => by simp only [cleanT]
  | .enum _, _, _ => by simp only [cleanT]
  | .struct ds, v, h => by
    simp only [cleanT] at h ⊢
    obtain ⟨fs, h1, h2⟩ := h
    exact ⟨fs, h1, cleanDs_mono hc ds fs h2⟩
  | .union sw cs, v, h => by
    simp only [cleanT] at h ⊢
    obtain ⟨fs, h1, h2, h3⟩ := h
    exact ⟨fs, h1, cleanDecl_mono hc sw fs h2, cleanCs_mono hc cs _ h3⟩
  | .ident n, v, h => by simp only [cleanT] at h ⊢; exact hc n v h
theorem cleanD_mono {E : Env} {c1 c2 : Ident → GoVal → Prop} (hc : ∀ n v, c1 n v → c2 n v) :
    ∀ (t : DeclType) (v : GoVal), cleanD E c1 t v → cleanD E c2 t v
  | .typespec t, v, h => by simp only [cleanD] at h ⊢; exact cleanT_mono hc t v h
  | .array _ _, _, _ => by simp only [cleanD]
  | .varArray _ _, _, _ => by simp only [cleanD]
  | .opaqueArray _, _, _ => by simp only [cleanD]
  | .opaqueVarArray _, _, _ => by simp only [cleanD]
  | .string _, _, _ => by simp only [cleanD]
  | .ptr _, v, h => by simpa only [cleanD] using h
theorem cleanDecl_mono {E : Env} {c1 c2 : Ident → GoVal → Prop} (hc : ∀ n v, c1 n v → c2 n v) :
    ∀ (d : Decl) (fs : List (Ident × GoVal)), cleanDecl E c1 d fs → cleanDecl E c2 d fs
  | .void, _, _ => by simp only [cleanDecl]
  | .name t n, fs, h => by
    simp only [cleanDecl] at h ⊢
    obtain ⟨f, w, rest, h1, h2⟩ := h
    exact ⟨f, w, rest, h1, cleanD_mono hc t w h2⟩
theorem cleanDs_mono {E : Env} {c1 c2 : Ident → GoVal → Prop} (hc : ∀ n v, c1 n v → c2 n v) :
    ∀ (ds : Decls) (fs : List (Ident × GoVal)), cleanDs E c1 ds fs → cleanDs E c2 ds fs
  | .nil, _, _ => by simp only [cleanDs]
  | .cons d ds, fs, h => by
    simp only [cleanDs] at h ⊢
    exact ⟨cleanDecl_mono hc d fs h.1, cleanDs_mono hc ds _ h.2⟩
theorem cleanCs_mono {E : Env} {c1 c2 : Ident → GoVal → Prop} (hc : ∀ n v, c1 n v → c2 n v) :
    ∀ (cs : Cases) (fs : List (Ident × GoVal)), cleanCs E c1 cs fs → cleanCs E c2 cs fs
  | .nil, _, _ => by simp only [cleanCs]
  | .dflt d, fs, h => by simp only [cleanCs] at h ⊢; exact cleanDecl_mono hc d fs h
  | .cons _ _ d cs, fs, h => by
    simp only [cleanCs] at h ⊢
    exact ⟨cleanDecl_mono hc d fs h.1, cleanCs_mono hc cs _ h.2⟩
end

/-! ### Fill, then read back -/

section
variable {g : GoProg} {E : Env} {defs : Ident → Option DeclType} {K : Nat} {F : Nat}

mutual
theorem Typespec.fill_abs (L : Link g E defs K)
    (hc : ∀ n v x v', Clean E n v → IsValue E n x → fillN E (zeroOf g) F n v x = some v' →
      absN E F n v' = some x) :
    ∀ (t : Typespec) (inArr : Bool) (v : GoVal) (x : XVal) (v' : GoVal), t.wf E K inArr = true →
      cleanT E (Clean E) t v → memT E (IsValue E) t x →
      fillT E (zeroOf g) (fillN E (zeroOf g) F) t v x = some v' → absT E (absN E F) t v' = some x
  | .int true, _, v, x, v', _, _, hm, h => by
    simp only [memT] at hm; obtain ⟨n, hn, rfl⟩ := hm
    simp only [fillT, fillU32] at h; cases h
    simp only [absT, absU32]; rw [u32_ofNat (by omega)]
  | .int false, _, v, x, v', _, _, hm, h => by
    simp only [memT] at hm; obtain ⟨z, h1, h2, rfl⟩ := hm
    simp only [fillT, fillI32] at h; cases h
    simp only [absT, absI32]; rw [Int32.toInt_ofInt_of_le h1 h2]
  | .hyper true, _, v, x, v', _, _, hm, h => by
    simp only [memT] at hm; obtain ⟨n, hn, rfl⟩ := hm
    simp only [fillT, fillU64] at h; cases h
    simp only [absT, absU64]; rw [UInt64.toNat_ofNat', Nat.mod_eq_of_lt (by omega)]
  | .hyper false, _, v, x, v', _, _, hm, h => by
    simp only [memT] at hm; obtain ⟨z, h1, h2, rfl⟩ := hm
    simp only [fillT, fillI64] at h; cases h
    simp only [absT, absI64]; rw [Int64.toInt_ofInt_of_le h1 h2]
  | .bool, _, v, x, v', _, _, hm, h => by
    simp only [memT] at hm; obtain ⟨z, rfl⟩ := hm
    simp only [fillT, fillBool] at h; cases h
    simp only [absT, absBool]
  | .struct ds, inArr, v, x, v', hwf, hcl, hm, h => by
    simp only [Typespec.wf, Bool.and_eq_true] at hwf
    simp only [cleanT] at hcl; obtain ⟨fs, rfl, hcl⟩ := hcl
    simp only [memT] at hm; obtain ⟨l, hm, rfl⟩ := hm
    simp only [fillT] at h
    obtain ⟨fs', h1, rfl⟩ := except_map_eq h
    simp [absT, Decls.fill_abs L hc ds inArr fs l fs' hwf.2 hcl hm h1]
  | .union sw cs, inArr, v, x, v', hwf, hcl, hm, h => by
    simp only [cleanT] at hcl; obtain ⟨fs, rfl, hcl1, hcl2⟩ := hcl
    simp only [memT] at hm; obtain ⟨d, a, hm1, hm2, rfl⟩ := hm
    simp only [Typespec.wf, Bool.and_eq_true] at hwf
    cases hk : sw.kindOf E K with
    | none => rw [hk] at hwf; simp at hwf
    | some κ =>
      rw [hk] at hwf
      cases sw with
      | void => simp [Decl.kindOf] at hk
      | name t n =>
        simp only [memDisc] at hm1
        simp only [Decl.wf] at hwf
        simp only [fillT, bind, Option.bind, Pure.pure] at h
        cases h1 : fillCs E (zeroOf g) (fillN E (zeroOf g) F) d cs (skipField (.name t n) fs) a with
        | none => rw [h1] at h; cases h
        | some rest =>
          rw [h1] at h
          simp only at h
          simp only [cleanDecl] at hcl1
          obtain ⟨f, w, rest0, rfl, hcl1⟩ := hcl1
          simp only [fillDecl] at h
          cases h2 : fillD E (zeroOf g) (fillN E (zeroOf g) F) t w d with
          | none => rw [h2] at h; cases h
          | some w' =>
            simp only [h2, Option.map_some, Option.some.injEq] at h
            subst h
            have e1 := DeclType.fill_abs L hc t inArr w d w' hwf.1.2 hcl1 hm1 h2
            have e2 := Cases.fill_abs L hc κ d cs inArr _ a rest hwf.2 hcl2 hm2 h1
            simp [absT, absDecl, skipField, e1, e2]
  | .ident n, _, v, x, v', _, hcl, hm, h => by
    simp only [cleanT] at hcl; simp only [memT] at hm; simp only [fillT] at h
    simp only [absT]; exact hc n v x v' hcl hm h
  | .float, _, _, _, _, h, _, _, _ => by simp [Typespec.wf] at h
  | .double, _, _, _, _, h, _, _, _ => by simp [Typespec.wf] at h
  | .quadruple, _, _, _, _, h, _, _, _ => by simp [Typespec.wf] at h
  | .enum _, _, _, _, _, h, _, _, _ => by simp [Typespec.wf] at h
theorem DeclType.fill_abs (L : Link g E defs K)
    (hc : ∀ n v x v', Clean E n v → IsValue E n x → fillN E (zeroOf g) F n v x = some v' →
      absN E F n v' = some x) :
    ∀ (t : DeclType) (inArr : Bool) (v : GoVal) (x : XVal) (v' : GoVal), t.wf E K inArr = true →
      cleanD E (Clean E) t v → memD E (IsValue E) t x →
      fillD E (zeroOf g) (fillN E (zeroOf g) F) t v x = some v' → absD E (absN E F) t v' = some x
  | .typespec t, inArr, v, x, v', hwf, hcl, hm, h => by
    simp only [DeclType.wf] at hwf
    simp only [cleanD] at hcl
    simp only [memD] at hm
    simp only [fillD] at h
    simp only [absD]
    exact Typespec.fill_abs L hc t inArr v x v' hwf hcl hm h
  | .array _ _, _, _, _, _, h, _, _, _ => by simp [DeclType.wf] at h
  | .varArray t m, inArr, v, x, v', hwf, hcl, hm, h => by
    simp only [DeclType.wf, Bool.and_eq_true] at hwf
    simp only [memD] at hm; obtain ⟨l, mx, _, _, hm, rfl⟩ := hm
    obtain ⟨z, hz, _, hzc⟩ := zeroOf_ok L t true hwf.1.2
    simp only [fillD, hz, bind, Option.bind, Pure.pure] at h
    cases h1 : mapAll (fun x => fillT E (zeroOf g) (fillN E (zeroOf g) F) t z x) l with
    | none => rw [h1] at h; cases h
    | some r =>
      rw [h1] at h
      simp only [Option.some.injEq] at h
      subst h
      have hzc' : cleanT E (Clean E) t z := cleanT_mono (fun n v h => ⟨_, h⟩) t z hzc
      have := mapAll_inv (g := fun w => absT E (absN E F) t w)
        (fun a b ha hb => Typespec.fill_abs L hc t true z a b hwf.1.2 hzc' ha hb) l r hm h1
      simp [absD, this]
  | .opaqueArray _, _, v, x, v', _, _, hm, h => by
    simp only [memD] at hm; obtain ⟨b, _, rfl⟩ := hm
    simp only [fillD] at h; cases h; simp [absD]
  | .opaqueVarArray _, _, v, x, v', _, _, hm, h => by
    simp only [memD] at hm; obtain ⟨b, _, _, _, rfl⟩ := hm
    simp only [fillD] at h; cases h; simp [absD]
  | .string _, _, v, x, v', _, _, hm, h => by
    simp only [memD] at hm; obtain ⟨b, _, _, _, rfl⟩ := hm
    simp only [fillD] at h; cases h; simp [absD]
  | .ptr t, inArr, v, x, v', hwf, hcl, hm, h => by
    simp only [DeclType.wf] at hwf
    simp only [memD] at hm; obtain ⟨o, hm, rfl⟩ := hm
    simp only [cleanD] at hcl; subst hcl
    cases o with
    | none => simp only [fillD] at h; cases h; simp [absD]
    | some y =>
      obtain ⟨z, hz, _, hzc⟩ := zeroOf_ok L t inArr hwf
      simp only [fillD, hz, bind, Option.bind, Pure.pure] at h
      cases h1 : fillT E (zeroOf g) (fillN E (zeroOf g) F) t z y with
      | none => rw [h1] at h; cases h
      | some r =>
        rw [h1] at h
        simp only [Option.some.injEq] at h
        subst h
        have hzc' : cleanT E (Clean E) t z := cleanT_mono (fun n v h => ⟨_, h⟩) t z hzc
        simp [absD, Typespec.fill_abs L hc t inArr z y r hwf hzc' (hm y rfl) h1]
theorem Decl.fill_abs (L : Link g E defs K)
    (hc : ∀ n v x v', Clean E n v → IsValue E n x → fillN E (zeroOf g) F n v x = some v' →
      absN E F n v' = some x) :
    ∀ (d : Decl) (inArr : Bool) (fs : List (Ident × GoVal)) (x : XVal)
      (rest fs' : List (Ident × GoVal)), d.wf E K inArr = true →
      cleanDecl E (Clean E) d fs → memArm E (IsValue E) d x →
      fillDecl E (zeroOf g) (fillN E (zeroOf g) F) d fs x rest = some fs' →
      absDecl E (absN E F) d fs' = some x
  | .void, _, fs, x, rest, fs', _, _, hm, h => by
    simp only [memArm] at hm; subst hm; simp [absDecl]
  | .name t n, inArr, fs, x, rest, fs', hwf, hcl, hm, h => by
    simp only [Decl.wf] at hwf
    simp only [memArm] at hm
    simp only [cleanDecl] at hcl
    obtain ⟨f, w, rest0, rfl, hcl⟩ := hcl
    simp only [fillDecl] at h
    obtain ⟨w', h1, rfl⟩ := except_map_eq h
    simp [absDecl, DeclType.fill_abs L hc t inArr w x w' hwf hcl hm h1]
theorem Decls.fill_abs (L : Link g E defs K)
    (hc : ∀ n v x v', Clean E n v → IsValue E n x → fillN E (zeroOf g) F n v x = some v' →
      absN E F n v' = some x) :
    ∀ (ds : Decls) (inArr : Bool) (fs : List (Ident × GoVal)) (l : List XVal)
      (fs' : List (Ident × GoVal)), ds.wf E K inArr = true →
      cleanDs E (Clean E) ds fs → memDs E (IsValue E) ds l →
      fillDs E (zeroOf g) (fillN E (zeroOf g) F) ds fs l = some fs' →
      absDs E (absN E F) ds fs' = some l
  | .nil, _, fs, l, fs', _, _, hm, h => by
    simp only [memDs] at hm; subst hm; simp [absDs]
  | .cons .void ds, inArr, fs, l, fs', hwf, hcl, hm, h => by
    simp only [Decls.wf, Bool.and_eq_true] at hwf
    simp only [memDs] at hm
    simp only [cleanDs, skipField] at hcl
    simp only [fillDs] at h
    simp only [absDs]
    exact Decls.fill_abs L hc ds inArr fs l fs' hwf.2 hcl.2 hm h
  | .cons (.name t n) ds, inArr, fs, l, fs', hwf, hcl, hm, h => by
    simp only [Decls.wf, Decl.wf, Bool.and_eq_true] at hwf
    simp only [memDs] at hm
    obtain ⟨x, l', hm1, hm2, rfl⟩ := hm
    simp only [cleanDs, skipField, cleanDecl] at hcl
    obtain ⟨⟨f, w, rest0, rfl, hcl1⟩, hcl2⟩ := hcl
    simp only [fillDs, bind, Option.bind] at h
    cases h2 : fillDs E (zeroOf g) (fillN E (zeroOf g) F) ds ((f, w) :: rest0).tail l' with
    | none => rw [h2] at h; cases h
    | some rest =>
      rw [h2] at h
      simp only [fillDecl] at h
      obtain ⟨w', h1, rfl⟩ := except_map_eq h
      have e1 := DeclType.fill_abs L hc t inArr w x w' hwf.1 hcl1 hm1 h1
      have e2 := Decls.fill_abs L hc ds inArr _ l' rest hwf.2 hcl2 hm2 h2
      simp [absDs, absDecl, e1, e2]
theorem Cases.fill_abs (L : Link g E defs K)
    (hc : ∀ n v x v', Clean E n v → IsValue E n x → fillN E (zeroOf g) F n v x = some v' →
      absN E F n v' = some x) (κ : Kind) (d : XVal) :
    ∀ (cs : Cases) (inArr : Bool) (fs : List (Ident × GoVal)) (x : XVal)
      (fs' : List (Ident × GoVal)), cs.wf E K inArr κ = true →
      cleanCs E (Clean E) cs fs → memCs E (IsValue E) d cs x →
      fillCs E (zeroOf g) (fillN E (zeroOf g) F) d cs fs x = some fs' →
      absCs E (absN E F) d cs fs' = some x
  | .nil, _, fs, x, fs', _, _, hm, h => by
    simp only [memCs] at hm; subst hm; simp [absCs]
  | .dflt b, inArr, fs, x, fs', hwf, hcl, hm, h => by
    simp only [Cases.wf] at hwf
    simp only [cleanCs] at hcl
    simp only [memCs] at hm
    simp only [fillCs] at h
    simp only [absCs]
    exact Decl.fill_abs L hc b inArr fs x _ fs' hwf hcl hm h
  | .cons l more b cs, inArr, fs, x, fs', hwf, hcl, hm, h => by
    simp only [Cases.wf, Bool.and_eq_true] at hwf
    simp only [cleanCs] at hcl
    simp only [memCs] at hm
    simp only [fillCs] at h
    simp only [absCs]
    by_cases hs : selects E d (l :: more) = true
    · rw [if_pos hs] at hm h ⊢
      exact Decl.fill_abs L hc b inArr fs x _ fs' hwf.1.2 hcl.1 hm h
    · rw [if_neg hs] at hm h ⊢
      simp only [bind, Option.bind, Pure.pure] at h
      cases h2 : fillCs E (zeroOf g) (fillN E (zeroOf g) F) d cs (skipField b fs) x with
      | none => rw [h2] at h; cases h
      | some rest =>
        rw [h2] at h
        simp only [Option.some.injEq] at h
        subst h
        have e2 := Cases.fill_abs L hc κ d cs inArr _ x rest hwf.2 hcl.2 hm h2
        cases b with
        | void => simpa [skipField, keepField] using e2
        | name t n =>
          obtain ⟨f, w, rest0, rfl, _⟩ := hcl.1
          simpa [skipField, keepField] using e2
end

theorem fillN_abs (L : Link g E defs K) (F : Nat) : ∀ n v x v', Clean E n v → IsValue E n x →
    fillN E (zeroOf g) F n v x = some v' → absN E F n v' = some x := by
  induction F with
  | zero => intro n v x v' _ _ h; cases h
  | succ F ih =>
    intro n v x v' hcl hm h
    obtain ⟨t, ht, hm⟩ := IsValue.unfold hm
    obtain ⟨k, hcl⟩ := hcl
    cases k with
    | zero => exact hcl.elim
    | succ k =>
      obtain ⟨t', ht', hcl⟩ := hcl
      rw [ht] at ht'; cases ht'
      simp only [fillN, absN, ht, Option.bind_some] at h ⊢
      have key : ∀ u u', cleanD E (cleanN E k) t u →
          fillD E (zeroOf g) (fillN E (zeroOf g) F) t u x = some u' → absD E (absN E F) t u' = some x :=
        fun u u' hu hf => DeclType.fill_abs L ih t false u x u' (L.wf n t ht)
          (cleanD_mono (fun n v h => ⟨k, h⟩) t u hu) hm hf
      rcases t.ptr_or with ⟨t', rfl⟩ | hn
      · obtain ⟨f, rfl⟩ := hcl
        simp only [fillTop] at h
        obtain ⟨w', h1, rfl⟩ := except_map_eq h
        simp only [absTop]
        exact key _ w' (by simp only [cleanD]) h1
      · have hcl' : cleanD E (cleanN E k) t v := by cases t <;> first | exact hcl | exact hn.elim
        have h' : fillD E (zeroOf g) (fillN E (zeroOf g) F) t v x = some v' := by
          cases t <;> first | exact h | exact hn.elim
        have := key v v' hcl' h'
        cases t <;> first | exact this | exact hn.elim

end

end Verif.Gen
