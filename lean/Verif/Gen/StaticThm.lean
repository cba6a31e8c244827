/-
Helper theorems for `Props.Typing`: the bodies of the generated methods type-check.
-/
import Verif.Gen.StaticLemmas

namespace Verif.Gen
open Verif.Spec

/-! ### Scopes -/

/-- Variables of generated methods. -/
def locNames : List Ident := ["v", "xs", "i", "opted", "__arraysz"]

def ScopeOk (Γ : Scope) : Prop := ∀ x ∈ Γ.all.map (·.1), x ∈ locNames

theorem ScopeOk.hidden {Γ : Scope} (h : ScopeOk Γ) : ∀ x ∈ Γ.hidden, x ∈ locNames := by
  intro x hx
  simp only [Scope.hidden, List.mem_cons] at hx
  rcases hx with rfl | rfl | hx
  · simp [locNames]
  · simp [locNames]
  · exact h x hx

theorem locNames_bad : ∀ x ∈ locNames, x ∈ badNames := by decide

theorem ScopeOk.bad {Γ : Scope} (h : ScopeOk Γ) : ∀ x ∈ Γ.hidden, x ∈ badNames :=
  fun x hx => locNames_bad x (h.hidden x hx)

theorem ScopeOk.enter {Γ : Scope} (h : ScopeOk Γ) : ScopeOk Γ.enter := by
  simpa [ScopeOk, Scope.enter, Scope.all] using h

theorem ScopeOk.add {Γ : Scope} (h : ScopeOk Γ) {x : Ident} (hx : x ∈ locNames) (t : LTy) :
    ScopeOk (Γ.add x t) := by
  intro y hy
  simp only [Scope.add, Scope.all, List.cons_append, List.map_cons, List.mem_cons] at hy
  rcases hy with rfl | hy
  · exact hx
  · exact h y hy

theorem find_enter (Γ : Scope) (x : Ident) : Γ.enter.find x = Γ.find x := by
  simp [Scope.find, Scope.enter, Scope.all]

theorem find_add (Γ : Scope) (x y : Ident) (t : LTy) :
    (Γ.add x t).find y = if y = x then some t else Γ.find y := by
  simp only [Scope.find, Scope.add, Scope.all, List.cons_append, List.lookup_cons]
  by_cases h : y = x
  · subst h; simp
  · have : (y == x) = false := by simpa using h
    simp [h, this]

/-! ### Expressions in larger scopes -/

/-- The generated address expressions mention no variable but the receiver and `i`. -/
def Ex.clean : Ex → Bool
  | .recv => true
  | .var _ => false
  | .addr e => e.clean
  | .deref e => e.clean
  | .field e _ => e.clean
  | .index e ix => decide (ix = iVar) && e.clean

/-- `i` is an integer variable in the second scope if it is in the first. -/
def SameI (Γ Γ' : Scope) : Prop := (Γ.find iVar).any LTy.isInt = true → (Γ'.find iVar).any LTy.isInt = true

theorem exTy_scope {g : GoProg} {T : Ident} {Γ Γ' : Scope} (hi : SameI Γ Γ') : ∀ {e : Ex}
    {r : GoType × Bool}, e.clean = true → exTy g T Γ e = some r → exTy g T Γ' e = some r
  | .recv, r, _, h => h
  | .var x, r, hc, _ => by simp [Ex.clean] at hc
  | .addr e, r, hc, h => by
    simp only [Ex.clean] at hc
    simp only [exTy] at h ⊢
    cases he : exTy g T Γ e with
    | none => rw [he] at h; cases h
    | some q => rw [exTy_scope hi hc he]; rw [he] at h; exact h
  | .deref e, r, hc, h => by
    simp only [Ex.clean] at hc
    simp only [exTy] at h ⊢
    cases he : exTy g T Γ e with
    | none => rw [he] at h; cases h
    | some q => rw [exTy_scope hi hc he]; rw [he] at h; exact h
  | .field e f, r, hc, h => by
    simp only [Ex.clean] at hc
    simp only [exTy] at h ⊢
    cases he : exTy g T Γ e with
    | none => rw [he] at h; cases h
    | some q => rw [exTy_scope hi hc he]; rw [he] at h; exact h
  | .index e ix, r, hc, h => by
    simp only [Ex.clean, Bool.and_eq_true, decide_eq_true_eq] at hc
    obtain ⟨rfl, hc⟩ := hc
    simp only [exTy] at h ⊢
    split at h
    · rename_i hx
      rw [if_pos (hi hx)]
      cases he : exTy g T Γ e with
      | none => rw [he] at h; cases h
      | some q => rw [exTy_scope hi hc he]; rw [he] at h; exact h
    · cases h

/-! ### Pointer expressions -/

/-- `p` points to data of the Go type `gt` (or of a declared type with the same underlying type). -/
def Pt (g : GoProg) (T : Ident) (Γ : Scope) (p : Ex) (gt : GoType) : Prop :=
  p.clean = true ∧ ∃ u a, exTy g T Γ p = some (.ptr u, a) ∧ under g u = under g gt ∧
    ∀ w, gt = .ptr w → u = gt

theorem under_ptr (g : GoProg) (t : GoType) : under g (.ptr t) = some (.ptr t) := rfl
theorem under_struct (g : GoProg) (fs : GoFields) : under g (.struct fs) = some (.struct fs) := rfl
theorem under_slice (g : GoProg) (t : GoType) : under g (.slice t) = some (.slice t) := rfl

theorem Pt.scope {g : GoProg} {T : Ident} {Γ Γ' : Scope} {p : Ex} {gt : GoType} (hi : SameI Γ Γ')
    (h : Pt g T Γ p gt) : Pt g T Γ' p gt := by
  obtain ⟨hc, u, a, h1, h2⟩ := h
  exact ⟨hc, u, a, exTy_scope hi hc h1, h2⟩

theorem Pt.convertible {g : GoProg} {T : Ident} {Γ : Scope} {p : Ex} {gt : GoType}
    (h : Pt g T Γ p gt) (hs : (under g gt).isSome = true) : Spec.convertible g T Γ p gt = true := by
  obtain ⟨hc, u, a, h1, h2, _⟩ := h
  simp [Spec.convertible, h1, h2, hs]

theorem Pt.pointee {g : GoProg} {T : Ident} {Γ : Scope} {p : Ex} {gt : GoType}
    (h : Pt g T Γ p gt) : (Spec.pointee g T Γ p).bind (under g) = under g gt := by
  obtain ⟨hc, u, a, h1, h2, _⟩ := h
  simp [Spec.pointee, h1, under_ptr, h2]

/-- `*p` for `p` pointing to a pointer. -/
theorem Pt.deref {g : GoProg} {T : Ident} {Γ : Scope} {p : Ex} {gt : GoType}
    (h : Pt g T Γ p (.ptr gt)) : Pt g T Γ (.deref p) gt := by
  obtain ⟨hc, u, a, h1, _, h3⟩ := h
  have := h3 gt rfl
  subst this
  exact ⟨hc, gt, true, by simp [exTy, h1, under_ptr], rfl, fun w hw => rfl⟩

theorem Pt.field {g : GoProg} {T : Ident} {Γ : Scope} {p : Ex} {gt w : GoType} {fs : GoFields}
    {f : Ident} (h : Pt g T Γ p gt) (hu : under g gt = some (.struct fs)) (hf : f ≠ "_")
    (hl : fs.lookup f = some w) : exTy g T Γ (.field p f) = some (w, true) := by
  obtain ⟨hc, u, a, h1, h2, _⟩ := h
  simp [exTy, h1, under_ptr, selField, h2, hu, hf, hl]

theorem Pt.fieldPtr {g : GoProg} {T : Ident} {Γ : Scope} {p : Ex} {gt w : GoType} {fs : GoFields}
    {f : Ident} (h : Pt g T Γ p gt) (hu : under g gt = some (.struct fs)) (hf : f ≠ "_")
    (hl : fs.lookup f = some w) : Pt g T Γ (Gen.fieldPtr p f) w := by
  have := h.field hu hf hl
  exact ⟨h.1, w, false, by simp [Gen.fieldPtr, exTy] at this ⊢; simp [this], rfl, fun _ _ => rfl⟩

theorem Pt.elemPtr {g : GoProg} {T : Ident} {Γ : Scope} {p : Ex} {gt w : GoType}
    (h : Pt g T Γ p gt) (hu : under g gt = some (.slice w)) (hi : (Γ.find iVar).any LTy.isInt = true) :
    Pt g T Γ (Gen.elemPtr p) w := by
  obtain ⟨hc, u, a, h1, h2, _⟩ := h
  refine ⟨by simp [Gen.elemPtr, Ex.clean, hc], w, false, ?_, rfl, fun _ _ => rfl⟩
  simp [Gen.elemPtr, exTy, h1, under_ptr, h2, hu, hi]

/-! ### Statement lists -/

def Stmts.noDecl : Stmts → Bool
  | .nil => true
  | .cons s b => (declares s).isNone && b.noDecl

theorem noDecl_append : ∀ (b c : Stmts), (b ++ c).noDecl = (b.noDecl && c.noDecl)
  | .nil, c => rfl
  | .cons s b, c => by
    show ((declares s).isNone && (b ++ c).noDecl) = _
    rw [noDecl_append b c]
    simp [Stmts.noDecl, Bool.and_assoc]

theorem stmtsOk_append {g : GoProg} {T : Ident} {Γ : Scope} : ∀ (b c : Stmts), b.noDecl = true →
    stmtsOk g T Γ (b ++ c) = (stmtsOk g T Γ b && stmtsOk g T Γ c)
  | .nil, c, _ => by show stmtsOk g T Γ c = _; simp [stmtsOk]
  | .cons s b, c, h => by
    simp only [Stmts.noDecl, Bool.and_eq_true, Option.isNone_iff_eq_none] at h
    show stmtsOk g T Γ (.cons s (b ++ c)) = _
    simp only [stmtsOk, h.1]
    rw [stmtsOk_append b c h.2, Bool.and_assoc]

/-- The fields of `fs` are fields of `all`. -/
def FieldsIn (all : GoFields) : GoFields → Prop
  | .nil => True
  | .cons n t fs => all.lookup n = some t ∧ FieldsIn all fs

theorem fieldsIn_cons {all : GoFields} {n : Ident} {t : GoType} : ∀ {fs : GoFields}, n ∉ fs.names →
    FieldsIn all fs → FieldsIn (.cons n t all) fs
  | .nil, _, _ => trivial
  | .cons m u fs, hn, h => by
    simp only [GoFields.names, List.mem_cons, not_or] at hn
    refine ⟨?_, fieldsIn_cons hn.2 h.2⟩
    simp only [GoFields.lookup, if_neg (Ne.symm hn.1)]
    exact h.1

theorem fieldsIn_self : ∀ {fs : GoFields}, fs.names.Nodup → FieldsIn fs fs
  | .nil, _ => trivial
  | .cons n t fs, h => by
    simp only [GoFields.names, List.nodup_cons] at h
    exact ⟨by simp [GoFields.lookup], fieldsIn_cons h.1 (fieldsIn_self h.2)⟩

section
variable {fl : Flags} {s : Spec} {g : GoProg}
local notation "E" => envOf fl.unsignedEnum s
local notation "K" => nameBound fl s

theorem Typespec.under (H : Comp fl s g) {inArr : Bool} {t : Typespec} {gt : GoType}
    (hw : t.wf E K inArr = true) (h : t.goType = some gt) : (Spec.under g gt).isSome = true := by
  cases t with
  | int b => cases b <;> (cases h; rfl)
  | hyper b => cases b <;> (cases h; rfl)
  | bool => cases h; rfl
  | struct ds =>
    simp only [Typespec.goType] at h
    obtain ⟨fs, _, h⟩ := bind_some h
    cases h; rfl
  | union sw cs =>
    simp only [Typespec.goType] at h
    obtain ⟨f, _, h⟩ := bind_some h
    obtain ⟨fs, _, h⟩ := bind_some h
    cases h; rfl
  | ident n =>
    cases h
    simp only [Typespec.wf] at hw
    exact H.under_isSome hw
  | _ => simp [Typespec.wf] at hw

/-! ### Labels -/

theorem Cases.wf_labels {inArr : Bool} {κ : Kind} : ∀ {cs : Cases}, cs.wf E K inArr κ = true →
    ∀ l ∈ cs.labels, ∃ lab, specLabel s l = some lab ∧ labelFits κ lab = true
  | .nil, _, l, hl => by simp [Cases.labels] at hl
  | .dflt d, _, l, hl => by simp [Cases.labels] at hl
  | .cons l0 ls d cs, h, l, hl => by
    simp only [Cases.wf, Bool.and_eq_true, List.all_eq_true] at h
    simp only [Cases.labels, List.cons_append, List.mem_cons, List.mem_append] at hl
    have : l ∈ l0 :: ls ∨ l ∈ cs.labels := by
      rcases hl with rfl | hl | hl
      · exact .inl (by simp)
      · exact .inl (by simp [hl])
      · exact .inr hl
    rcases this with hl | hl
    · have := h.1.1 l hl
      rw [Option.any_eq_true] at this
      exact this
    · exact Cases.wf_labels h.2 l hl

/-- The clauses of one arm. -/
theorem casesOk_goLabels {T : Ident} {Γ : Scope} {gt : GoType} {b : Stmts} {cs : GoCases}
    (hb : stmtsOk g T Γ.enter b = true) : ∀ (ls : List Val) (l : Val) (seen : List Label)
    (_ : ∀ l' ∈ l :: ls, ∃ lab, specLabel s l' = some lab ∧ caseVal g Γ.hidden gt (iVal l') = some lab)
    (_ : ((l :: ls).map (specLabel s)).Nodup)
    (_ : ∀ l' ∈ l :: ls, ∀ v, specLabel s l' = some v → v ∉ seen)
    (_ : ∀ seen', (∀ v ∈ seen', v ∈ seen ∨ some v ∈ (l :: ls).map (specLabel s)) →
      casesOk g T Γ gt seen' cs = true),
    casesOk g T Γ gt seen (goLabels l ls b cs) = true
  | [], l, seen, hl, hnd, hdis, hcs => by
    obtain ⟨lab, h1, h2⟩ := hl l (by simp)
    have h3 := hdis l (by simp) lab h1
    simp only [goLabels, casesOk, h2, h3, hb, Bool.and_eq_true]
    refine ⟨by simp, hcs _ ?_⟩
    intro v hv
    simp only [List.mem_cons] at hv
    rcases hv with rfl | hv
    · exact .inr (by simp [h1])
    · exact .inl hv
  | l' :: ls, l, seen, hl, hnd, hdis, hcs => by
    obtain ⟨lab, h1, h2⟩ := hl l (by simp)
    have h3 := hdis l (by simp) lab h1
    simp only [goLabels, casesOk, h2, h3, Bool.and_eq_true]
    refine ⟨by simp [stmtsOk, goLabels_ne], ?_⟩
    rw [List.map_cons, List.nodup_cons] at hnd
    refine casesOk_goLabels hb ls l' _ (fun l2 h => hl l2 (List.mem_cons_of_mem _ h)) hnd.2 ?_ ?_
    · intro l2 h2' v hv
      simp only [List.mem_cons, not_or]
      refine ⟨?_, hdis l2 (List.mem_cons_of_mem _ h2') v hv⟩
      rintro rfl
      exact hnd.1 (List.mem_map.mpr ⟨l2, h2', by rw [hv, h1]⟩)
    · intro seen' hs
      refine hcs seen' fun v hv => ?_
      rcases hs v hv with h | h
      · simp only [List.mem_cons] at h
        rcases h with rfl | h
        · exact .inr (by simp [h1])
        · exact .inl h
      · exact .inr (List.mem_cons_of_mem _ h)
where
  goLabels_ne : ∀ {l : Val} {ls : List Val} {b : Stmts} {cs : GoCases}, goLabels l ls b cs ≠ .nil := by
    intro l ls b cs
    cases ls <;> simp [goLabels]

/-! ### The generated statements -/

mutual
theorem Typespec.static (H : Comp fl s g) {T : Ident} {inArr : Bool} : ∀ (t : Typespec) {Γ : Scope} {p : Ex}
    {b : Stmts} {gt : GoType}, t.wf E K inArr = true → t.chk fl s = true → t.goXdr p = some b →
    t.goType = some gt → ScopeOk Γ → Pt g T Γ p gt → stmtsOk g T Γ b = true ∧ b.noDecl = true
  | .int true, Γ, p, b, gt, _, _, hb, hg, hΓ, hp => by
    simp only [Typespec.goXdr, Option.some.injEq] at hb
    subst hb; cases hg
    simp [stmtsOk, stmtOk, declares, Stmts.noDecl, hp.convertible rfl]
  | .int false, Γ, p, b, gt, _, _, hb, hg, hΓ, hp => by
    simp only [Typespec.goXdr, Option.some.injEq] at hb
    subst hb; cases hg
    simp [stmtsOk, stmtOk, declares, Stmts.noDecl, hp.convertible rfl]
  | .hyper true, Γ, p, b, gt, _, _, hb, hg, hΓ, hp => by
    simp only [Typespec.goXdr, Option.some.injEq] at hb
    subst hb; cases hg
    simp [stmtsOk, stmtOk, declares, Stmts.noDecl, hp.convertible rfl]
  | .hyper false, Γ, p, b, gt, _, _, hb, hg, hΓ, hp => by
    simp only [Typespec.goXdr, Option.some.injEq] at hb
    subst hb; cases hg
    simp [stmtsOk, stmtOk, declares, Stmts.noDecl, hp.convertible rfl]
  | .bool, Γ, p, b, gt, _, _, hb, hg, hΓ, hp => by
    simp only [Typespec.goXdr, Option.some.injEq] at hb
    subst hb; cases hg
    simp [stmtsOk, stmtOk, declares, Stmts.noDecl, hp.convertible rfl]
  | .float, _, _, _, _, h, _, _, _, _, _ => by simp [Typespec.wf] at h
  | .double, _, _, _, _, h, _, _, _, _, _ => by simp [Typespec.wf] at h
  | .quadruple, _, _, _, _, h, _, _, _, _, _ => by simp [Typespec.wf] at h
  | .enum _, _, _, _, _, h, _, _, _, _, _ => by simp [Typespec.wf] at h
  | .ident n, Γ, p, b, gt, hw, _, hb, hg, hΓ, hp => by
    simp only [Typespec.goXdr, Option.some.injEq] at hb
    subst hb; cases hg
    simp only [Typespec.wf] at hw
    have hl := H.typeOf_lookup hw
    have hbad := H.type_bad hl
    have hm : (g.methods.lookup (i n)).isSome = true := by
      cases ht : (envOf fl.unsignedEnum s).typeOf n with
      | none => simp [ht] at hw
      | some t =>
        have hlk := (lookup_mapAll _ _ n t H.facts.types (generate_types H.facts.gen).2 ht).2
        obtain ⟨b, _, hb⟩ := hlk
        simp [hb]
    simp [stmtsOk, stmtOk, declares, Stmts.noDecl, hp.convertible (H.under_isSome hw), hm,
      show i n ∉ Γ.hidden from fun h => hbad (hΓ.bad _ h)]
  | .struct ds, Γ, p, b, gt, hw, hc, hb, hg, hΓ, hp => by
    simp only [Typespec.wf, Bool.and_eq_true, decide_eq_true_eq] at hw
    simp only [Typespec.chk] at hc
    simp only [Typespec.goXdr] at hb
    simp only [Typespec.goType] at hg
    obtain ⟨fs, hfs, hg⟩ := bind_some hg
    cases hg
    exact Decls.static H ds hw.2 hc hb hfs hΓ hp (under_struct g fs)
      (fieldsIn_self (by rw [Decls.goFields_names hfs]; exact hw.1))
  | .union sw cs, Γ, p, b, gt, hw, hc, hb, hg, hΓ, hp => by
    cases sw with
    | void => simp [Typespec.goXdr] at hb
    | name t n =>
      simp only [Typespec.wf, Bool.and_eq_true, decide_eq_true_eq] at hw
      simp only [Typespec.chk, Bool.and_eq_true] at hc
      simp only [Typespec.goXdr] at hb
      obtain ⟨b1, hb1, hb⟩ := bind_some hb
      obtain ⟨b2, hb2, hb⟩ := bind_some hb
      cases hb
      simp only [Typespec.goType] at hg
      obtain ⟨f, hf, hg⟩ := bind_some hg
      obtain ⟨fs, hfs, hg⟩ := bind_some hg
      cases hg
      have hnd : (f fs).names.Nodup := by
        rw [Decl.goField_names hf, Cases.goFields_names hfs]; exact hw.1.1
      have hin := fieldsIn_self hnd
      simp only [Decl.goField] at hf
      obtain ⟨gt', hgt', hf⟩ := bind_some hf
      cases hf
      cases hk : Decl.kindOf E K (.name t n) with
      | none => rw [hk] at hw; simp at hw
      | some κ =>
        rw [hk] at hw
        simp only [Decl.chk, Bool.and_eq_true, decide_eq_true_eq] at hc
        have hkt : Gen.kindOf E K t = some κ := hk
        have hlk : (GoFields.cons (i n) gt' fs).lookup (i n) = some gt' := by simp [GoFields.lookup]
        have hwt : t.wf E K inArr = true := by
          have := hw.1.2
          simp only [Decl.wf] at this
          exact this
        have h1 := DeclType.static H t hwt hc.1.1.2 hb1 hgt' hΓ
          (hp.fieldPtr (under_struct g _) hc.1.1.1 hlk)
        have hlab := hc.2
        simp only [labelsOk, hgt', hkt, Bool.and_eq_true, decide_eq_true_eq] at hlab
        have hcase : ∀ l ∈ cs.labels, ∃ lab, specLabel s l = some lab ∧
            caseVal g Γ.hidden gt' (iVal l) = some lab := by
          intro l hl
          obtain ⟨lab, h2, h3⟩ := Cases.wf_labels hw.2 l hl
          refine ⟨lab, h2, H.caseVal_of hΓ.bad ?_ hkt hgt' h2 h3 ?_⟩
          · exact ⟨fun h => absurd (hΓ.hidden _ h) (by decide),
              fun h => absurd (hΓ.hidden _ h) (by decide)⟩
          · intro m hm
            have := hlab.2
            rw [hm] at this
            exact List.all_eq_true.mp this l hl
        have h2 := Cases.static H κ cs hw.2 hc.1.2 hb2 hfs hΓ hp (under_struct g _) hin.2 gt' []
          hcase hlab.1 (by simp)
        refine ⟨?_, ?_⟩
        · rw [stmtsOk_append _ _ h1.2, h1.1]
          simp [stmtsOk, stmtOk, declares, hp.field (under_struct g _) hc.1.1.1 hlk, h2]
        · rw [noDecl_append, h1.2]; rfl
theorem DeclType.static (H : Comp fl s g) {T : Ident} {inArr : Bool} : ∀ (t : DeclType) {Γ : Scope}
    {p : Ex} {b : Stmts} {gt : GoType}, t.wf E K inArr = true → t.chk fl s = true → t.goXdr p = some b →
    t.goType = some gt → ScopeOk Γ → Pt g T Γ p gt → stmtsOk g T Γ b = true ∧ b.noDecl = true
  | .typespec t, Γ, p, b, gt, hw, hc, hb, hg, hΓ, hp => by
    simp only [DeclType.wf] at hw
    simp only [DeclType.chk] at hc
    simp only [DeclType.goXdr] at hb
    simp only [DeclType.goType] at hg
    exact Typespec.static H t hw hc hb hg hΓ hp
  | .array _ _, _, _, _, _, h, _, _, _, _, _ => by simp [DeclType.wf] at h
  | .varArray t m, Γ, p, b, gt, hw, hc, hb, hg, hΓ, hp => by
    simp only [DeclType.wf, Bool.and_eq_true] at hw
    simp only [DeclType.chk, Bool.and_eq_true] at hc
    simp only [DeclType.goXdr] at hb
    simp only [DeclType.goType] at hg
    obtain ⟨gt', hgt', hg⟩ := bind_some hg
    cases hg
    obtain ⟨b', hb', hb⟩ := bind_some hb
    obtain ⟨gt2, hgt2, hb⟩ := bind_some hb
    rw [hgt'] at hgt2
    cases hgt2
    cases hb
    have hΓ1 : ScopeOk (Γ.enter.add arraysz (.val .uint32)) := hΓ.enter.add (by decide) _
    have hs1 : SameI Γ (Γ.enter.add arraysz (.val .uint32)) := by
      intro h
      rw [find_add, if_neg (by decide), find_enter]; exact h
    -- the loop and the allocation, in the block or in the `else` branch
    have hbody : ∀ Γ' : Scope, ScopeOk Γ' → SameI Γ Γ' → Γ'.find arraysz = some (.val .uint32) →
        stmtsOk g T Γ' (.cons (.ifDecoding (.cons (.assignMake p gt' arraysz) .nil))
          (.cons (.forU64 iVar arraysz b') .nil)) = true := by
      intro Γ' hΓ' hs' hf
      have hp' := hp.scope hs'
      have hin : ScopeOk (Γ'.enter.add iVar (.val .uint64)).enter := (hΓ'.enter.add (by decide) _).enter
      have hsi : SameI Γ (Γ'.enter.add iVar (.val .uint64)).enter := by
        intro _
        rw [find_enter, find_add, if_pos rfl]; rfl
      have hpi := (hp.scope hsi).elemPtr (under_slice g gt') (by
        rw [find_enter, find_add, if_pos rfl]; rfl)
      have hel := Typespec.static H t hw.1.2 hc.1 hb' hgt' hin hpi
      have hpe : Pt g T Γ'.enter p (.slice gt') := hp'.scope (fun h => by rw [find_enter]; exact h)
      simp only [stmtsOk, stmtOk, declares, Bool.and_eq_true, decide_eq_true_eq, find_enter, hf,
        Option.any_some, and_true]
      refine ⟨⟨⟨Typespec.typeOk H hΓ'.enter.bad t hw.1.2 hc.1 hgt', rfl⟩, ?_⟩, ⟨rfl, ?_⟩, hel.1⟩
      · rw [hpe.pointee]; rfl
      · simp [fresh, Scope.enter, iVar, predeclared]
    have hp1 := hp.scope hs1
    have hfa : (Γ.enter.add arraysz (.val .uint32)).find arraysz = some (.val .uint32) := by
      rw [find_add, if_pos rfl]
    refine ⟨?_, rfl⟩
    have hrest : stmtsOk g T (Γ.enter.add arraysz (.val .uint32))
        (checkMax m (.cons (.ifDecoding (.cons (.assignMake p gt' arraysz) .nil))
          (.cons (.forU64 iVar arraysz b') .nil))) = true := by
      cases m with
      | none => exact hbody _ hΓ1 hs1 hfa
      | some m =>
        have hmax := hc.2
        simp only [Option.all_some] at hmax
        have hcf := H.constFits_of (gt := .uint32) (m := 2 ^ 32) rfl hmax
        obtain ⟨c, hcm⟩ := max_const hw.2 m rfl
        have hv := H.const_bad hcm hΓ1.bad
        have := hbody _ hΓ1.enter (fun h => by rw [find_enter]; exact hs1 h) (by rw [find_enter]; exact hfa)
        simp only [checkMax, stmtsOk, stmtOk, declares, hfa, hv, hcf, Bool.and_eq_true, and_true]
        exact ⟨trivial, by simpa only [stmtsOk, stmtOk, declares, Bool.and_eq_true, and_true] using this⟩
    have hfr : fresh Γ.enter arraysz = true := by
      simp [fresh, Scope.enter, arraysz, predeclared]
    have hlen := hp1.pointee
    rw [under_slice] at hlen
    have hconv : Spec.convertible g T (Γ.enter.add arraysz (.val .uint32)) (.addr (.var arraysz)) .uint32
        = true := by
      simp [Spec.convertible, exTy, hfa]; rfl
    have huse : ∀ b, uses arraysz (.cons (.encSetSize arraysz p) b) = true := by
      intro b; simp [uses, usesS]
    have hs2 : stmtOk g T (Γ.enter.add arraysz (.val .uint32)) (.encSetSize arraysz p) = true := by
      simp [stmtOk, hfa, hlen]
    have hs3 : stmtOk g T (Γ.enter.add arraysz (.val .uint32)) (.xdrU32 (.addr (.var arraysz))) = true := by
      simp only [stmtOk]; exact hconv
    have hs4 : stmtsOk g T (Γ.enter.add arraysz (.val .uint32)) (.cons (.encSetSize arraysz p)
        (.cons (.xdrU32 (.addr (.var arraysz)))
        (checkMax m (.cons (.ifDecoding (.cons (.assignMake p gt' arraysz) .nil))
          (.cons (.forU64 iVar arraysz b') .nil))))) = true := by
      rw [stmtsOk, hs2, Bool.true_and]
      show stmtsOk _ _ _ (.cons _ _) = true
      rw [stmtsOk, hs3, Bool.true_and]
      exact hrest
    have hs5 : stmtsOk g T Γ.enter (.cons (.varU32 arraysz) (.cons (.encSetSize arraysz p)
        (.cons (.xdrU32 (.addr (.var arraysz)))
        (checkMax m (.cons (.ifDecoding (.cons (.assignMake p gt' arraysz) .nil))
          (.cons (.forU64 iVar arraysz b') .nil)))))) = true := by
      rw [stmtsOk]
      show (stmtOk _ _ _ (.varU32 arraysz) && (uses arraysz _ && stmtsOk _ _ _ _)) = true
      rw [hs4, huse]
      simp only [stmtOk, hfr, Bool.and_self]
    rw [stmtsOk]
    show (stmtOk _ _ _ (.block _) && stmtsOk _ _ _ .nil) = true
    rw [stmtOk, hs5]
    simp [stmtsOk]
  | .opaqueArray sz, Γ, p, b, gt, hw, hc, hb, hg, hΓ, hp => by
    simp only [DeclType.goXdr, Option.some.injEq] at hb
    simp only [DeclType.goType, Option.some.injEq] at hg
    subst hb hg
    refine ⟨?_, rfl⟩
    have := hp.pointee
    simp only [stmtsOk, stmtOk, declares, this]
    rfl
  | .opaqueVarArray m, Γ, p, b, gt, hw, hc, hb, hg, hΓ, hp => by
    simp only [DeclType.goXdr, Option.some.injEq] at hb
    simp only [DeclType.goType, Option.some.injEq] at hg
    subst hb hg
    simp only [DeclType.wf] at hw
    simp only [DeclType.chk] at hc
    refine ⟨?_, rfl⟩
    simp only [stmtsOk, stmtOk, declares, hp.convertible (show (Spec.under g .bytes).isSome = true from rfl),
      Bool.and_true]
    cases m with
    | none => rfl
    | some m =>
      obtain ⟨c, hcm⟩ := max_const hw m rfl
      simp only [Option.all_some] at hc ⊢
      rw [H.const_bad hcm hΓ.bad, H.constInt_of hc]; rfl
  | .string m, Γ, p, b, gt, hw, hc, hb, hg, hΓ, hp => by
    simp only [DeclType.goXdr, Option.some.injEq] at hb
    simp only [DeclType.goType, Option.some.injEq] at hg
    subst hb hg
    simp only [DeclType.wf] at hw
    simp only [DeclType.chk] at hc
    refine ⟨?_, rfl⟩
    simp only [stmtsOk, stmtOk, declares, hp.convertible (show (Spec.under g .string).isSome = true from rfl),
      Bool.and_true]
    cases m with
    | none => rfl
    | some m =>
      obtain ⟨c, hcm⟩ := max_const hw m rfl
      simp only [Option.all_some] at hc ⊢
      rw [H.const_bad hcm hΓ.bad, H.constInt_of hc]; rfl
  | .ptr t, Γ, p, b, gt, hw, hc, hb, hg, hΓ, hp => by
    simp only [DeclType.wf] at hw
    simp only [DeclType.chk] at hc
    simp only [DeclType.goXdr] at hb
    simp only [DeclType.goType] at hg
    obtain ⟨gt', hgt', hg⟩ := bind_some hg
    cases hg
    obtain ⟨b', hb', hb⟩ := bind_some hb
    obtain ⟨gt2, hgt2, hb⟩ := bind_some hb
    rw [hgt'] at hgt2
    cases hgt2
    cases hb
    refine ⟨?_, rfl⟩
    have hΓ1 : ScopeOk (Γ.enter.add opted (.val .bool)) := hΓ.enter.add (by decide) _
    have hs1 : SameI Γ (Γ.enter.add opted (.val .bool)) := by
      intro h
      rw [find_add, if_neg (by decide), find_enter]; exact h
    have hs2 : SameI Γ (Γ.enter.add opted (.val .bool)).enter := by
      intro h; rw [find_enter]; exact hs1 h
    have hs0 : SameI Γ Γ.enter := fun h => by rw [find_enter]; exact h
    have hfo : (Γ.enter.add opted (.val .bool)).find opted = some (.val .bool) := by
      rw [find_add, if_pos rfl]
    have hfr : fresh Γ.enter opted = true := by
      simp [fresh, Scope.enter, opted, predeclared]
    have hel := Typespec.static H t hw hc hb' hgt' hΓ1.enter (hp.scope hs2).deref
    have hpt := (hp.scope hs0).pointee
    have hpt2 := (hp.scope hs2).pointee
    rw [under_ptr] at hpt hpt2
    have hconv : Spec.convertible g T (Γ.enter.add opted (.val .bool)) (.addr (.var opted)) .bool
        = true := by
      simp [Spec.convertible, exTy, hfo]; rfl
    have hty := Typespec.typeOk H hΓ1.enter.bad t hw hc hgt'
    have huse : ∀ b, uses opted (.cons (.xdrBool (.addr (.var opted))) b) = true := by
      intro b; simp [uses, usesS, Ex.mentions]
    simp only [stmtsOk, stmtOk, declares, hfr, hpt, hconv, hfo, huse, hel.1, hty, hpt2, Bool.and_eq_true,
      decide_true, and_self]
theorem Decl.static (H : Comp fl s g) {T : Ident} {inArr : Bool} : ∀ (d : Decl) {Γ : Scope} {p : Ex}
    {b : Stmts} {f : GoFields → GoFields} {fs all : GoFields} {gt : GoType}, d.wf E K inArr = true →
    d.chk fl s = true → d.goXdr p = some b → d.goField = some f → ScopeOk Γ → Pt g T Γ p gt →
    Spec.under g gt = some (.struct all) → FieldsIn all (f fs) →
    (stmtsOk g T Γ b = true ∧ b.noDecl = true) ∧ FieldsIn all fs
  | .void, Γ, p, b, f, fs, all, gt, _, _, hb, hf, _, _, _, hin => by
    simp only [Decl.goXdr] at hb
    simp only [Decl.goField] at hf
    cases hb; cases hf
    exact ⟨⟨by simp only [stmtsOk], rfl⟩, hin⟩
  | .name t n, Γ, p, b, f, fs, all, gt, hw, hc, hb, hf, hΓ, hp, hu, hin => by
    simp only [Decl.wf] at hw
    simp only [Decl.chk, Bool.and_eq_true, decide_eq_true_eq] at hc
    simp only [Decl.goXdr] at hb
    simp only [Decl.goField] at hf
    obtain ⟨gt', hgt', hf⟩ := bind_some hf
    cases hf
    exact ⟨DeclType.static H t hw hc.2 hb hgt' hΓ (hp.fieldPtr hu hc.1 hin.1), hin.2⟩
theorem Decls.static (H : Comp fl s g) {T : Ident} {inArr : Bool} : ∀ (ds : Decls) {Γ : Scope} {p : Ex}
    {b : Stmts} {fs all : GoFields} {gt : GoType}, ds.wf E K inArr = true →
    ds.chk fl s = true → ds.goXdr p = some b → ds.goFields = some fs → ScopeOk Γ → Pt g T Γ p gt →
    Spec.under g gt = some (.struct all) → FieldsIn all fs →
    stmtsOk g T Γ b = true ∧ b.noDecl = true
  | .nil, Γ, p, b, fs, all, gt, _, _, hb, _, _, _, _, _ => by
    simp only [Decls.goXdr] at hb
    cases hb
    exact ⟨by simp only [stmtsOk], rfl⟩
  | .cons d ds, Γ, p, b, fs, all, gt, hw, hc, hb, hfs, hΓ, hp, hu, hin => by
    simp only [Decls.wf, Bool.and_eq_true] at hw
    simp only [Decls.chk, Bool.and_eq_true] at hc
    simp only [Decls.goXdr] at hb
    obtain ⟨b1, hb1, hb⟩ := bind_some hb
    obtain ⟨b2, hb2, hb⟩ := bind_some hb
    cases hb
    simp only [Decls.goFields] at hfs
    obtain ⟨f, hf, hfs⟩ := bind_some hfs
    obtain ⟨fs', hfs', hfs⟩ := bind_some hfs
    cases hfs
    obtain ⟨h1, hin'⟩ := Decl.static H d hw.1 hc.1 hb1 hf hΓ hp hu hin
    have h2 := Decls.static H ds hw.2 hc.2 hb2 hfs' hΓ hp hu hin'
    exact ⟨by rw [stmtsOk_append _ _ h1.2, h1.1, h2.1]; rfl, by rw [noDecl_append, h1.2, h2.2]; rfl⟩
theorem Cases.static (H : Comp fl s g) {T : Ident} {inArr : Bool} (κ : Kind) : ∀ (cs : Cases) {Γ : Scope}
    {p : Ex} {c : GoCases} {fs all : GoFields} {gt : GoType}, cs.wf E K inArr κ = true →
    cs.chk fl s = true → cs.goXdr p = some c → cs.goFields = some fs → ScopeOk Γ → Pt g T Γ p gt →
    Spec.under g gt = some (.struct all) → FieldsIn all fs → ∀ (swTy : GoType) (seen : List Label),
    (∀ l ∈ cs.labels, ∃ lab, specLabel s l = some lab ∧ caseVal g Γ.hidden swTy (iVal l) = some lab) →
    (cs.labels.map (specLabel s)).Nodup →
    (∀ l ∈ cs.labels, ∀ v, specLabel s l = some v → v ∉ seen) →
    casesOk g T Γ swTy seen c = true
  | .nil, Γ, p, c, fs, all, gt, _, _, hb, _, _, _, _, _, swTy, seen, _, _, _ => by
    simp only [Cases.goXdr] at hb
    cases hb
    simp only [casesOk]
  | .dflt d, Γ, p, c, fs, all, gt, hw, hc, hb, hfs, hΓ, hp, hu, hin, swTy, seen, _, _, _ => by
    simp only [Cases.wf] at hw
    simp only [Cases.chk] at hc
    simp only [Cases.goXdr] at hb
    obtain ⟨b1, hb1, hb⟩ := bind_some hb
    cases hb
    simp only [Cases.goFields] at hfs
    obtain ⟨f, hf, hfs⟩ := bind_some hfs
    cases hfs
    simp only [casesOk]
    exact (Decl.static H d hw hc hb1 hf hΓ.enter
      (hp.scope (fun h => by rw [find_enter]; exact h)) hu hin).1.1
  | .cons l ls d cs, Γ, p, c, fs, all, gt, hw, hc, hb, hfs, hΓ, hp, hu, hin, swTy, seen, hl, hnd, hdis => by
    simp only [Cases.wf, Bool.and_eq_true] at hw
    simp only [Cases.chk, Bool.and_eq_true] at hc
    simp only [Cases.goXdr] at hb
    obtain ⟨b1, hb1, hb⟩ := bind_some hb
    obtain ⟨c2, hc2, hb⟩ := bind_some hb
    cases hb
    simp only [Cases.goFields] at hfs
    obtain ⟨f, hf, hfs⟩ := bind_some hfs
    obtain ⟨fs', hfs', hfs⟩ := bind_some hfs
    cases hfs
    obtain ⟨h1, hin'⟩ := Decl.static H d hw.1.2 hc.1 hb1 hf hΓ.enter
      (hp.scope (fun h => by rw [find_enter]; exact h)) hu hin
    simp only [Cases.labels, List.map_append, List.nodup_append] at hnd
    have hsub : ∀ l' ∈ l :: ls, l' ∈ (Cases.cons l ls d cs).labels := by
      intro l' h; simp only [Cases.labels, List.mem_append]; exact .inl h
    have hsub2 : ∀ l' ∈ cs.labels, l' ∈ (Cases.cons l ls d cs).labels := by
      intro l' h; simp only [Cases.labels, List.mem_append]; exact .inr h
    refine casesOk_goLabels h1.1 ls l seen (fun l' h => hl l' (hsub l' h)) hnd.1
      (fun l' h => hdis l' (hsub l' h)) fun seen' hs => ?_
    refine Cases.static H κ cs hw.2 hc.2 hc2 hfs' hΓ hp hu hin' swTy seen'
      (fun l' h => hl l' (hsub2 l' h)) hnd.2.1 fun l' h v hv hvs => ?_
    rcases hs v hvs with h2 | h2
    · exact hdis l' (hsub2 l' h) v hv h2
    · exact hnd.2.2 _ h2 _ (List.mem_map.mpr ⟨l', h, hv⟩) rfl
end

end

end Verif.Gen
