/-
Fixed-length arrays of anything but `opaque` (out.go:55-61): the generated loop takes the address of
`*(p)[i]`, which in Go is `*((p)[i])`, although the elements of a generated array are never pointers.
-/
import Verif.Gen.StaticPkg

namespace Verif.Gen
open Verif.Spec

/-! ### What the claim speaks about -/

mutual
/-- Does the encoding of the type have any content?  Everything has but inline structures of nothing. -/
def Typespec.content : Typespec → Bool
  | .struct ds => ds.content
  | _ => true
def DeclType.content : DeclType → Bool
  | .typespec t => t.content
  | .array t _ => t.content
  | _ => true
def Decl.content : Decl → Bool
  | .void => false
  | .name t _ => t.content
def Decls.content : Decls → Bool
  | .nil => false
  | .cons d ds => d.content || ds.content
end

mutual
/-- Is there, at any depth, a fixed-length array of elements with content (that is not `opaque`)? -/
def Typespec.hasFixed : Typespec → Bool
  | .struct ds => ds.hasFixed
  | .union sw cs => sw.hasFixed || cs.hasFixed
  | _ => false
def DeclType.hasFixed : DeclType → Bool
  | .typespec t => t.hasFixed
  | .array t _ => t.content || t.hasFixed
  | .varArray t _ => t.hasFixed
  | .ptr t => t.hasFixed
  | _ => false
def Decl.hasFixed : Decl → Bool
  | .void => false
  | .name t _ => t.hasFixed
def Decls.hasFixed : Decls → Bool
  | .nil => false
  | .cons d ds => d.hasFixed || ds.hasFixed
def Cases.hasFixed : Cases → Bool
  | .nil => false
  | .dflt d => d.hasFixed
  | .cons _ _ d cs => d.hasFixed || cs.hasFixed
end

def Defn.hasFixed : Defn → Bool
  | .typedef d => d.hasFixed
  | .struct _ ds => ds.hasFixed
  | .union _ sw cs => sw.hasFixed || cs.hasFixed
  | _ => false

/-! ### Elements are not pointers -/

def notPtr : GoType → Bool
  | .ptr _ => false
  | _ => true

mutual
/-- The elements of arrays and slices in the type are not pointers. -/
def npe : GoType → Bool
  | .array _ t => notPtr t && npe t
  | .slice t => notPtr t && npe t
  | .ptr t => npe t
  | .struct fs => npeF fs
  | _ => true
def npeF : GoFields → Bool
  | .nil => true
  | .cons _ t fs => npe t && npeF fs
end

mutual
theorem Typespec.npe : ∀ {t : Typespec} {gt : GoType}, t.goType = some gt →
    notPtr gt = true ∧ Gen.npe gt = true
  | .int true, _, h => by cases h; exact ⟨rfl, rfl⟩
  | .int false, _, h => by cases h; exact ⟨rfl, rfl⟩
  | .hyper true, _, h => by cases h; exact ⟨rfl, rfl⟩
  | .hyper false, _, h => by cases h; exact ⟨rfl, rfl⟩
  | .float, _, h => by cases h; exact ⟨rfl, rfl⟩
  | .double, _, h => by cases h; exact ⟨rfl, rfl⟩
  | .quadruple, _, h => by simp [Typespec.goType] at h
  | .bool, _, h => by cases h; exact ⟨rfl, rfl⟩
  | .enum _, _, h => by cases h; exact ⟨rfl, rfl⟩
  | .ident _, _, h => by cases h; exact ⟨rfl, rfl⟩
  | .struct ds, _, h => by
    simp only [Typespec.goType] at h
    obtain ⟨fs, hfs, h⟩ := bind_some h
    cases h
    exact ⟨rfl, Decls.npe hfs⟩
  | .union sw cs, _, h => by
    simp only [Typespec.goType] at h
    obtain ⟨f, hf, h⟩ := bind_some h
    obtain ⟨fs, hfs, h⟩ := bind_some h
    cases h
    exact ⟨rfl, Decl.npe hf (Cases.npe hfs)⟩
theorem DeclType.npe : ∀ {t : DeclType} {gt : GoType}, t.goType = some gt → Gen.npe gt = true
  | .typespec t, _, h => (Typespec.npe (t := t) (by simpa only [DeclType.goType] using h)).2
  | .array t sz, _, h => by
    simp only [DeclType.goType] at h
    obtain ⟨gt, hg, h⟩ := bind_some h
    cases h
    simp [Gen.npe, Typespec.npe hg]
  | .varArray t sz, _, h => by
    simp only [DeclType.goType] at h
    obtain ⟨gt, hg, h⟩ := bind_some h
    cases h
    simp [Gen.npe, Typespec.npe hg]
  | .opaqueArray _, _, h => by cases h; rfl
  | .opaqueVarArray _, _, h => by cases h; rfl
  | .string _, _, h => by cases h; rfl
  | .ptr t, _, h => by
    simp only [DeclType.goType] at h
    obtain ⟨gt, hg, h⟩ := bind_some h
    cases h
    simp [Gen.npe, Typespec.npe hg]
theorem Decl.npe : ∀ {d : Decl} {f : GoFields → GoFields} {fs : GoFields}, d.goField = some f →
    npeF fs = true → npeF (f fs) = true
  | .void, f, fs, h, hfs => by cases h; exact hfs
  | .name t n, f, fs, h, hfs => by
    simp only [Decl.goField] at h
    obtain ⟨gt, hg, h⟩ := bind_some h
    cases h
    simp [npeF, DeclType.npe hg, hfs]
theorem Decls.npe : ∀ {ds : Decls} {fs : GoFields}, ds.goFields = some fs → npeF fs = true
  | .nil, _, h => by cases h; rfl
  | .cons d ds, _, h => by
    simp only [Decls.goFields] at h
    obtain ⟨f, hf, h⟩ := bind_some h
    obtain ⟨fs, hfs, h⟩ := bind_some h
    cases h
    exact Decl.npe hf (Decls.npe hfs)
theorem Cases.npe : ∀ {cs : Cases} {fs : GoFields}, cs.goFields = some fs → npeF fs = true
  | .nil, _, h => by cases h; rfl
  | .dflt d, _, h => by
    simp only [Cases.goFields] at h
    obtain ⟨f, hf, h⟩ := bind_some h
    cases h
    exact Decl.npe hf rfl
  | .cons _ _ d cs, _, h => by
    simp only [Cases.goFields] at h
    obtain ⟨f, hf, h⟩ := bind_some h
    obtain ⟨fs, hfs, h⟩ := bind_some h
    cases h
    exact Decl.npe hf (Cases.npe hfs)
end

/-- The declared types of a generated package. -/
def GoodTypes (g : GoProg) : Prop := ∀ n gt, g.types.lookup n = some gt → notPtr gt = true ∧ npe gt = true

theorem topType_npe {t : DeclType} {gt : GoType} (h : topType t = some gt) :
    notPtr gt = true ∧ npe gt = true := by
  cases t with
  | ptr t =>
    simp only [topType] at h
    obtain ⟨gt', h', rfl⟩ := except_map_eq h
    exact ⟨rfl, by simp [npe, npeF, DeclType.npe h']⟩
  | typespec t =>
    simp only [topType, DeclType.goType] at h
    exact Typespec.npe h
  | array t sz =>
    simp only [topType] at h
    refine ⟨?_, DeclType.npe h⟩
    simp only [DeclType.goType] at h
    obtain ⟨gt, hg, h⟩ := bind_some h
    cases h; rfl
  | varArray t sz =>
    simp only [topType] at h
    refine ⟨?_, DeclType.npe h⟩
    simp only [DeclType.goType] at h
    obtain ⟨gt, hg, h⟩ := bind_some h
    cases h; rfl
  | opaqueArray _ => cases h; exact ⟨rfl, rfl⟩
  | opaqueVarArray _ => cases h; exact ⟨rfl, rfl⟩
  | string _ => cases h; exact ⟨rfl, rfl⟩

theorem generate_good {fl : Flags} {s : Spec} {g : GoProg} (h : generate fl s = some g) : GoodTypes g := by
  intro n gt hl
  obtain ⟨⟨m, t⟩, _, h⟩ := mapAll_mem (generate_types h).1 (lookup_mem hl)
  obtain ⟨gt', h', h⟩ := except_map_eq h
  cases h
  exact topType_npe h'

section
variable {g : GoProg} {T : Ident}

theorem underN_npe (hg : GoodTypes g) : ∀ {k : Nat} {t u : GoType}, underN g k t = some u →
    npe t = true → npe u = true ∧ (notPtr t = true → notPtr u = true)
  | 0, t, u, h, ht => by
    cases t <;> simp_all [underN]
  | k + 1, t, u, h, ht => by
    cases t with
    | named n =>
      simp only [underN] at h
      obtain ⟨gt, h1, h2⟩ := bind_some h
      obtain ⟨h3, h4⟩ := hg n gt h1
      obtain ⟨h5, h6⟩ := underN_npe hg h2 h4
      exact ⟨h5, fun _ => h6 h3⟩
    | _ => simp only [underN, Option.some.injEq] at h; subst h; exact ⟨ht, id⟩

theorem npeF_lookup {f : Ident} {t : GoType} : ∀ {fs : GoFields}, npeF fs = true →
    fs.lookup f = some t → npe t = true
  | .nil, _, h => by simp [GoFields.lookup] at h
  | .cons n u fs, hn, h => by
    simp only [npeF, Bool.and_eq_true] at hn
    simp only [GoFields.lookup] at h
    split at h
    · cases h; exact hn.1
    · exact npeF_lookup hn.2 h

theorem selField_npe (hg : GoodTypes g) {t w : GoType} {f : Ident} (ht : npe t = true)
    (h : selField g t f = some w) : npe w = true := by
  unfold selField at h
  split at h
  · rename_i fs hu
    split at h
    · cases h
    · exact npeF_lookup (by simpa [npe] using (underN_npe hg hu ht).1) h
  · cases h

/-- Local variables are of such types. -/
def GoodScope (Γ : Scope) : Prop := ∀ x t, Γ.find x = some (.val t) → npe t = true

theorem exTy_npe (hg : GoodTypes g) {Γ : Scope} (hΓ : GoodScope Γ) : ∀ {e : Ex} {t : GoType} {a : Bool},
    exTy g T Γ e = some (t, a) → npe t = true
  | .recv, t, a, h => by cases h; rfl
  | .var x, t, a, h => by
    simp only [exTy] at h
    split at h
    · rename_i t' hf; cases h; exact hΓ x _ hf
    · cases h
  | .addr e, t, a, h => by
    simp only [exTy] at h
    split at h
    · rename_i t' he; cases h; simpa [npe] using exTy_npe hg hΓ he
    · cases h
  | .deref e, t, a, h => by
    simp only [exTy] at h
    split at h
    · rename_i t' a' he
      split at h
      · rename_i u hu
        cases h
        simpa [npe] using (underN_npe hg hu (exTy_npe hg hΓ he)).1
      · cases h
    · cases h
  | .field e f, t, a, h => by
    simp only [exTy] at h
    split at h
    · rename_i t' a' he
      have ht := exTy_npe hg hΓ he
      split at h
      · rename_i u hu
        obtain ⟨w, hw, h⟩ := except_map_eq h
        cases h
        exact selField_npe hg (by simpa [npe] using (underN_npe hg hu ht).1) hw
      · obtain ⟨w, hw, h⟩ := except_map_eq h
        cases h
        exact selField_npe hg ht hw
    · cases h
  | .index e ix, t, a, h => (index e ix t a (fun _ _ h => exTy_npe hg hΓ h) h).2
where
  index (e : Ex) (ix : Ident) (t : GoType) (a : Bool)
      (ih : ∀ t a, exTy g T Γ e = some (t, a) → npe t = true)
      (h : exTy g T Γ (.index e ix) = some (t, a)) : notPtr t = true ∧ npe t = true := by
    simp only [exTy] at h
    split at h
    · split at h
      · rename_i t' a' he
        have ht := ih _ _ he
        split at h
        · rename_i u hu
          cases h
          simpa [npe] using (underN_npe hg hu ht).1
        · rename_i sz u hu
          cases h
          simpa [npe] using (underN_npe hg hu ht).1
        · rename_i w hu
          split at h
          · rename_i sz u hw
            cases h
            have hw' : npe w = true := by simpa [npe] using (underN_npe hg hu ht).1
            simpa [npe] using (underN_npe hg hw hw').1
          · cases h
        · cases h
      · cases h
    · cases h

/-- `&(*((p)[i]))` never has a type. -/
theorem fixedElem_none (hg : GoodTypes g) {Γ : Scope} (hΓ : GoodScope Γ) (p : Ex) :
    exTy g T Γ (fixedElemPtr p) = none := by
  have : exTy g T Γ (.deref (.index p iVar)) = none := by
    cases he : exTy g T Γ (.index p iVar) with
    | none => rw [exTy, he]
    | some r =>
      obtain ⟨t, a⟩ := r
      obtain ⟨h1, h2⟩ := exTy_npe.index hg p iVar t a (fun _ _ h => exTy_npe hg hΓ h) he
      rw [exTy, he]
      simp only
      split
      · rename_i u hu
        have := (underN_npe hg hu h2).2 h1
        simp [notPtr] at this
      · rfl
  rw [fixedElemPtr, exTy, this]

/-- An expression that has no type in any scope of a generated method. -/
def NoTy (g : GoProg) (T : Ident) (p : Ex) : Prop := ∀ Γ, GoodScope Γ → exTy g T Γ p = none

theorem convertible_none {Γ : Scope} {p : Ex} (h : exTy g T Γ p = none) (t : GoType) :
    convertible g T Γ p t = false := by simp [convertible, h]

theorem pointee_none {Γ : Scope} {p : Ex} (h : exTy g T Γ p = none) : pointee g T Γ p = none := by
  simp [pointee, h]

theorem fieldPtr_none {p : Ex} (h : NoTy g T p) (f : Ident) : NoTy g T (fieldPtr p f) := by
  intro Γ hΓ
  simp [fieldPtr, exTy, h Γ hΓ]

/-! ### No declarations outside blocks -/

mutual
theorem Typespec.noDecl : ∀ {t : Typespec} {p : Ex} {b : Stmts}, t.goXdr p = some b → b.noDecl = true
  | .int true, _, _, h => by simp only [Typespec.goXdr] at h; cases h; rfl
  | .int false, _, _, h => by simp only [Typespec.goXdr] at h; cases h; rfl
  | .hyper true, _, _, h => by simp only [Typespec.goXdr] at h; cases h; rfl
  | .hyper false, _, _, h => by simp only [Typespec.goXdr] at h; cases h; rfl
  | .float, _, _, h => by simp [Typespec.goXdr] at h
  | .double, _, _, h => by simp [Typespec.goXdr] at h
  | .quadruple, _, _, h => by simp [Typespec.goXdr] at h
  | .bool, _, _, h => by simp only [Typespec.goXdr] at h; cases h; rfl
  | .enum _, _, _, h => by simp [Typespec.goXdr] at h
  | .ident _, _, _, h => by simp only [Typespec.goXdr] at h; cases h; rfl
  | .struct ds, _, _, h => Decls.noDecl (by simpa only [Typespec.goXdr] using h)
  | .union sw cs, _, _, h => by
    cases sw with
    | void => simp [Typespec.goXdr] at h
    | name t n =>
      simp only [Typespec.goXdr] at h
      obtain ⟨s, hs, h⟩ := bind_some h
      obtain ⟨c, hc, h⟩ := bind_some h
      cases h
      have := Decl.noDecl (d := .name t n) (by simpa only [Decl.goXdr] using hs)
      rw [noDecl_append, this]; rfl
theorem DeclType.noDecl : ∀ {t : DeclType} {p : Ex} {b : Stmts}, t.goXdr p = some b → b.noDecl = true
  | .typespec t, _, _, h => Typespec.noDecl (t := t) (by simpa only [DeclType.goXdr] using h)
  | .array t sz, _, _, h => by
    simp only [DeclType.goXdr] at h
    obtain ⟨b, hb, h⟩ := bind_some h
    cases h; rfl
  | .varArray t sz, _, _, h => by
    simp only [DeclType.goXdr] at h
    obtain ⟨b, hb, h⟩ := bind_some h
    obtain ⟨gt, hgt, h⟩ := bind_some h
    cases h; rfl
  | .opaqueArray _, _, _, h => by simp only [DeclType.goXdr] at h; cases h; rfl
  | .opaqueVarArray _, _, _, h => by simp only [DeclType.goXdr] at h; cases h; rfl
  | .string _, _, _, h => by simp only [DeclType.goXdr] at h; cases h; rfl
  | .ptr t, _, _, h => by
    simp only [DeclType.goXdr] at h
    obtain ⟨b, hb, h⟩ := bind_some h
    obtain ⟨gt, hgt, h⟩ := bind_some h
    cases h; rfl
theorem Decl.noDecl : ∀ {d : Decl} {p : Ex} {b : Stmts}, d.goXdr p = some b → b.noDecl = true
  | .void, _, _, h => by simp only [Decl.goXdr] at h; cases h; rfl
  | .name t n, _, _, h => DeclType.noDecl (by simpa only [Decl.goXdr] using h)
theorem Decls.noDecl : ∀ {ds : Decls} {p : Ex} {b : Stmts}, ds.goXdr p = some b → b.noDecl = true
  | .nil, _, _, h => by simp only [Decls.goXdr] at h; cases h; rfl
  | .cons d ds, _, _, h => by
    simp only [Decls.goXdr] at h
    obtain ⟨s, hs, h⟩ := bind_some h
    obtain ⟨b, hb, h⟩ := bind_some h
    cases h
    rw [noDecl_append, Decl.noDecl hs, Decls.noDecl hb]; rfl
end

theorem GoodScope.enter {Γ : Scope} (h : GoodScope Γ) : GoodScope Γ.enter := h

theorem GoodScope.add {Γ : Scope} (h : GoodScope Γ) (x : Ident) {t : LTy}
    (ht : ∀ u, t = .val u → npe u = true) : GoodScope (Γ.add x t) := by
  intro y u hy
  simp only [Scope.find, Scope.all, Scope.add, List.cons_append, List.lookup_cons] at hy
  split at hy
  · exact ht u (by simpa using hy)
  · exact h y u hy

/-! ### Statements that use an expression without a type -/

mutual
theorem Typespec.content_false (hg : GoodTypes g) : ∀ (t : Typespec) {Γ : Scope} {p : Ex} {b : Stmts},
    t.content = true → t.goXdr p = some b → GoodScope Γ → NoTy g T p → stmtsOk g T Γ b = false
  | .int true, Γ, p, b, _, h, hΓ, hp => by
    simp only [Typespec.goXdr] at h; cases h; simp [stmtsOk, stmtOk, convertible_none (hp Γ hΓ)]
  | .int false, Γ, p, b, _, h, hΓ, hp => by
    simp only [Typespec.goXdr] at h; cases h; simp [stmtsOk, stmtOk, convertible_none (hp Γ hΓ)]
  | .hyper true, Γ, p, b, _, h, hΓ, hp => by
    simp only [Typespec.goXdr] at h; cases h; simp [stmtsOk, stmtOk, convertible_none (hp Γ hΓ)]
  | .hyper false, Γ, p, b, _, h, hΓ, hp => by
    simp only [Typespec.goXdr] at h; cases h; simp [stmtsOk, stmtOk, convertible_none (hp Γ hΓ)]
  | .float, _, _, _, _, h, _, _ => by simp [Typespec.goXdr] at h
  | .double, _, _, _, _, h, _, _ => by simp [Typespec.goXdr] at h
  | .quadruple, _, _, _, _, h, _, _ => by simp [Typespec.goXdr] at h
  | .bool, Γ, p, b, _, h, hΓ, hp => by
    simp only [Typespec.goXdr] at h; cases h; simp [stmtsOk, stmtOk, convertible_none (hp Γ hΓ)]
  | .enum _, _, _, _, _, h, _, _ => by simp [Typespec.goXdr] at h
  | .ident _, Γ, p, b, _, h, hΓ, hp => by
    simp only [Typespec.goXdr] at h; cases h; simp [stmtsOk, stmtOk, convertible_none (hp Γ hΓ)]
  | .struct ds, Γ, p, b, hc, h, hΓ, hp =>
    Decls.content_false hg ds (by simpa only [Typespec.content] using hc)
      (by simpa only [Typespec.goXdr] using h) hΓ hp
  | .union sw cs, Γ, p, b, _, h, hΓ, hp => by
    cases sw with
    | void => simp [Typespec.goXdr] at h
    | name t n =>
      simp only [Typespec.goXdr] at h
      obtain ⟨s, hs, h⟩ := bind_some h
      obtain ⟨c, hc, h⟩ := bind_some h
      cases h
      rw [stmtsOk_append _ _ (DeclType.noDecl hs)]
      simp [stmtsOk, stmtOk, exTy, hp Γ hΓ]
theorem DeclType.content_false (hg : GoodTypes g) : ∀ (t : DeclType) {Γ : Scope} {p : Ex} {b : Stmts},
    t.content = true → t.goXdr p = some b → GoodScope Γ → NoTy g T p → stmtsOk g T Γ b = false
  | .typespec t, Γ, p, b, hc, h, hΓ, hp =>
    Typespec.content_false hg t (by simpa only [DeclType.content] using hc)
      (by simpa only [DeclType.goXdr] using h) hΓ hp
  | .array t sz, Γ, p, b, hc, h, hΓ, hp => by
    simp only [DeclType.goXdr] at h
    obtain ⟨b, hb, h⟩ := bind_some h
    cases h
    have hΓ' : GoodScope (Γ.enter.add iVar .int).enter := (hΓ.enter.add iVar (by simp)).enter
    have := Typespec.content_false hg t (by simpa only [DeclType.content] using hc) hb hΓ'
      (fun _ h => fixedElem_none hg h p)
    simp [stmtsOk, stmtOk, this]
  | .varArray t sz, Γ, p, b, _, h, hΓ, hp => by
    simp only [DeclType.goXdr] at h
    obtain ⟨b, hb, h⟩ := bind_some h
    obtain ⟨gt, hgt, h⟩ := bind_some h
    cases h
    have hΓ' : GoodScope (Γ.enter.add arraysz (.val .uint32)) :=
      hΓ.enter.add arraysz (fun u h => by cases h; rfl)
    simp [stmtsOk, stmtOk, declares, pointee_none (hp _ hΓ')]
  | .opaqueArray _, Γ, p, b, _, h, hΓ, hp => by
    simp only [DeclType.goXdr] at h; cases h; simp [stmtsOk, stmtOk, pointee_none (hp Γ hΓ)]
  | .opaqueVarArray _, Γ, p, b, _, h, hΓ, hp => by
    simp only [DeclType.goXdr] at h; cases h; simp [stmtsOk, stmtOk, convertible_none (hp Γ hΓ)]
  | .string _, Γ, p, b, _, h, hΓ, hp => by
    simp only [DeclType.goXdr] at h; cases h; simp [stmtsOk, stmtOk, convertible_none (hp Γ hΓ)]
  | .ptr t, Γ, p, b, _, h, hΓ, hp => by
    simp only [DeclType.goXdr] at h
    obtain ⟨b, hb, h⟩ := bind_some h
    obtain ⟨gt, hgt, h⟩ := bind_some h
    cases h
    simp [stmtsOk, stmtOk, pointee_none (hp Γ.enter hΓ.enter)]
theorem Decl.content_false (hg : GoodTypes g) : ∀ (d : Decl) {Γ : Scope} {p : Ex} {b : Stmts},
    d.content = true → d.goXdr p = some b → GoodScope Γ → NoTy g T p → stmtsOk g T Γ b = false
  | .void, _, _, _, hc, _, _, _ => by simp [Decl.content] at hc
  | .name t n, Γ, p, b, hc, h, hΓ, hp =>
    DeclType.content_false hg t (by simpa only [Decl.content] using hc)
      (by simpa only [Decl.goXdr] using h) hΓ (fieldPtr_none hp _)
theorem Decls.content_false (hg : GoodTypes g) : ∀ (ds : Decls) {Γ : Scope} {p : Ex} {b : Stmts},
    ds.content = true → ds.goXdr p = some b → GoodScope Γ → NoTy g T p → stmtsOk g T Γ b = false
  | .nil, _, _, _, hc, _, _, _ => by simp [Decls.content] at hc
  | .cons d ds, Γ, p, b, hc, h, hΓ, hp => by
    simp only [Decls.goXdr] at h
    obtain ⟨s, hs, h⟩ := bind_some h
    obtain ⟨b, hb, h⟩ := bind_some h
    cases h
    simp only [Decls.content, Bool.or_eq_true] at hc
    rw [stmtsOk_append _ _ (Decl.noDecl hs)]
    rcases hc with hc | hc
    · simp [Decl.content_false hg d hc hs hΓ hp]
    · simp [Decls.content_false hg ds hc hb hΓ hp]
end

/-! ### Definitions with such an array -/

theorem casesOk_goLabels_false {Γ : Scope} {t : GoType} {b : Stmts} {cs : GoCases}
    (h : stmtsOk g T Γ.enter b = false ∨ ∀ seen, casesOk g T Γ t seen cs = false) :
    ∀ (more : List Val) (l : Val) (seen : List Label), casesOk g T Γ t seen (goLabels l more b cs) = false
  | [], l, seen => by
    simp only [goLabels, casesOk]
    split
    · rfl
    · rcases h with h | h
      · simp [h]
      · simp [h]
  | l' :: more, l, seen => by
    simp only [goLabels, casesOk]
    split
    · rfl
    · simp [casesOk_goLabels_false h more l']

mutual
theorem Typespec.fixed_false (hg : GoodTypes g) : ∀ (t : Typespec) {Γ : Scope} {p : Ex} {b : Stmts},
    t.hasFixed = true → t.goXdr p = some b → GoodScope Γ → stmtsOk g T Γ b = false
  | .struct ds, Γ, p, b, hc, h, hΓ =>
    Decls.fixed_false hg ds (by simpa only [Typespec.hasFixed] using hc)
      (by simpa only [Typespec.goXdr] using h) hΓ
  | .union .void cs, Γ, p, b, _, h, _ => by simp [Typespec.goXdr] at h
  | .union (.name t n) cs, Γ, p, b, hf, h, hΓ => by
    simp only [Typespec.goXdr] at h
    obtain ⟨s, hs, h⟩ := bind_some h
    obtain ⟨c, hc, h⟩ := bind_some h
    cases h
    rw [stmtsOk_append _ _ (DeclType.noDecl hs)]
    simp only [Typespec.hasFixed, Decl.hasFixed, Bool.or_eq_true] at hf
    rcases hf with hf | hf
    · simp [DeclType.fixed_false hg t hf hs hΓ]
    · simp only [stmtsOk, stmtOk, declares, Bool.and_true, Bool.and_eq_false_imp]
      intro _
      split
      · exact Cases.fixed_false hg cs hf hc hΓ _ []
      · rfl
  | .int _, _, _, _, h, _, _ => by simp [Typespec.hasFixed] at h
  | .hyper _, _, _, _, h, _, _ => by simp [Typespec.hasFixed] at h
  | .float, _, _, _, h, _, _ => by simp [Typespec.hasFixed] at h
  | .double, _, _, _, h, _, _ => by simp [Typespec.hasFixed] at h
  | .quadruple, _, _, _, h, _, _ => by simp [Typespec.hasFixed] at h
  | .bool, _, _, _, h, _, _ => by simp [Typespec.hasFixed] at h
  | .enum _, _, _, _, h, _, _ => by simp [Typespec.hasFixed] at h
  | .ident _, _, _, _, h, _, _ => by simp [Typespec.hasFixed] at h
theorem DeclType.fixed_false (hg : GoodTypes g) : ∀ (t : DeclType) {Γ : Scope} {p : Ex} {b : Stmts},
    t.hasFixed = true → t.goXdr p = some b → GoodScope Γ → stmtsOk g T Γ b = false
  | .typespec t, Γ, p, b, hc, h, hΓ =>
    Typespec.fixed_false hg t (by simpa only [DeclType.hasFixed] using hc)
      (by simpa only [DeclType.goXdr] using h) hΓ
  | .array t sz, Γ, p, b, hc, h, hΓ => by
    simp only [DeclType.goXdr] at h
    obtain ⟨b, hb, h⟩ := bind_some h
    cases h
    have hΓ' : GoodScope (Γ.enter.add iVar .int).enter := (hΓ.enter.add iVar (by simp)).enter
    simp only [DeclType.hasFixed, Bool.or_eq_true] at hc
    rcases hc with hc | hc
    · have := Typespec.content_false hg t hc hb hΓ' (fun _ h => fixedElem_none (T := T) hg h p)
      simp [stmtsOk, stmtOk, this]
    · simp [stmtsOk, stmtOk, Typespec.fixed_false hg t hc hb hΓ']
  | .varArray t sz, Γ, p, b, hc, h, hΓ => by
    simp only [DeclType.goXdr] at h
    obtain ⟨b, hb, h⟩ := bind_some h
    obtain ⟨gt, hgt, h⟩ := bind_some h
    cases h
    have hΓ' : GoodScope (Γ.enter.add arraysz (.val .uint32)) :=
      hΓ.enter.add arraysz (fun u h => by cases h; rfl)
    have hloop : ∀ Γ, GoodScope Γ → stmtOk g T Γ (.forU64 iVar arraysz b) = false := by
      intro Γ hΓ
      simp [stmtOk, Typespec.fixed_false hg t (by simpa only [DeclType.hasFixed] using hc) hb
        ((hΓ.enter.add iVar (t := .val .uint64) (fun u h => by cases h; rfl)).enter)]
    cases sz with
    | none =>
      simp [stmtsOk, stmtOk.eq_def g T _ (.block _), declares, checkMax, hloop _ hΓ']
    | some m =>
      simp [stmtsOk, stmtOk.eq_def g T _ (.block _), stmtOk.eq_def g T _ (.ifGt _ _ _), declares, checkMax,
        hloop _ hΓ'.enter]
  | .ptr t, Γ, p, b, hc, h, hΓ => by
    simp only [DeclType.goXdr] at h
    obtain ⟨b, hb, h⟩ := bind_some h
    obtain ⟨gt, hgt, h⟩ := bind_some h
    cases h
    have hΓ' : GoodScope (Γ.enter.add opted (.val .bool)).enter :=
      (hΓ.enter.add opted (fun u h => by cases h; rfl)).enter
    simp [stmtsOk, stmtOk, declares,
      Typespec.fixed_false hg t (by simpa only [DeclType.hasFixed] using hc) hb hΓ']
  | .opaqueArray _, _, _, _, h, _, _ => by simp [DeclType.hasFixed] at h
  | .opaqueVarArray _, _, _, _, h, _, _ => by simp [DeclType.hasFixed] at h
  | .string _, _, _, _, h, _, _ => by simp [DeclType.hasFixed] at h
theorem Decl.fixed_false (hg : GoodTypes g) : ∀ (d : Decl) {Γ : Scope} {p : Ex} {b : Stmts},
    d.hasFixed = true → d.goXdr p = some b → GoodScope Γ → stmtsOk g T Γ b = false
  | .void, _, _, _, hc, _, _ => by simp [Decl.hasFixed] at hc
  | .name t n, Γ, p, b, hc, h, hΓ =>
    DeclType.fixed_false hg t (by simpa only [Decl.hasFixed] using hc)
      (by simpa only [Decl.goXdr] using h) hΓ
theorem Decls.fixed_false (hg : GoodTypes g) : ∀ (ds : Decls) {Γ : Scope} {p : Ex} {b : Stmts},
    ds.hasFixed = true → ds.goXdr p = some b → GoodScope Γ → stmtsOk g T Γ b = false
  | .nil, _, _, _, hc, _, _ => by simp [Decls.hasFixed] at hc
  | .cons d ds, Γ, p, b, hc, h, hΓ => by
    simp only [Decls.goXdr] at h
    obtain ⟨s, hs, h⟩ := bind_some h
    obtain ⟨b, hb, h⟩ := bind_some h
    cases h
    simp only [Decls.hasFixed, Bool.or_eq_true] at hc
    rw [stmtsOk_append _ _ (Decl.noDecl hs)]
    rcases hc with hc | hc
    · simp [Decl.fixed_false hg d hc hs hΓ]
    · simp [Decls.fixed_false hg ds hc hb hΓ]
theorem Cases.fixed_false (hg : GoodTypes g) : ∀ (cs : Cases) {Γ : Scope} {p : Ex} {c : GoCases},
    cs.hasFixed = true → cs.goXdr p = some c → GoodScope Γ →
      ∀ t seen, casesOk g T Γ t seen c = false
  | .nil, _, _, _, hc, _, _, _, _ => by simp [Cases.hasFixed] at hc
  | .dflt d, Γ, p, c, hc, h, hΓ, t, seen => by
    simp only [Cases.goXdr] at h
    obtain ⟨s, hs, h⟩ := bind_some h
    cases h
    simp only [casesOk]
    exact Decl.fixed_false hg d (by simpa only [Cases.hasFixed] using hc) hs hΓ.enter
  | .cons l more d cs, Γ, p, c, hc, h, hΓ, t, seen => by
    simp only [Cases.goXdr] at h
    obtain ⟨s, hs, h⟩ := bind_some h
    obtain ⟨c, hcs, h⟩ := bind_some h
    cases h
    simp only [Cases.hasFixed, Bool.or_eq_true] at hc
    refine casesOk_goLabels_false ?_ more l seen
    rcases hc with hc | hc
    · exact .inl (Decl.fixed_false hg d hc hs hΓ.enter)
    · exact .inr (Cases.fixed_false hg cs hc hcs hΓ t)
end

/-- A package with a method that has such an array does not compile. -/
theorem fixed_top (hg : GoodTypes g) {t : DeclType} {b : Stmts} (hf : t.hasFixed = true)
    (hb : topXdr t = some b) : bodyOk g T b = false := by
  have hΓ : GoodScope ⟨[], []⟩ := by intro x t h; simp [Scope.find, Scope.all] at h
  cases t with
  | ptr t => simp only [topXdr] at hb; exact DeclType.fixed_false hg _ hf hb hΓ
  | _ => simp only [topXdr] at hb; exact DeclType.fixed_false hg _ hf hb hΓ

theorem fixed_pkg {fl : Flags} {s : Spec} {vs : List GoVers} {d : Defn}
    (hg : generate fl s = some g) (hd : d ∈ s) (hf : d.hasFixed = true) : pkgOk g vs = false := by
  have : ∃ n t, (n, t) ∈ specTypes fl.unsignedEnum s ∧ t.hasFixed = true := by
    clear hg
    induction s with
    | nil => simp at hd
    | cons e s ih =>
      rw [specTypes_cons]
      rcases List.mem_cons.mp hd with rfl | hd
      · cases d with
        | typedef d =>
          cases d with
          | void => simp [Defn.hasFixed, Decl.hasFixed] at hf
          | name t n =>
            exact ⟨n, t, by simp [specTypes], by simpa only [Defn.hasFixed, Decl.hasFixed] using hf⟩
        | struct n ds =>
          exact ⟨n, .typespec (.struct ds), by simp [specTypes], by
            simpa only [Defn.hasFixed, DeclType.hasFixed, Typespec.hasFixed] using hf⟩
        | union n sw cs =>
          exact ⟨n, .typespec (.union sw cs), by simp [specTypes], by
            simpa only [Defn.hasFixed, DeclType.hasFixed, Typespec.hasFixed] using hf⟩
        | _ => simp [Defn.hasFixed] at hf
      · obtain ⟨n, t, h1, h2⟩ := ih hd
        exact ⟨n, t, List.mem_append_right _ h1, h2⟩
  obtain ⟨n, t, hm, hf⟩ := this
  obtain ⟨b, hb, h⟩ := mapAll_mem' (generate_types hg).2 hm
  obtain ⟨b', hb', rfl⟩ := except_map_eq h
  have hno := fixed_top (T := i n) (generate_good hg) hf hb'
  have : (g.methods.all fun m => (g.types.lookup m.1).isSome && bodyOk g m.1 m.2) = false := by
    rw [List.all_eq_false]
    exact ⟨_, hb, by simp [hno]⟩
  simp [pkgOk, this]

end
end Verif.Gen
