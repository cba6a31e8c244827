/-
Helper theorems for `Props.Typing`: declarations of the generated package.
-/
import Verif.Gen.StaticThm
import Mathlib.Data.List.Perm.Basic
import Mathlib.Data.List.Perm.Subperm

namespace Verif.Gen
open Verif.Spec

/-! ### Names -/

theorem mapM'_map {α β γ} {f : α → Option β} {k : β → γ} {h : α → γ}
    (hf : ∀ a b, f a = some b → k b = h a) : ∀ {l : List α} {r : List β}, mapM' f l = some r →
    r.map k = l.map h
  | [], r, hr => by cases hr; rfl
  | a :: l, r, hr => by
    simp only [mapM'] at hr
    obtain ⟨b, hb, hr⟩ := bind_some hr
    obtain ⟨bs, hbs, hr⟩ := bind_some hr
    cases hr
    simp [hf a b hb, mapM'_map hf hbs]

theorem mapM'_mem {α β} {f : α → Option β} : ∀ {l : List α} {r : List β} {b : β}, mapM' f l = some r →
    b ∈ r → ∃ a ∈ l, f a = some b
  | [], r, b, hr, hb => by cases hr; simp at hb
  | a :: l, r, b, hr, hb => by
    simp only [mapM'] at hr
    obtain ⟨b', hb', hr⟩ := bind_some hr
    obtain ⟨bs, hbs, hr⟩ := bind_some hr
    cases hr
    rcases List.mem_cons.mp hb with rfl | hb
    · exact ⟨a, by simp, hb'⟩
    · obtain ⟨a', ha', h⟩ := mapM'_mem hbs hb
      exact ⟨a', by simp [ha'], h⟩

/-- The names in the package block for one version. -/
def versNames (v : GoVers) : List Ident := [v.iface, v.wrapperType, v.regsName]

theorem emitVers_names {p : ProgDef} {v : ProgVer} {V : GoVers} (h : emitVers p v = some V) :
    versNames V = [versName p v "_handler", versName p v "_handler_wrapper", versName p v "_regs"] := by
  simp only [emitVers] at h
  obtain ⟨sigs, _, h⟩ := bind_some h
  obtain ⟨ws, _, h⟩ := bind_some h
  cases h; rfl

theorem flatMap_of_map {α β γ} {f : α → List γ} {h : β → List γ} : ∀ {l : List α} {r : List β},
    r.map h = l.map f → r.flatMap h = l.flatMap f := by
  intro l r hm
  rw [List.flatMap_def, List.flatMap_def, hm]

theorem emitProg_names {p : ProgDef} {vs : List GoVers} (h : emitProg p = some vs) :
    vs.flatMap versNames = p.vers.flatMap fun v =>
      [versName p v "_handler", versName p v "_handler_wrapper", versName p v "_regs"] :=
  flatMap_of_map (mapM'_map (fun _ _ hb => emitVers_names hb) h)

/-- The names of a package are those of the definitions. -/
theorem pkgNames_perm {fl : Flags} : ∀ {s : Spec} {g : GoProg} {vs : List GoVers},
    generate fl s = some g → generateVers s = some vs → (pkgNames g vs).Perm (s.flatMap defnNames)
  | [], g, vs, hg, hv => by cases hg; cases hv; exact List.Perm.refl _
  | d :: s, g, vs, hg, hv => by
    simp only [generate] at hg
    obtain ⟨a, ha, hg⟩ := bind_some hg
    obtain ⟨b, hb, hg⟩ := bind_some hg
    cases hg
    have hvs : ∃ v1 v2, vs = v1 ++ v2 ∧ generateVers s = some v2 ∧
        (pkgNames a v1).Perm (defnNames d) := by
      cases d with
      | program p =>
        simp only [generateVers] at hv
        obtain ⟨v1, h1, hv⟩ := bind_some hv
        obtain ⟨v2, h2, hv⟩ := bind_some hv
        cases hv
        refine ⟨v1, v2, rfl, h2, ?_⟩
        simp only [emitDefn] at ha
        split at ha
        · cases ha
          have hn := emitProg_names h1
          unfold versNames at hn
          simp only [pkgNames, emitProgConsts, List.map_cons, List.map_nil, List.append_nil, defnNames,
            hn, List.cons_append]
          refine List.Perm.cons _ ?_
          rw [List.map_flatMap]
          refine List.Perm.trans (List.flatMap_append_perm _ _ _) ?_
          refine List.Perm.of_eq ?_
          congr 1
          funext v
          simp [List.map_map, Function.comp_def]
        · cases ha
      | const n v =>
        simp only [emitDefn, emitConst] at ha; cases ha
        exact ⟨[], vs, rfl, hv, List.Perm.refl _⟩
      | typedef d =>
        refine ⟨[], vs, rfl, hv, ?_⟩
        cases d with
        | void => simp only [emitDefn, emitTypedef] at ha; cases ha; exact List.Perm.refl _
        | name t n =>
          simp only [emitDefn] at ha
          obtain ⟨gt, b, h1, h2, rfl⟩ := emitTypedef_eq ha
          exact List.Perm.refl _
      | enum n items =>
        refine ⟨[], vs, rfl, hv, ?_⟩
        simp only [emitDefn, emitEnum] at ha
        obtain ⟨_, _, ha⟩ := bind_some ha
        obtain ⟨_, _, ha⟩ := bind_some ha
        cases ha
        simp only [pkgNames, List.map_map, List.map_cons, List.map_nil, List.flatMap_nil, List.append_nil,
          defnNames]
        exact List.perm_append_comm
      | struct n ds =>
        refine ⟨[], vs, rfl, hv, ?_⟩
        simp only [emitDefn, emitStruct] at ha
        obtain ⟨_, _, ha⟩ := bind_some ha
        obtain ⟨_, _, ha⟩ := bind_some ha
        cases ha
        exact List.Perm.refl _
      | union n sw cs =>
        refine ⟨[], vs, rfl, hv, ?_⟩
        simp only [emitDefn, emitUnion] at ha
        obtain ⟨_, _, ha⟩ := bind_some ha
        obtain ⟨_, _, ha⟩ := bind_some ha
        cases ha
        exact List.Perm.refl _
    obtain ⟨v1, v2, rfl, hv2, hp⟩ := hvs
    have ih := pkgNames_perm hb hv2
    rw [List.flatMap_cons]
    refine List.Perm.trans ?_ (hp.append ih)
    simp only [pkgNames, GoProg.append, List.map_append, List.flatMap_append]
    generalize a.consts.map (·.name) = A
    generalize a.types.map (·.1) = B
    generalize b.consts.map (·.name) = A'
    generalize b.types.map (·.1) = B'
    generalize v1.flatMap _ = C
    generalize v2.flatMap _ = C'
    simp only [List.append_assoc]
    refine List.Perm.append_left A ?_
    -- A' B B' C C' ~ B C A' B' C'
    rw [← List.append_assoc A' B]
    refine ((List.perm_append_comm (l₁ := A') (l₂ := B)).append_right _).trans ?_
    rw [List.append_assoc]
    refine List.Perm.append_left B ?_
    rw [← List.append_assoc A' B', ← List.append_assoc (A' ++ B') C, ← List.append_assoc C (A') ]
    rw [show C ++ A' ++ (B' ++ C') = (C ++ (A' ++ B')) ++ C' by simp]
    exact List.perm_append_comm.append_right _

section
variable {fl : Flags} {s : Spec} {g : GoProg}
local notation "E" => envOf fl.unsignedEnum s
local notation "K" => nameBound fl s

/-! ### Constants -/

theorem lookup_nodup {l : List (Ident × DeclType)} {n : Ident} {t : DeclType}
    (hnd : (l.map fun p => i p.1).Nodup) (hp : (n, t) ∈ l) : l.lookup n = some t := by
  induction l with
  | nil => simp at hp
  | cons q l ih =>
    simp only [List.map_cons, List.nodup_cons, List.mem_map, not_exists, not_and] at hnd
    rcases List.mem_cons.mp hp with rfl | hp'
    · simp
    · have hne : (n == q.1) = false := by
        simp only [beq_eq_false_iff_ne, ne_eq]
        rintro rfl
        exact hnd.1 _ hp' rfl
      obtain ⟨m, u⟩ := q
      simp only [List.lookup_cons, hne]
      exact ih hnd.2 hp'

theorem Comp.typeOf_mem (H : Comp fl s g) {n : Ident} {t : DeclType}
    (h : (n, t) ∈ specTypes fl.unsignedEnum s) : (envOf fl.unsignedEnum s).typeOf n = some t :=
  lookup_nodup H.facts.types h

theorem basicTy_max (g : GoProg) {n : Ident} {t : GoType} (h : basicTy n = some (.typed t)) :
    under g t = some t := by
  unfold basicTy at h
  split at h
  all_goals first | (cases h; done) | (cases h; rfl) | (simp at h; done)

theorem under_enum (H : Comp fl s g) {e : Ident} {items : List EnumItem} (h : .enum e items ∈ s) :
    ctyMax g (.typed (.named (i e))) = some (if fl.unsignedEnum then 2 ^ 32 else 2 ^ 31) := by
  have hm := H.typeOf_mem (enum_specTypes (u := fl.unsignedEnum) h)
  have hk : kindOf E K (.typespec (.ident e)) =
      some (if fl.unsignedEnum then .u32 else .i32) := by
    simp only [nameBound, kindOf, hm, Option.bind_some]
    cases fl.unsignedEnum <;> simp [kindOf]
  have := kind_under H hk rfl
  simp only [ctyMax, this]
  cases fl.unsignedEnum <;> rfl

theorem constDecls (H : Comp fl s g) : g.consts.all (constDeclOk g) = true := by
  rw [List.all_eq_true]
  intro c hc
  rw [generate_consts H.facts.gen, List.mem_flatMap] at hc
  obtain ⟨d, hd, hc⟩ := hc
  have hchk := H.chk d hd
  cases d with
  | const n v =>
    simp only [defnConsts, List.mem_singleton] at hc
    subst hc
    simp only [Defn.chk] at hchk
    simp only [constDeclOk, GoProg.const, constVal]
    split
    · rename_i he; rw [if_pos he] at hchk; exact hchk
    · rename_i he
      rw [if_neg he] at hchk
      split at hchk
      · rename_i t ht
        rw [H.tyByName_basic ht]
        simp only [ctyMax, basicTy_max g ht, Option.bind_some, constTy, Bool.and_eq_true]
        exact ⟨hchk, by simp⟩
      · rename_i m ht
        rw [H.tyByName_basic ht]
        simp only [ctyMax, constTy, Bool.and_eq_true]
        exact ⟨hchk, by simp⟩
      · cases hchk
  | enum e items =>
    simp only [defnConsts, List.mem_map] at hc
    obtain ⟨it, hit, rfl⟩ := hc
    simp only [Defn.chk, List.all_eq_true, Bool.and_eq_true, decide_eq_true_eq] at hchk
    obtain ⟨h1, h2⟩ := hchk it hit
    cases hs : specConst s it.val with
    | none => simp [hs] at h1
    | some n =>
      rw [hs] at h1
      obtain ⟨h3, h4⟩ := H.tyByName_enum hd
      simp only [constDeclOk, const_link H.facts _ _ hs, if_neg h4, h3, under_enum H hd,
        Bool.and_eq_true, decide_eq_true_eq]
      refine ⟨by simpa using h1, ?_⟩
      rcases h2 with h2 | h2
      · exact .inl (H.constTy_eq h2).1
      · exact .inr (H.constTy_eq h2).1
  | program p =>
    have hu : ∀ (n : Ident) (k : Nat), k < 2 ^ 32 → constDeclOk g ⟨n, "uint32", .lit k⟩ = true := by
      intro n k hk
      simp only [constDeclOk, GoProg.const, constVal, H.tyByName_basic (n := "uint32") rfl, ctyMax]
      simpa [under, underN, intMax, constTy] using hk
    simp only [Defn.chk, Bool.and_eq_true, decide_eq_true_eq, List.all_eq_true] at hchk
    simp only [defnConsts, emitProgConsts, List.mem_cons, List.mem_flatMap, List.mem_map] at hc
    rcases hc with rfl | ⟨v, hv, rfl | ⟨c', hc', rfl⟩⟩
    · exact hu _ _ hchk.1
    · exact hu _ _ (hchk.2 v hv).1.1
    · exact hu _ _ ((hchk.2 v hv).2 c' hc').1.1
  | _ => simp [defnConsts] at hc

/-! ### Types -/

/-- The definition of a type passes the checks. -/
theorem Comp.type_chk (H : Comp fl s g) {n : Ident} {t : DeclType}
    (h : (n, t) ∈ specTypes fl.unsignedEnum s) : t.chk fl s = true ∧ noXdr t = true := by
  have : ∃ d ∈ s, (n, t) ∈ specTypes fl.unsignedEnum [d] := by
    clear H
    induction s with
    | nil => simp [specTypes] at h
    | cons d s' ih =>
      rw [specTypes_cons] at h
      rcases List.mem_append.mp h with h | h
      · exact ⟨d, by simp, h⟩
      · obtain ⟨d', hd', h'⟩ := ih h
        exact ⟨d', by simp [hd'], h'⟩
  obtain ⟨d, hd, h⟩ := this
  have hc := H.chk d hd
  cases d with
  | typedef d =>
    cases d with
    | void => simp [specTypes] at h
    | name t' m =>
      simp only [specTypes, List.mem_singleton, Prod.mk.injEq] at h
      obtain ⟨rfl, rfl⟩ := h
      simpa [Defn.chk] using hc
  | enum m items =>
    simp only [specTypes, List.mem_singleton, Prod.mk.injEq] at h
    obtain ⟨rfl, rfl⟩ := h
    simp [DeclType.chk, Typespec.chk, noXdr]
  | struct m ds =>
    simp only [specTypes, List.mem_singleton, Prod.mk.injEq] at h
    obtain ⟨rfl, rfl⟩ := h
    simpa [Defn.chk, DeclType.chk, Typespec.chk] using hc
  | union m sw cs =>
    simp only [specTypes, List.mem_singleton, Prod.mk.injEq] at h
    obtain ⟨rfl, rfl⟩ := h
    simpa only [Defn.chk, DeclType.chk, Bool.and_eq_true] using hc
  | _ => simp [specTypes] at h

/-- The base type of a method `Xdr`. -/
def GoodBase (u : GoType) : Prop :=
  (∀ w, u ≠ .ptr w) ∧ ∀ fs, u = .struct fs → "Xdr" ∉ fs.names

theorem goodBase_top (H : Comp fl s g) : ∀ (k : Nat) (n : Ident) (t : DeclType) (gt u : GoType),
    (n, t) ∈ specTypes fl.unsignedEnum s → topType t = some gt → underN g k gt = some u → GoodBase u := by
  intro k
  induction k with
  | zero =>
    intro n t gt u hm ht hu
    exact base H hm ht hu (fun m h => by subst h; simp [underN] at hu)
  | succ k ih =>
    intro n t gt u hm ht hu
    by_cases hn : ∃ m, gt = .named m
    · obtain ⟨m, rfl⟩ := hn
      simp only [underN] at hu
      cases hl : g.types.lookup m with
      | none => rw [hl] at hu; cases hu
      | some gt' =>
        rw [hl] at hu
        obtain ⟨n', t', hm', _, ht'⟩ := H.type_mem (lookup_mem hl)
        exact ih _ _ _ _ hm' ht' hu
    · exact base H hm ht hu (fun m h => hn ⟨m, h⟩)
where
  base {fl : Flags} {s : Spec} {g : GoProg} (H : Comp fl s g) {k : Nat} {n : Ident} {t : DeclType}
      {gt u : GoType} (hm : (n, t) ∈ specTypes fl.unsignedEnum s) (ht : topType t = some gt)
      (hu : underN g k gt = some u) (hn : ∀ m, gt ≠ .named m) : GoodBase u := by
    have hgu : u = gt := by
      cases k <;> cases gt <;> simp_all [underN]
    subst hgu
    have hx := (H.type_chk hm).2
    cases t with
    | ptr t =>
      simp only [topType] at ht
      obtain ⟨gt', _, rfl⟩ := except_map_eq ht
      exact ⟨by simp, fun fs h => by cases h; simp [GoFields.names]⟩
    | array t sz =>
      simp only [topType, DeclType.goType] at ht
      obtain ⟨gt', _, h⟩ := bind_some ht
      cases h
      exact ⟨by simp, by simp⟩
    | varArray t sz =>
      simp only [topType, DeclType.goType] at ht
      obtain ⟨gt', _, h⟩ := bind_some ht
      cases h
      exact ⟨by simp, by simp⟩
    | opaqueArray sz => simp only [topType, DeclType.goType] at ht; cases ht; exact ⟨by simp, by simp⟩
    | opaqueVarArray sz => simp only [topType, DeclType.goType] at ht; cases ht; exact ⟨by simp, by simp⟩
    | string sz => simp only [topType, DeclType.goType] at ht; cases ht; exact ⟨by simp, by simp⟩
    | typespec t =>
      simp only [topType, DeclType.goType] at ht
      cases t with
      | int b => cases b <;> (cases ht; exact ⟨by simp, by simp⟩)
      | hyper b => cases b <;> (cases ht; exact ⟨by simp, by simp⟩)
      | float => cases ht; exact ⟨by simp, by simp⟩
      | double => cases ht; exact ⟨by simp, by simp⟩
      | quadruple => simp [Typespec.goType] at ht
      | bool => cases ht; exact ⟨by simp, by simp⟩
      | enum _ => cases ht; exact ⟨by simp, by simp⟩
      | ident m => simp only [Typespec.goType, Option.some.injEq] at ht; exact absurd ht.symm (hn _)
      | struct ds =>
        simp only [Typespec.goType] at ht
        obtain ⟨fs, hfs, h⟩ := bind_some ht
        cases h
        refine ⟨by simp, fun fs' h => ?_⟩
        cases h
        rw [Decls.goFields_names hfs]
        simpa [noXdr] using hx
      | union sw cs =>
        simp only [Typespec.goType] at ht
        obtain ⟨f, hf, ht⟩ := bind_some ht
        obtain ⟨fs, hfs, h⟩ := bind_some ht
        cases h
        refine ⟨by simp, fun fs' h => ?_⟩
        cases h
        rw [Decl.goField_names hf, Cases.goFields_names hfs]
        simpa only [noXdr, decide_eq_true_eq] using hx

/-- The declared type of a definition of Go type `gt` (out.go:448-468). -/
def topGo (t : DeclType) (gt : GoType) : GoType :=
  match t with
  | .ptr _ => .struct (.cons "P" gt .nil)
  | _ => gt

theorem Comp.top (H : Comp fl s g) {n : Ident} {t : DeclType}
    (h : (n, t) ∈ specTypes fl.unsignedEnum s) : ∃ gt, t.goType = some gt ∧
      g.types.lookup (i n) = some (topGo t gt) ∧
      t.wf E K false = true ∧ t.chk fl s = true :=
  have ⟨gt, h1, h2⟩ := H.lnk.goType n t (H.typeOf_mem h)
  ⟨gt, h1, h2, H.facts.wf _ h, (H.type_chk h).1⟩

theorem underN_lookup {n : Ident} {gt : GoType} (hl : g.types.lookup n = some gt)
    (h : (under g (.named n)).isSome = true) : under g gt = under g (.named n) := by
  obtain ⟨u, hu⟩ := Option.isSome_iff_exists.mp h
  rw [hu]
  unfold under at hu ⊢
  simp only [underN, hl, Option.bind_some] at hu
  exact underN_mono (by omega) hu

theorem typeDecls (H : Comp fl s g) : g.types.all (typeDeclOk g) = true := by
  rw [List.all_eq_true]
  rintro ⟨N, gt⟩ hm
  obtain ⟨n, t, hn, rfl, ht⟩ := H.type_mem hm
  obtain ⟨gt', h1, h2, hw, hc⟩ := H.top hn
  have hgt : gt = topGo t gt' := by
    cases t with
    | ptr t =>
      simp only [topType] at ht
      obtain ⟨gt2, h3, rfl⟩ := except_map_eq ht
      rw [h1] at h3; cases h3; rfl
    | _ => simp only [topType] at ht; rw [h1] at ht; cases ht; rfl
  have hz := H.facts.zero _ hn
  have hu := under_of_zero hz
  have hok : typeOk g [] gt' = true := DeclType.typeOk H (by simp) t hw hc h1
  have hty : typeOk g [] gt = true := by
    rw [hgt]
    cases t with
    | ptr t => simp [topGo, typeOk, fieldsOk, GoFields.names, hok]
    | _ => exact hok
  rw [← hgt] at h2
  have hue := underN_lookup h2 hu
  simp only [typeDeclOk, Bool.and_eq_true]
  refine ⟨⟨hty, finN_of_zero hz⟩, ?_⟩
  obtain ⟨u, hu'⟩ := Option.isSome_iff_exists.mp hu
  rw [hue, hu']
  have hgb : GoodBase u := goodBase_top H (g.types.length + 1) _ _ _ _ hn ht (by
    have := hue; rw [hu'] at this; exact this)
  cases u with
  | ptr w => exact absurd rfl (hgb.1 w)
  | struct fs => simp [hgb.2 fs rfl]
  | _ => rfl

/-! ### Methods -/

theorem mapAll_map {α β γ} {f : α → Option β} {k : β → γ} {h : α → γ}
    (hf : ∀ a b, f a = some b → k b = h a) : ∀ {l : List α} {r : List β}, mapAll f l = some r →
    r.map k = l.map h
  | [], r, hr => by cases hr; rfl
  | a :: l, r, hr => by
    simp only [mapAll, bind, Option.bind, Pure.pure] at hr
    cases h1 : f a with
    | none => rw [h1] at hr; cases hr
    | some b' =>
      rw [h1] at hr
      cases h2 : mapAll f l with
      | none => simp [h2] at hr
      | some r2 =>
        simp only [h2, Option.some.injEq] at hr
        subst hr
        simp [hf a b' h1, mapAll_map hf h2]

theorem methods_nodup (H : Comp fl s g) : (g.methods.map (·.1)).Nodup := by
  have := mapAll_map (k := (·.1)) (h := fun q : Ident × DeclType => i q.1) (fun a b hb => by
    obtain ⟨c, _, rfl⟩ := except_map_eq hb
    rfl) (generate_types H.facts.gen).2
  rw [this]
  exact H.facts.types

theorem methods_ok (H : Comp fl s g) :
    (g.methods.all fun m => (g.types.lookup m.1).isSome && bodyOk g m.1 m.2) = true := by
  rw [List.all_eq_true]
  rintro ⟨N, b⟩ hm
  obtain ⟨⟨n, t⟩, hn, h⟩ := mapAll_mem (generate_types H.facts.gen).2 hm
  obtain ⟨b', hb, h⟩ := except_map_eq h
  cases h
  obtain ⟨gt, h1, h2, hw, hc⟩ := H.top hn
  have hu := under_of_zero (H.facts.zero _ hn)
  have hue := underN_lookup h2 hu
  simp only [h2, Option.isSome_some, Bool.true_and]
  have hΓ : ScopeOk ⟨[], []⟩ := by intro x hx; simp [Scope.all] at hx
  cases t with
  | ptr t =>
    simp only [topXdr] at hb
    refine (DeclType.static H (.ptr t) hw hc hb h1 hΓ ?_).1
    refine Pt.fieldPtr (gt := .named (i n)) (fs := .cons "P" gt .nil) ⟨rfl, .named (i n), true, rfl, rfl, ?_⟩
      (by rw [← hue]; rfl) (by decide) (by simp [GoFields.lookup])
    intro w h; cases h
  | array t sz => simp [DeclType.wf] at hw
  | varArray t sz => exact top H hw hc hb h1 hue (by simp [DeclType.goType, bind, Option.bind]; intros; split <;> simp)
  | opaqueArray sz => exact top H hw hc hb h1 hue (by simp [DeclType.goType])
  | opaqueVarArray sz => exact top H hw hc hb h1 hue (by simp [DeclType.goType])
  | string sz => exact top H hw hc hb h1 hue (by simp [DeclType.goType])
  | typespec t =>
    refine top H hw hc hb h1 hue (fun w h => ?_)
    simp only [DeclType.goType] at h
    cases t with
    | int b => cases b <;> cases h
    | hyper b => cases b <;> cases h
    | struct ds =>
      simp only [Typespec.goType] at h
      obtain ⟨fs, hfs, h⟩ := bind_some h
      cases h
    | union sw cs =>
      simp only [Typespec.goType] at h
      obtain ⟨fs, hfs, h⟩ := bind_some h
      obtain ⟨fs, hfs, h⟩ := bind_some h
      cases h
    | _ => cases h
where
  top {fl : Flags} {s : Spec} {g : GoProg} (H : Comp fl s g) {n : Ident} {t : DeclType} {b : Stmts}
      {gt : GoType} (hw : t.wf (envOf fl.unsignedEnum s) (nameBound fl s) false = true)
      (hc : t.chk fl s = true) (hb : t.goXdr .recv = some b) (h1 : t.goType = some gt)
      (hue : under g gt = under g (.named (i n))) (hp : ∀ w, t.goType ≠ some (.ptr w)) :
      bodyOk g (i n) b = true :=
    (DeclType.static H t hw hc hb h1 (by intro x hx; simp [Scope.all] at hx)
      ⟨rfl, .named (i n), true, rfl, hue.symm, fun w h => absurd (h ▸ h1) (hp w)⟩).1

/-! ### Handlers -/

theorem namedOpt_type (H : Comp fl s g) {o : TypespecOpt} {r : Option GoType}
    (h : namedOpt fl s o = true) (hr : maybeGoType o = some r) :
    (o = none ∧ r = none) ∨ ∃ n, o = some (.ident n) ∧ r = some (.named (i n)) ∧
      hasXdr g (.named (i n)) = true ∧ ∀ hidden : List Ident, (∀ x ∈ hidden, x ∈ badNames) →
        typeOk g hidden (.named (i n)) = true := by
  cases o with
  | none => cases hr; exact .inl ⟨rfl, rfl⟩
  | some t =>
    cases t with
    | ident n =>
      simp only [namedOpt] at h
      cases hr
      refine .inr ⟨n, rfl, rfl, ?_, fun hidden hh => ?_⟩
      · cases ht : (envOf fl.unsignedEnum s).typeOf n with
        | none => simp [ht] at h
        | some t =>
          obtain ⟨_, b, _, hb⟩ := lookup_mapAll _ _ n t H.facts.types (generate_types H.facts.gen).2 ht
          simp [hasXdr, hb]
      · exact Typespec.typeOk H hh (inArr := false) (.ident n) (by simpa only [Typespec.wf] using h)
          (by simp only [Typespec.chk]) rfl
    | _ => simp [namedOpt] at h

theorem wrapperNames_bad : ∀ x ∈ wrapperNames, x ∈ badNames := by decide

theorem find_sig {sigs : List GoSig} (hnd : (sigs.map (·.name)).Nodup) {sg : GoSig} (h : sg ∈ sigs) :
    sigs.find? (·.name = sg.name) = some sg := by
  induction sigs with
  | nil => simp at h
  | cons d cs ih =>
    simp only [List.map_cons, List.nodup_cons, List.mem_map, not_exists, not_and] at hnd
    rcases List.mem_cons.mp h with rfl | h
    · simp
    · have hne : d.name ≠ sg.name := fun he => hnd.1 sg h he.symm
      simp [hne, ih hnd.2 h]

theorem mapM'_mem' {α β} {f : α → Option β} : ∀ {l : List α} {r : List β} {a : α}, mapM' f l = some r →
    a ∈ l → ∃ b ∈ r, f a = some b
  | [], r, b, hr, hb => by simp at hb
  | a :: l, r, b, hr, hb => by
    simp only [mapM'] at hr
    obtain ⟨b', hb', hr⟩ := bind_some hr
    obtain ⟨bs, hbs, hr⟩ := bind_some hr
    cases hr
    rcases List.mem_cons.mp hb with rfl | hb
    · exact ⟨b', by simp, hb'⟩
    · obtain ⟨a', ha', h⟩ := mapM'_mem' hbs hb
      exact ⟨a', by simp [ha'], h⟩

theorem wrapper_ok (H : Comp fl s g) {p : ProgDef} {v : ProgVer} {c : ProgCall} {w : GoWrapper}
    {sigs : List GoSig} {a r : Option GoType} (ha : maybeGoType c.arg = some a)
    (hr : maybeGoType c.res = some r) (hna : namedOpt fl s c.arg = true) (hnr : namedOpt fl s c.res = true)
    (hf : sigs.find? (·.name = i c.name) = some ⟨i c.name, a, r⟩) (hw : emitWrapper p v c = some w) :
    wrapperOk g sigs none none w.body = true := by
  simp only [emitWrapper] at hw
  rcases namedOpt_type H hna ha with ⟨h1, rfl⟩ | ⟨n, h1, rfl, hx1, hok1⟩ <;>
  rcases namedOpt_type H hnr hr with ⟨h2, rfl⟩ | ⟨m, h2, rfl, hx2, hok2⟩ <;>
  · rw [h1, h2] at hw
    simp only [Typespec.goType, Option.pure_def, Option.bind_eq_bind, Option.bind_some,
      Option.some.injEq] at hw
    subst hw
    simp [wrapperOk, *]
    try exact ⟨hok1 _ wrapperNames_bad, hok2 _ wrapperNames_bad⟩
    try exact hok1 _ wrapperNames_bad
    try exact hok2 _ wrapperNames_bad

theorem regConst_of (H : Comp fl s g) {n : Ident} {k : Nat}
    (h : ⟨n, "uint32", .lit k⟩ ∈ g.consts) : regConst g n = true := by
  have hf := find_nodup H.facts.consts h
  have hb : n ∉ badNames := by
    rw [generate_consts H.facts.gen] at h
    exact H.bad _ (constName_mem h)
  simp only [regConst, Bool.and_eq_true, decide_eq_true_eq]
  refine ⟨?_, ?_⟩
  · intro hx
    refine hb ?_
    simp only [List.mem_cons, List.not_mem_nil, or_false] at hx
    rcases hx with rfl | rfl <;> decide
  · simp only [constFits, constTy]
    simp only at hf
    rw [hf]
    simp only [H.tyByName_basic (n := "uint32") rfl]
    rfl

theorem versOk_of (H : Comp fl s g) {p : ProgDef} {v : ProgVer} {V : GoVers} (hp : .program p ∈ s)
    (hv : v ∈ p.vers) (h : emitVers p v = some V) : versOk g V = true := by
  have hchk := H.chk _ hp
  simp only [Defn.chk, Bool.and_eq_true, decide_eq_true_eq, List.all_eq_true] at hchk
  obtain ⟨⟨_, hne⟩, hcalls⟩ := hchk.2 v hv
  have hnames : ∀ x ∈ defnNames (.program p), x ∈ s.flatMap defnNames :=
    fun x hx => List.mem_flatMap.mpr ⟨_, hp, hx⟩
  have hnd : (defnNames (.program p)).Nodup := by
    have := H.nodup
    clear H hchk hcalls hnames
    induction s with
    | nil => simp at hp
    | cons d s' ih =>
      simp only [List.flatMap_cons, List.nodup_append] at this
      rcases List.mem_cons.mp hp with rfl | hp
      · exact this.1
      · exact ih hp this.2.1
  have hcn : (v.calls.map fun c => i c.name).Nodup := by
    simp only [defnNames, List.nodup_cons] at hnd
    have := hnd.2
    clear hnd hchk hcalls hnames
    generalize p.vers = l at hv this
    induction l with
    | nil => simp at hv
    | cons v' l ih =>
      simp only [List.flatMap_cons, List.nodup_append] at this
      rcases List.mem_cons.mp hv with rfl | hv
      · exact (List.nodup_cons.mp this.1.1).2
      · exact ih hv this.2.1
  simp only [emitVers] at h
  obtain ⟨sigs, hsigs, h⟩ := bind_some h
  obtain ⟨ws, hws, h⟩ := bind_some h
  cases h
  have hsn : sigs.map (·.name) = v.calls.map fun c => i c.name := mapM'_map (fun c b hb => by
    obtain ⟨a, _, hb⟩ := bind_some hb
    obtain ⟨r, _, hb⟩ := bind_some hb
    cases hb; rfl) hsigs
  have hemit : ∀ (c : ProgCall) (w : GoWrapper), emitWrapper p v c = some w →
      w.name = i c.name ∧ w.recv = versName p v "_handler_wrapper" := by
    intro c w hw
    unfold emitWrapper at hw
    cases ha : c.arg with
    | none =>
      cases hr : c.res with
      | none => simp only [ha, hr] at hw; cases hw; exact ⟨rfl, rfl⟩
      | some t' =>
        simp only [ha, hr] at hw
        obtain ⟨_, _, hw⟩ := bind_some hw
        obtain ⟨_, _, hw⟩ := bind_some hw
        cases hw; exact ⟨rfl, rfl⟩
    | some t =>
      simp only [ha] at hw
      obtain ⟨_, _, hw⟩ := bind_some hw
      cases hr : c.res with
      | none => simp only [hr] at hw; cases hw; exact ⟨rfl, rfl⟩
      | some t' =>
        simp only [hr] at hw
        obtain ⟨_, _, hw⟩ := bind_some hw
        obtain ⟨_, _, hw⟩ := bind_some hw
        cases hw; exact ⟨rfl, rfl⟩
  have hwn : ws.map (·.name) = v.calls.map fun c => i c.name :=
    mapM'_map (fun c b hb => (hemit c b hb).1) hws
  have hcb : ∀ c ∈ v.calls, i c.name ∉ badNames := by
    intro c hc
    refine H.bad _ (hnames _ ?_)
    simp only [defnNames, List.mem_cons, List.mem_flatMap, List.mem_append, List.mem_map]
    exact .inr ⟨v, hv, .inl (.inr ⟨c, hc, rfl⟩)⟩
  have hwb : versName p v "_handler_wrapper" ∉ badNames := by
    refine H.bad _ (hnames _ ?_)
    simp only [defnNames, List.mem_cons, List.mem_flatMap, List.mem_append, List.mem_map]
    exact .inr ⟨v, hv, .inr (.inr (.inl rfl))⟩
  have hmemc : ∀ c ∈ (emitProgConsts p).consts, c ∈ g.consts := by
    intro c hc
    rw [generate_consts H.facts.gen]
    exact List.mem_flatMap.mpr ⟨_, hp, hc⟩
  simp only [versOk, Bool.and_eq_true, decide_eq_true_eq, List.all_eq_true]
  refine ⟨⟨⟨⟨⟨⟨⟨⟨⟨?_, ?_⟩, trivial⟩, trivial⟩, trivial⟩, ?_⟩, ?_⟩, ?_⟩, ?_⟩, ?_⟩
  · intro sg hsg
    obtain ⟨c, hc, hs⟩ := mapM'_mem hsigs hsg
    obtain ⟨a, ha, hs⟩ := bind_some hs
    obtain ⟨r, hr, hs⟩ := bind_some hs
    cases hs
    have hcc := hcalls c hc
    refine ⟨⟨fun he => hcb c hc (by simp only at he; rw [he]; decide), ?_⟩, ?_⟩
    · rcases namedOpt_type H hcc.1.2 ha with ⟨_, rfl⟩ | ⟨n, _, rfl, _, hok⟩
      · rfl
      · exact hok [] (by simp)
    · rcases namedOpt_type H hcc.2 hr with ⟨_, rfl⟩ | ⟨n, _, rfl, _, hok⟩
      · rfl
      · exact hok [] (by simp)
  · rw [hsn]; exact hcn
  · rw [hwn]; exact hcn
  · intro w hw
    obtain ⟨c, hc, hs⟩ := mapM'_mem hws hw
    obtain ⟨h1, h2⟩ := hemit c w hs
    refine ⟨⟨h2, ?_⟩, ?_⟩
    · rw [h1]; intro he; exact hcb c hc (by rw [he]; decide)
    · obtain ⟨sg, hsg, hsc⟩ := mapM'_mem' hsigs hc
      obtain ⟨a, ha, hsc⟩ := bind_some hsc
      obtain ⟨r, hr, hsc⟩ := bind_some hsc
      cases hsc
      have hcc := hcalls c hc
      exact wrapper_ok H ha hr hcc.1.2 hcc.2 (find_sig (by rw [hsn]; exact hcn) hsg) hs
  · intro r hr
    obtain ⟨c, hc, rfl⟩ := List.mem_map.mp hr
    refine ⟨⟨⟨?_, ?_⟩, ?_⟩, ?_⟩
    · exact regConst_of H (k := p.id) (hmemc _ (by simp [emitProgConsts]))
    · refine regConst_of H (k := v.id) (hmemc _ ?_)
      simp only [emitProgConsts, List.mem_cons, List.mem_flatMap, List.mem_map]
      exact .inr ⟨v, hv, .inl rfl⟩
    · refine regConst_of H (k := c.id) (hmemc _ ?_)
      simp only [emitProgConsts, List.mem_cons, List.mem_flatMap, List.mem_map]
      exact .inr ⟨v, hv, .inr ⟨c, hc, rfl⟩⟩
    · rw [hwn]; exact List.mem_map.mpr ⟨c, hc, rfl⟩
  · intro hx
    refine hwb ?_
    simp only [List.mem_cons, List.not_mem_nil, or_false] at hx
    rcases hx with hx | hx <;> (rw [hx]; decide)
  · intro he
    rw [List.map_eq_nil_iff] at he
    exact hne he

theorem generateVers_mem : ∀ {s : Spec} {vs : List GoVers} {V : GoVers}, generateVers s = some vs →
    V ∈ vs → ∃ p, .program p ∈ s ∧ ∃ v ∈ p.vers, emitVers p v = some V
  | [], vs, V, h, hV => by cases h; simp at hV
  | d :: s, vs, V, h, hV => by
    have hrec : ∀ vs', generateVers s = some vs' → V ∈ vs' →
        ∃ p, .program p ∈ d :: s ∧ ∃ v ∈ p.vers, emitVers p v = some V := by
      intro vs' h1 h2
      obtain ⟨p, hp, hv⟩ := generateVers_mem h1 h2
      exact ⟨p, List.mem_cons_of_mem _ hp, hv⟩
    cases d with
    | program p =>
      simp only [generateVers] at h
      obtain ⟨a, ha, h⟩ := bind_some h
      obtain ⟨b, hb, h⟩ := bind_some h
      cases h
      rcases List.mem_append.mp hV with hV | hV
      · obtain ⟨v, hv, h⟩ := mapM'_mem ha hV
        exact ⟨p, List.mem_cons_self .., v, hv, h⟩
      · exact hrec b hb hV
    | _ => exact hrec vs h hV

theorem uses_xdr : ∀ {s : Spec} {g : GoProg} {vs : List GoVers}, generate fl s = some g →
    generateVers s = some vs → s.any Defn.usesXdr = true → g.methods ≠ [] ∨ vs ≠ []
  | [], g, vs, _, _, h => by simp at h
  | d :: s, g, vs, hg, hv, h => by
    simp only [generate] at hg
    obtain ⟨a, ha, hg⟩ := bind_some hg
    obtain ⟨b, hb, hg⟩ := bind_some hg
    cases hg
    simp only [List.any_cons, Bool.or_eq_true] at h
    have hrec : ∀ v1 v2, vs = v1 ++ v2 → generateVers s = some v2 → s.any Defn.usesXdr = true →
        (a.append b).methods ≠ [] ∨ vs ≠ [] := by
      intro v1 v2 he h1 h2
      rcases uses_xdr hb h1 h2 with h3 | h3
      · exact .inl (by simp [GoProg.append, h3])
      · exact .inr (by simp [he, h3])
    cases d with
    | program p =>
      simp only [generateVers] at hv
      obtain ⟨v1, h1, hv⟩ := bind_some hv
      obtain ⟨v2, h2, hv⟩ := bind_some hv
      cases hv
      rcases h with h | h
      · refine .inr ?_
        simp only [Defn.usesXdr, decide_eq_true_eq] at h
        cases hpv : p.vers with
        | nil => exact absurd hpv h
        | cons v l =>
          simp only [emitProg, hpv, mapM'] at h1
          obtain ⟨b', _, h1⟩ := bind_some h1
          obtain ⟨bs, _, h1⟩ := bind_some h1
          cases h1; simp
      · exact hrec v1 v2 rfl h2 h
    | const n v =>
      simp only [Defn.usesXdr, Bool.false_eq_true, false_or] at h
      exact hrec [] vs rfl hv h
    | typedef d =>
      rcases h with h | h
      · cases d with
        | void => simp [Defn.usesXdr] at h
        | name t n =>
          simp only [emitDefn] at ha
          obtain ⟨gt, b, h1, h2, rfl⟩ := emitTypedef_eq ha
          exact .inl (by simp [GoProg.append])
      · exact hrec [] vs rfl hv h
    | enum n items =>
      simp only [emitDefn, emitEnum] at ha
      obtain ⟨_, _, ha⟩ := bind_some ha
      obtain ⟨_, _, ha⟩ := bind_some ha
      cases ha
      exact .inl (by simp [GoProg.append])
    | struct n ds =>
      simp only [emitDefn, emitStruct] at ha
      obtain ⟨_, _, ha⟩ := bind_some ha
      obtain ⟨_, _, ha⟩ := bind_some ha
      cases ha
      exact .inl (by simp [GoProg.append])
    | union n sw cs =>
      simp only [emitDefn, emitUnion] at ha
      obtain ⟨_, _, ha⟩ := bind_some ha
      obtain ⟨_, _, ha⟩ := bind_some ha
      cases ha
      exact .inl (by simp [GoProg.append])

theorem pkgOk_of {vs : List GoVers} (hg : generate fl s = some g) (hv : generateVers s = some vs)
    (h : compilable fl s = true) : pkgOk g vs = true := by
  obtain ⟨H, hu⟩ := compilable_comp hg h
  have hperm := pkgNames_perm hg hv
  simp only [pkgOk, Bool.and_eq_true, decide_eq_true_eq]
  refine ⟨⟨⟨⟨⟨⟨⟨hperm.nodup_iff.mpr H.nodup, ?_⟩, constDecls H⟩, typeDecls H⟩, methods_nodup H⟩,
    methods_ok H⟩, ?_⟩, uses_xdr hg hv hu⟩
  · rw [List.all_eq_true]
    intro n hn
    have hb := H.bad n (hperm.mem_iff.mp hn)
    simp only [decide_eq_true_eq]
    intro hx
    refine hb ?_
    simp only [badNames, List.mem_append, List.mem_cons] at hx ⊢
    rcases hx with rfl | rfl | rfl | hx
    · simp
    · simp
    · simp
    · exact .inr hx
  · rw [List.all_eq_true]
    intro V hV
    obtain ⟨p, hp, v, hv', he⟩ := generateVers_mem hv hV
    exact versOk_of H hp hv' he

end

end Verif.Gen
