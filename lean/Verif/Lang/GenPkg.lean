/-
A package that has what the generator prints for a specification that compiles meets the conditions of
Verif.Lang.GenMeth.
-/
import Verif.Lang.GenConst

namespace Verif.Lang.Text
set_option linter.unusedSimpArgs false
set_option linter.unusedSectionVars false
variable {fl : Gen.Flags} {s : Gen.Spec} {g : Gen.GoProg} {q : Pkg} {Ps : Prog}

theorem kindD_of (H : Gen.Comp fl s g) : ∀ {k : Nat} {t : Gen.DeclType} {κ : Gen.Kind},
    Gen.kindOf (Spec.envOf fl.unsignedEnum s) k t = some κ → kindD (Gen.defsOf fl s) k t = some κ := by
  intro k
  induction k with
  | zero =>
    intro t κ h
    rw [Gen.kindOf.eq_def] at h
    split at h <;> first | (cases h; done) | omega | (rw [kindD]; exact h)
  | succ k ih =>
    intro t κ h
    rw [Gen.kindOf.eq_def] at h
    split at h
    case h_6 =>
      rename_i n he
      cases he
      obtain ⟨t', ht, h⟩ := Option.bind_eq_some_iff.1 h
      rw [kindD, H.lnk.typeOf n t' ht]
      exact ih h
    all_goals first | (cases h; done) | (rw [kindD]; exact h)

theorem zeroP_text (H : Gen.Comp fl s g) (T : IsText g q) (hq : Has Ps q) {a : Bool} {t : Gen.Typespec}
    (hw : t.wf (Spec.envOf fl.unsignedEnum s) (Gen.nameBound fl s) a = true) : ZeroP (xdrPkg :: Ps) q.name g t := by
  intro gt hg
  refine ⟨zero_text H T hq (tsPlain t hw hg), fun e => ?_⟩
  cases t with
  | ident n =>
    simp only [Gen.Typespec.wf] at hw
    cases hg
    rw [tyG] at e
    have := H.type_bad (H.typeOf_lookup hw)
    rw [Ty.name.inj e] at this
    exact this (by decide)
  | int b => cases b <;> cases hg <;> exact absurd (Ty.name.inj e) (by decide)
  | hyper b => cases b <;> cases hg <;> exact absurd (Ty.name.inj e) (by decide)
  | bool => cases hg; exact absurd (Ty.name.inj e) (by decide)
  | struct ds =>
    simp only [Gen.Typespec.goType] at hg
    obtain ⟨fs, hfs, h⟩ := Gen.bind_some hg
    cases h
    cases e
  | union sw cs =>
    simp only [Gen.Typespec.goType] at hg
    obtain ⟨f, hf, h⟩ := Gen.bind_some hg
    obtain ⟨fs, hfs, h⟩ := Gen.bind_some h
    cases h
    cases e
  | _ => simp [Gen.Typespec.wf] at hw

section
variable (H : Gen.Comp fl s g) (T : IsText g q) (hq : Has Ps q) (hct : fl.constType ∈ constTypes)
include H T hq hct
local notation "𝔼" => Spec.envOf fl.unsignedEnum s
local notation "𝕂" => Gen.nameBound fl s

mutual
theorem tsOk_text : ∀ {a : Bool} (t : Gen.Typespec), t.wf 𝔼 𝕂 a = true → t.chk fl s = true →
    tsOk (xdrPkg :: Ps) q.name g (Gen.defsOf fl s) 𝕂 a t
  | a, .struct ds, hw, hc => by
    simp only [Gen.Typespec.wf, Bool.and_eq_true] at hw
    simp only [Gen.Typespec.chk] at hc
    rw [tsOk]
    exact dsOk_text ds hw.2 hc
  | a, .union .void cs, hw, hc => by
    simp only [Gen.Typespec.chk, Bool.and_eq_true] at hc
    simp at hc
  | a, .union (.name t n) cs, hw, hc => by
    simp only [Gen.Typespec.wf, Bool.and_eq_true, Gen.Decl.kindOf, Gen.Decl.wf] at hw
    simp only [Gen.Typespec.chk, Bool.and_eq_true, Gen.Decl.chk] at hc
    rw [tsOk]
    refine ⟨dtOk_text t hw.1.2 hc.1.1.2, ?_⟩
    obtain ⟨hc1, hc2⟩ := hc
    simp only [Gen.labelsOk, Bool.and_eq_true] at hc2
    cases hk : Gen.kindOf 𝔼 𝕂 t with
    | none => rw [hk] at hw; simp at hw
    | some κ =>
      rw [hk] at hw hc2
      cases hg : t.goType with
      | none => rw [hg] at hc2; simp at hc2
      | some gt =>
        rw [hg] at hc2
        refine ⟨κ, kindD_of H hk, csOk_text hk hg cs hw.2 hc1.2 fun m hm => ?_⟩
        have := hc2.2
        dsimp only at this
        rw [hm] at this
        exact this
  | a, .int _, _, _ => by simp [tsOk]
  | a, .hyper _, _, _ => by simp [tsOk]
  | a, .bool, _, _ => by simp [tsOk]
  | a, .float, _, _ => by simp [tsOk]
  | a, .double, _, _ => by simp [tsOk]
  | a, .quadruple, _, _ => by simp [tsOk]
  | a, .enum _, _, _ => by simp [tsOk]
  | a, .ident _, _, _ => by simp [tsOk]
theorem dtOk_text : ∀ {a : Bool} (t : Gen.DeclType), t.wf 𝔼 𝕂 a = true → t.chk fl s = true →
    dtOk (xdrPkg :: Ps) q.name g (Gen.defsOf fl s) 𝕂 a t
  | a, .typespec t, hw, hc => by
    simp only [Gen.DeclType.wf] at hw
    simp only [Gen.DeclType.chk] at hc
    rw [dtOk]
    exact tsOk_text t hw hc
  | a, .array _ _, hw, _ => by simp [Gen.DeclType.wf] at hw
  | a, .varArray t m, hw, hc => by
    simp only [Gen.DeclType.wf, Bool.and_eq_true, Bool.not_eq_true'] at hw
    simp only [Gen.DeclType.chk, Bool.and_eq_true] at hc
    rw [dtOk]
    exact ⟨hw.1.1, tsOk_text t hw.1.2 hc.1, zeroP_text H T hq hw.1.2, size_text H T hq hct hc.2⟩
  | a, .opaqueArray _, _, _ => by simp [dtOk]
  | a, .opaqueVarArray m, hw, hc => by
    simp only [Gen.DeclType.chk] at hc
    rw [dtOk]
    exact max_text H T hq hct hc
  | a, .string m, hw, hc => by
    simp only [Gen.DeclType.chk] at hc
    rw [dtOk]
    exact max_text H T hq hct hc
  | a, .ptr t, hw, hc => by
    simp only [Gen.DeclType.wf] at hw
    simp only [Gen.DeclType.chk] at hc
    rw [dtOk]
    exact ⟨tsOk_text t hw hc, zeroP_text H T hq hw⟩
theorem dcOk_text : ∀ {a : Bool} (d : Gen.Decl), d.wf 𝔼 𝕂 a = true → d.chk fl s = true →
    dcOk (xdrPkg :: Ps) q.name g (Gen.defsOf fl s) 𝕂 a d
  | a, .void, _, _ => by simp [dcOk]
  | a, .name t n, hw, hc => by
    simp only [Gen.Decl.wf] at hw
    simp only [Gen.Decl.chk, Bool.and_eq_true] at hc
    rw [dcOk]
    exact dtOk_text t hw hc.2
theorem dsOk_text : ∀ {a : Bool} (ds : Gen.Decls), ds.wf 𝔼 𝕂 a = true → ds.chk fl s = true →
    dsOk (xdrPkg :: Ps) q.name g (Gen.defsOf fl s) 𝕂 a ds
  | a, .nil, _, _ => by simp [dsOk]
  | a, .cons d ds, hw, hc => by
    simp only [Gen.Decls.wf, Bool.and_eq_true] at hw
    simp only [Gen.Decls.chk, Bool.and_eq_true] at hc
    rw [dsOk]
    exact ⟨dcOk_text d hw.1 hc.1, dsOk_text ds hw.2 hc.2⟩
theorem csOk_text {t : Gen.DeclType} {κ : Gen.Kind} {gt : Gen.GoType} (hk : Gen.kindOf 𝔼 𝕂 t = some κ) (hg : t.goType = some gt) :
    ∀ {a : Bool} (cs : Gen.Cases), cs.wf 𝔼 𝕂 a κ = true → cs.chk fl s = true →
    (∀ m, κ.max = some m → cs.labels.all (Gen.fits fl s gt m) = true) →
    csOk (xdrPkg :: Ps) q.name g (Gen.defsOf fl s) 𝕂 a κ cs
  | a, .nil, _, _, _ => by simp [csOk]
  | a, .dflt d, hw, hc, _ => by
    simp only [Gen.Cases.wf] at hw
    simp only [Gen.Cases.chk] at hc
    rw [csOk]
    exact dcOk_text d hw hc
  | a, .cons l more d cs, hw, hc, hf => by
    simp only [Gen.Cases.wf, Bool.and_eq_true] at hw
    simp only [Gen.Cases.chk, Bool.and_eq_true] at hc
    rw [csOk]
    refine ⟨?_, dcOk_text d hw.1.2 hc.1, csOk_text hk hg cs hw.2 hc.2 fun m hm => ?_⟩
    · rw [List.all_eq_true]
      intro l' hl'
      have h1 := List.all_eq_true.1 hw.1.1 l' hl'
      rw [Option.any_eq_true] at h1
      obtain ⟨lab, h1, h2⟩ := h1
      refine label_text H T hq hct hk hg h1 h2 fun m hm => ?_
      have := hf m hm
      simp only [Gen.Cases.labels, List.all_eq_true] at this
      exact this l' (List.mem_append_left _ hl')
    · have := hf m hm
      simp only [Gen.Cases.labels, List.all_eq_true] at this ⊢
      exact fun x hx => this x (List.mem_append_right _ hx)
end

/-- The conditions are met. -/
theorem prints_text (hs : Gen.supported fl s = true) (hd : '.' ∉ q.name.toList) :
    Prints Ps q.name g (Gen.defsOf fl s) 𝕂 where
  ok := by
    refine ⟨?_, ?_⟩
    · rw [isImport, pkg_second hq]
      simpa using T.imp
    · simp only [Prog.const, pkg_second hq, T.pre "nil" (by simp), bind, Option.bind]
  meth := by
    intro N t hN
    obtain ⟨-, b, h1, h2⟩ := Gen.methods_link H.facts.gen hs N t hN
    exact ⟨b, h1, find_meth hq hd (T.meths N b (Gen.lookup_mem h2))⟩
  typ := by
    intro N t hN
    have hmem : (N, t) ∈ (Spec.specTypes fl.unsignedEnum s).map fun p => (Gen.i p.1, p.2) := Gen.lookup_mem hN
    rw [List.mem_map] at hmem
    obtain ⟨⟨n, t'⟩, hp, he⟩ := hmem
    cases he
    exact dtOk_text H T hq hct t' (H.facts.wf _ hp) (H.type_chk hp).1
end

end Verif.Lang.Text
