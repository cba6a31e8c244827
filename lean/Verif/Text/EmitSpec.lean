/-
What out.go prints for a whole specification, read as Go.
-/
import Verif.Text.EmitProg
import Verif.Text.Spells

namespace Verif.Text
open Verif.Gen

/-- The constants of a version. -/
def versConsts (v : ProgVer) : List GoConst :=
  ⟨i v.name, "uint32", .lit v.id⟩ :: v.calls.map (fun c => ⟨i c.name, "uint32", .lit c.id⟩)

theorem rvers {p : ProgDef} (hp : isName p.name = true) (v : ProgVer) (h : nVers v = true) :
    OptRel (fun ws gv => RD ws ⟨versConsts v, [], []⟩ [gv]) (wVers p v) (emitVers p v) := by
  simp only [nVers, Bool.and_eq_true] at h
  obtain ⟨hv, hc⟩ := h
  have hcall : ∀ c ∈ v.calls, nCall c = true := List.all_eq_true.mp hc
  have hS := optRel_all (R := RSig) (R' := RSigs) ⟨by simp, [], rfl, rfl, .nil _⟩ RSigs.cons v.calls
    fun c h => rsig c (hcall c h)
  have hW := optRel_all (R := RWrap) (R' := RWraps) RWraps.nil RWraps.cons v.calls
    fun c h => rwrap hp hv c (hcall c h)
  unfold wVers emitVers
  revert hS
  cases e1 : wAll wSig v.calls <;> cases e2 : mapM' (fun c : ProgCall => do
    let a ← maybeGoType c.arg
    let r ← maybeGoType c.res
    pure (⟨i c.name, a, r⟩ : GoSig)) v.calls <;> intro hS <;> first | exact hS.elim | trivial | skip
  simp only [Option.bind_eq_bind, Option.bind_some]
  revert hW
  cases e3 : wAll (wWrapper p v) v.calls <;> cases e4 : mapM' (emitWrapper p v) v.calls <;> intro hW <;>
    first | exact hW.elim | trivial | skip
  have h1 := RD.append (RD.append (rd_procs.rd_const32 hv v.id) (rd_procs v.calls hc)) (rd_vers hp hv hc hS hW)
  simp only [← List.append_assoc] at h1
  have e : (GoProg.append (GoProg.append ⟨[⟨i v.name, "uint32", .lit v.id⟩], [], []⟩
      ⟨v.calls.map (fun c => ⟨i c.name, "uint32", .lit c.id⟩), [], []⟩) ⟨[], [], []⟩) = ⟨versConsts v, [], []⟩ := by
    simp [GoProg.append, versConsts]
  rw [e] at h1
  exact h1

theorem rprog (p : ProgDef) (hn : nDefn (.program p) = true) :
    OptRel (fun ws vs => RD ws (emitProgConsts p) vs) (wProg p) (emitProg p) := by
  simp only [nDefn, Bool.and_eq_true] at hn
  obtain ⟨hp, hv⟩ := hn
  have hv : ∀ v ∈ p.vers, nVers v = true := List.all_eq_true.mp hv
  have key : ∀ l : List ProgVer, (∀ v ∈ l, nVers v = true) →
      OptRel (fun ws vs => RD ws ⟨l.flatMap versConsts, [], []⟩ vs) (wAll (wVers p) l) (mapM' (emitVers p) l) := by
    intro l
    induction l with
    | nil => intro _; exact RD.nil
    | cons v l ih =>
      intro h
      have h1 := rvers hp v (h v (by simp))
      have h2 := ih fun v hv => h v (by simp [hv])
      simp only [wAll, mapM']
      cases e1 : wVers p v <;> cases e2 : emitVers p v <;> rw [e1, e2] at h1 <;> first | exact h1.elim | trivial | skip
      simp only [Option.bind_eq_bind, Option.bind_some]
      cases e3 : wAll (wVers p) l <;> cases e4 : mapM' (emitVers p) l <;> rw [e3, e4] at h2 <;>
        first | exact h2.elim | trivial | skip
      exact RD.append h1 h2
  have h := key p.vers hv
  unfold wProg emitProg
  cases e3 : wAll (wVers p) p.vers <;> cases e4 : mapM' (emitVers p) p.vers <;> rw [e3, e4] at h <;>
    first | exact h.elim | trivial | skip
  exact RD.append (rd_procs.rd_const32 hp p.id) h

/-! ### Whole specifications -/

/-- The versions of one definition. -/
def versOf : Defn → Option (List GoVers)
  | .program p => emitProg p
  | _ => some []

theorem generateVers_cons (d : Defn) (s : Spec) : generateVers (d :: s) = (do
    let a ← versOf d
    let b ← generateVers s
    pure (a ++ b)) := by
  cases d <;> simp only [generateVers, versOf] <;> cases generateVers s <;> rfl

theorem mapM'_isSome {α β} (f : α → Option β) (l : List α) : (mapM' f l).isSome = l.all fun a => (f a).isSome := by
  induction l with
  | nil => rfl
  | cons a l ih =>
    simp only [mapM', List.all_cons, ← ih]
    cases f a <;> cases mapM' f l <;> rfl

/-- The two halves of the model panic together. -/
theorem emitProg_isSome (p : ProgDef) : (emitProg p).isSome = progTypesOk p := by
  unfold emitProg progTypesOk
  rw [mapM'_isSome]
  congr 1
  funext v
  have h : (emitVers p v).isSome = (v.calls.all fun c => (c.arg.all fun t => t.goType.isSome) &&
      (c.res.all fun t => t.goType.isSome)) := by
    unfold emitVers
    have h1 : ∀ c : ProgCall, (do
        let a ← maybeGoType c.arg
        let r ← maybeGoType c.res
        pure (⟨i c.name, a, r⟩ : GoSig)).isSome = ((c.arg.all fun t => t.goType.isSome) &&
        (c.res.all fun t => t.goType.isSome)) := by
      intro c
      cases c.arg with
      | none =>
        cases c.res with
        | none => rfl
        | some t => simp only [maybeGoType, Option.all]; cases t.goType <;> rfl
      | some u =>
        cases c.res with
        | none => simp only [maybeGoType, Option.all]; cases u.goType <;> rfl
        | some t => simp only [maybeGoType, Option.all]; cases u.goType <;> cases t.goType <;> rfl
    have h2 : ∀ c : ProgCall, (emitWrapper p v c).isSome = ((c.arg.all fun t => t.goType.isSome) &&
        (c.res.all fun t => t.goType.isSome)) := by
      intro c
      obtain ⟨n, arg, res, id⟩ := c
      cases arg with
      | none =>
        cases res with
        | none => rfl
        | some t => simp only [emitWrapper, Option.all]; cases t.goType <;> rfl
      | some u =>
        cases res with
        | none => simp only [emitWrapper, Option.all]; cases u.goType <;> rfl
        | some t => simp only [emitWrapper, Option.all]; cases u.goType <;> cases t.goType <;> rfl
    have h3 := mapM'_isSome (fun c : ProgCall => do
        let a ← maybeGoType c.arg
        let r ← maybeGoType c.res
        pure (⟨i c.name, a, r⟩ : GoSig)) v.calls
    have h4 := mapM'_isSome (emitWrapper p v) v.calls
    simp only [h1] at h3
    simp only [h2] at h4
    rw [← h4] at h3 ⊢
    revert h3
    cases mapM' (fun c : ProgCall => do
        let a ← maybeGoType c.arg
        let r ← maybeGoType c.res
        pure (⟨i c.name, a, r⟩ : GoSig)) v.calls <;> cases mapM' (emitWrapper p v) v.calls <;> intro h3 <;>
      first | (cases h3; done) | rfl
  exact h

/-- One definition. -/
theorem rd_defn {fl : Flags} (hfl : constTypeOk fl) (d : Defn) (hn : nDefn d = true) :
    OptRel (fun ws g => ∃ v, versOf d = some v ∧ RD ws g v) (wDefn fl d) (emitDefn fl d) := by
  cases d with
  | const n v => exact ⟨[], rfl, rd_constDef hfl hn v⟩
  | typedef d => exact (rd_typedef d hn).mono fun a b h => ⟨[], rfl, h⟩
  | enum n items =>
    simp only [nDefn, Bool.and_eq_true] at hn
    exact (rd_enum fl hn.1 hn.2).mono fun a b h => ⟨[], rfl, h⟩
  | struct n ds =>
    simp only [nDefn, Bool.and_eq_true] at hn
    exact (rd_struct hn.1 hn.2).mono fun a b h => ⟨[], rfl, h⟩
  | union n sw cs =>
    simp only [nDefn, Bool.and_eq_true] at hn
    exact (rd_union hn.1.1 hn.1.2 hn.2).mono fun a b h => ⟨[], rfl, h⟩
  | program p =>
    have h := rprog p hn
    have hp := emitProg_isSome p
    simp only [wDefn, emitDefn, versOf]
    cases e1 : wProg p <;> cases e2 : emitProg p <;> rw [e1, e2] at h <;> first | exact h.elim | skip
    · rw [e2] at hp
      simp only [Option.isSome] at hp
      rw [← hp]; trivial
    · rw [e2] at hp
      simp only [Option.isSome] at hp
      rw [← hp]
      exact ⟨_, rfl, h⟩

/-- A specification. -/
theorem rd_spec {fl : Flags} (hfl : constTypeOk fl) : ∀ s : Spec, nSpec s = true →
    OptRel (fun ws g => ∃ v, generateVers s = some v ∧ RD ws g v) (wSpec fl s) (generate fl s)
  | [], _ => ⟨[], rfl, RD.nil⟩
  | d :: s, hn => by
    simp only [nSpec, List.all_cons, Bool.and_eq_true] at hn
    have h1 := rd_defn hfl d hn.1
    have h2 := rd_spec hfl s hn.2
    simp only [wSpec, wAll, generate] at h2 ⊢
    cases e1 : wDefn fl d <;> cases e2 : emitDefn fl d <;> rw [e1, e2] at h1 <;> first | exact h1.elim | trivial | skip
    simp only [Option.bind_eq_bind, Option.bind_some]
    cases e3 : wAll (wDefn fl) s <;> cases e4 : generate fl s <;> rw [e3, e4] at h2 <;>
      first | exact h2.elim | trivial | skip
    obtain ⟨v, hv, h1⟩ := h1
    obtain ⟨v', hv', h2⟩ := h2
    refine ⟨v ++ v', ?_, RD.append h1 h2⟩
    rw [generateVers_cons, hv, hv']; rfl

/-! ### Files -/

theorem GoProg.split (g : GoProg) :
    ((GoProg.empty.append ⟨g.consts, g.types, []⟩).append ⟨[], [], g.methods⟩) = g := by
  simp [GoProg.append, GoProg.empty]

theorem emitOne_file {fl : Flags} {pkg : Ident} {s : Spec} {g : GoProg} (hfl : constTypeOk fl)
    (hpkg : Word (codes pkg)) (hn : nSpec s = true) (hg : generate fl s = some g) :
    ∃ t f vs, emitOne fl pkg s = some t ∧ IsGo t f ∧ f.pkg = codes pkg ∧ generateVers s = some vs ∧
      lowFile f = some (g, vs) := by
  have h := rd_spec hfl s hn
  rw [hg] at h
  cases hw : wSpec fl s with
  | none => rw [hw] at h; exact h.elim
  | some ws =>
    rw [hw] at h
    obtain ⟨vs, hvs, l, h1, h2, h3, h4⟩ := h
    refine ⟨headOut pkg ++ writtenAll ws, ⟨codes pkg, [xdrPath], selAll l⟩, vs, ?_, ⟨?_, ?_⟩, rfl, hvs, ?_⟩
    · simp only [emitOne, hw]; rfl
    · have a1 := (hpkg.frag.pre (scA% "package ")).to (scT% "\n") rfl false
      have a2 := scF% "import \"github.com/zeldovich/go-rpcgen/xdr\"\n"
      have a3 := ((a1.append a2).append h1.all.1).scan rfl
      simp only [headOut, headTypes]
      rw [a3]
      simp [gFile, kwPackage, kwImport, xdrPath, gDs]
    · exact h1.all.2
    · simp only [lowFile, if_true, h2]
      simp [GoProg.append, GoProg.empty]

theorem emitTwo_files {fl : Flags} {pkg : Ident} {s : Spec} {g : GoProg} (hfl : constTypeOk fl)
    (hpkg : Word (codes pkg)) (hn : nSpec s = true) (hg : generate fl s = some g) :
    ∃ t c ft fc vs, emitTwo fl pkg s = some (t, c) ∧ IsGo t ft ∧ IsGo c fc ∧ ft.pkg = codes pkg ∧
      fc.pkg = codes pkg ∧ generateVers s = some vs ∧ lowFiles ft fc = some (g, vs) := by
  have h := rd_spec hfl s hn
  rw [hg] at h
  cases hw : wSpec fl s with
  | none => rw [hw] at h; exact h.elim
  | some ws =>
    rw [hw] at h
    obtain ⟨vs, hvs, l, h1, h2, h3, h4⟩ := h
    refine ⟨headTypes pkg ++ written true ws, headOut pkg ++ written false ws, ⟨codes pkg, [], sel true l⟩,
      ⟨codes pkg, [xdrPath], sel false l⟩, vs, ?_, ⟨?_, ?_⟩, ⟨?_, ?_⟩, rfl, rfl, hvs, ?_⟩
    · simp only [emitTwo, hw]; rfl
    · have a1 := (hpkg.frag.pre (scA% "package ")).to (scT% "\n") rfl false
      have a3 := (a1.append (h1.some true).1).scan rfl
      simp only [headTypes]
      rw [a3]
      simp [gFile, kwPackage, gDs]
    · exact (h1.some true).2
    · have a1 := (hpkg.frag.pre (scA% "package ")).to (scT% "\n") rfl false
      have a2 := scF% "import \"github.com/zeldovich/go-rpcgen/xdr\"\n"
      have a3 := ((a1.append a2).append (h1.some false).1).scan rfl
      simp only [headOut, headTypes]
      rw [a3]
      simp [gFile, kwPackage, kwImport, xdrPath, gDs]
    · exact (h1.some false).2
    · simp only [lowFiles, and_self, if_true, h3, h4, GoProg.split, List.nil_append]

/-- The model panics when the generator does. -/
theorem emit_none {fl : Flags} {s : Spec} (hfl : constTypeOk fl) (hn : nSpec s = true) :
    wSpec fl s = none ↔ generate fl s = none := by
  have h := rd_spec hfl s hn
  cases e1 : wSpec fl s <;> cases e2 : generate fl s <;> rw [e1, e2] at h <;>
    first | exact h.elim | simp

end Verif.Text
