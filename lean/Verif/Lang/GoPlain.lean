/-
The statements that the generator prints are of the form that GoLow.lean needs.
-/
import Verif.Lang.GoLow
import Verif.Gen.Out

namespace Verif.Lang.Rd
open Verif.Gen

theorem plSs_append : ∀ (a b : Stmts), plSs (a ++ b) = (plSs a && plSs b)
  | .nil, b => rfl
  | .cons s a, b => by
    show plSs (.cons s (a ++ b)) = _
    rw [plSs, plSs, plSs_append a b, Bool.and_assoc]

theorem notPtr_goType {t : Typespec} {g : GoType} (h : t.goType = some g) : notPtr g = true := by
  cases t with
  | int u => cases u <;> (simp only [Typespec.goType] at h; cases h; rfl)
  | hyper u => cases u <;> (simp only [Typespec.goType] at h; cases h; rfl)
  | struct ds =>
    simp only [Typespec.goType, Option.bind_eq_bind, Option.bind_eq_some_iff] at h
    obtain ⟨f, -, h⟩ := h
    cases h; rfl
  | union sw cs =>
    simp only [Typespec.goType, Option.bind_eq_bind, Option.bind_eq_some_iff] at h
    obtain ⟨f, -, f', -, h⟩ := h
    cases h; rfl
  | _ => simp only [Typespec.goType] at h; cases h <;> rfl

theorem plCs_labels {b : Stmts} {cs : GoCases} (hb : plSs b = true) (hc : plCs cs = true) : ∀ (ls : List Val) (l : Val),
    plCs (goLabels l ls b cs) = true ∧ isConsC (goLabels l ls b cs) = true
  | [], l => by simp [goLabels, plCs, isConsC, hb, hc]
  | l' :: ls, l => by
    have h := plCs_labels hb hc ls l'
    exact ⟨by simp [goLabels, plCs, isNilS, plSs, h.1, h.2], rfl⟩

theorem plSs_max (m : Option Val) {b : Stmts} (hb : plSs b = true) : plSs (checkMax m b) = true := by
  cases m <;> simp [checkMax, plSs, plS, hb]

mutual
theorem plain_ts : ∀ (t : Typespec) (p : Ex) {b : Stmts}, t.goXdr p = some b → plSs b = true
  | .int u, p, b, h => by cases u <;> (simp only [Typespec.goXdr] at h; cases h; rfl)
  | .hyper u, p, b, h => by cases u <;> (simp only [Typespec.goXdr] at h; cases h; rfl)
  | .float, p, b, h => by simp only [Typespec.goXdr] at h; cases h
  | .double, p, b, h => by simp only [Typespec.goXdr] at h; cases h
  | .quadruple, p, b, h => by simp only [Typespec.goXdr] at h; cases h
  | .bool, p, b, h => by simp only [Typespec.goXdr] at h; cases h; rfl
  | .enum _, p, b, h => by simp only [Typespec.goXdr] at h; cases h
  | .struct ds, p, b, h => by
    simp only [Typespec.goXdr] at h
    exact plain_ds ds p h
  | .union sw cs, p, b, h => by
    cases sw with
    | void => simp only [Typespec.goXdr] at h; cases h
    | name t n =>
      simp only [Typespec.goXdr, Option.bind_eq_bind, Option.bind_eq_some_iff] at h
      obtain ⟨s, h1, c, h2, h⟩ := h
      cases h
      rw [plSs_append, plain_dt t _ h1]
      simp [plSs, plS, plain_cs cs p h2]
  | .ident n, p, b, h => by simp only [Typespec.goXdr] at h; cases h; rfl
theorem plain_dt : ∀ (t : DeclType) (p : Ex) {b : Stmts}, t.goXdr p = some b → plSs b = true
  | .typespec t, p, b, h => by
    simp only [DeclType.goXdr] at h
    exact plain_ts t p h
  | .array t sz, p, b, h => by
    simp only [DeclType.goXdr, Option.bind_eq_bind, Option.bind_eq_some_iff] at h
    obtain ⟨s, h1, h⟩ := h
    cases h
    simp [plSs, plS, plain_ts t _ h1]
  | .varArray t sz, p, b, h => by
    simp only [DeclType.goXdr, Option.bind_eq_bind, Option.bind_eq_some_iff] at h
    obtain ⟨s, h1, g, -, h⟩ := h
    cases h
    simp only [plSs, plS, Bool.true_and, Bool.and_true]
    apply plSs_max
    simp [plSs, plS, plain_ts t _ h1]
  | .opaqueArray _, p, b, h => by simp only [DeclType.goXdr] at h; cases h; rfl
  | .opaqueVarArray _, p, b, h => by simp only [DeclType.goXdr] at h; cases h; rfl
  | .string _, p, b, h => by simp only [DeclType.goXdr] at h; cases h; rfl
  | .ptr t, p, b, h => by
    simp only [DeclType.goXdr, Option.bind_eq_bind, Option.bind_eq_some_iff] at h
    obtain ⟨s, h1, g, h2, h⟩ := h
    cases h
    simp [plSs, plS, plain_ts t _ h1, notPtr_goType h2]
theorem plain_d : ∀ (d : Decl) (p : Ex) {b : Stmts}, d.goXdr p = some b → plSs b = true
  | .void, p, b, h => by simp only [Decl.goXdr] at h; cases h; rfl
  | .name t n, p, b, h => by
    simp only [Decl.goXdr] at h
    exact plain_dt t _ h
theorem plain_ds : ∀ (d : Decls) (p : Ex) {b : Stmts}, d.goXdr p = some b → plSs b = true
  | .nil, p, b, h => by simp only [Decls.goXdr] at h; cases h; rfl
  | .cons d ds, p, b, h => by
    simp only [Decls.goXdr, Option.bind_eq_bind, Option.bind_eq_some_iff] at h
    obtain ⟨s, h1, s', h2, h⟩ := h
    cases h
    rw [plSs_append, plain_d d p h1, plain_ds ds p h2]; rfl
theorem plain_cs : ∀ (d : Cases) (p : Ex) {b : GoCases}, d.goXdr p = some b → plCs b = true
  | .nil, p, b, h => by simp only [Cases.goXdr] at h; cases h; rfl
  | .dflt d, p, b, h => by
    simp only [Cases.goXdr, Option.bind_eq_bind, Option.bind_eq_some_iff] at h
    obtain ⟨s, h1, h⟩ := h
    cases h
    rw [plCs]; exact plain_d d p h1
  | .cons l ls d cs, p, b, h => by
    simp only [Cases.goXdr, Option.bind_eq_bind, Option.bind_eq_some_iff] at h
    obtain ⟨s, h1, c, h2, h⟩ := h
    cases h
    exact (plCs_labels (plain_d d p h1) (plain_cs cs p h2) ls l).1
end

theorem plain_defn {fl : Flags} {d : Defn} {g : GoProg} (h : emitDefn fl d = some g) : ∀ m ∈ g.methods, plSs m.2 = true := by
  cases d with
  | const n v => simp only [emitDefn, emitConst] at h; cases h; intro m hm; cases hm
  | typedef d =>
    cases d with
    | void => simp only [emitDefn, emitTypedef] at h; cases h; intro m hm; cases hm
    | name t n =>
      rw [emitDefn, emitTypedef.eq_def] at h
      simp only at h
      split at h
      · simp only [Option.bind_eq_bind, Option.bind_eq_some_iff] at h
        obtain ⟨g', -, b, h1, h⟩ := h
        cases h
        intro m hm
        rw [List.mem_singleton.mp hm]
        exact plain_dt _ _ h1
      · simp only [Option.bind_eq_bind, Option.bind_eq_some_iff] at h
        obtain ⟨g', -, b, h1, h⟩ := h
        cases h
        intro m hm
        rw [List.mem_singleton.mp hm]
        exact plain_dt _ _ h1
  | enum n items =>
    simp only [emitDefn, emitEnum, Option.bind_eq_bind, Option.bind_eq_some_iff] at h
    obtain ⟨g', -, b, h1, h⟩ := h
    cases h
    intro m hm
    rw [List.mem_singleton.mp hm]
    exact plain_ts _ _ h1
  | struct n ds =>
    simp only [emitDefn, emitStruct, Option.bind_eq_bind, Option.bind_eq_some_iff] at h
    obtain ⟨g', -, b, h1, h⟩ := h
    cases h
    intro m hm
    rw [List.mem_singleton.mp hm]
    exact plain_ts _ _ h1
  | union n sw cs =>
    simp only [emitDefn, emitUnion, Option.bind_eq_bind, Option.bind_eq_some_iff] at h
    obtain ⟨g', -, b, h1, h⟩ := h
    cases h
    intro m hm
    rw [List.mem_singleton.mp hm]
    exact plain_ts _ _ h1
  | program p =>
    rw [emitDefn] at h
    split at h
    · cases h; intro m hm; cases hm
    · cases h

/-- All methods of a generated package. -/
theorem plain_generate {fl : Flags} : ∀ {s : Gen.Spec} {g : GoProg}, generate fl s = some g → ∀ m ∈ g.methods, plSs m.2 = true
  | [], g, h => by simp only [generate] at h; cases h; intro m hm; cases hm
  | d :: s, g, h => by
    simp only [generate, Option.bind_eq_bind, Option.bind_eq_some_iff] at h
    obtain ⟨a, h1, b, h2, h⟩ := h
    cases h
    intro m hm
    rcases List.mem_append.mp hm with hm | hm
    · exact plain_defn h1 m hm
    · exact plain_generate h2 m hm

end Verif.Lang.Rd
