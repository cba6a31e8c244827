/-
Go zero values of generated types exist, have the right shape, and contain no pointers.
-/
import Verif.Gen.Shape
import Verif.Gen.CompileThm

namespace Verif.Gen
open Verif.Spec Verif.Xdr

theorem except_map_eq {α β} {o : Option α} {f : α → β} {b : β} (h : o.map f = some b) :
    ∃ a, o = some a ∧ f a = b := by
  cases o with
  | none => simp at h
  | some a => exact ⟨a, rfl, by simpa using h⟩

/-! ### Shape of zero values -/

section
variable {g : GoProg} {E : Env} {K : Nat} {zn : Ident → Option GoVal}
  {call ccall : Ident → GoVal → Prop}

mutual
theorem zeroT_shape (hconst : ∀ v c, E.const v = some c → g.const v = some c)
    (hz : ∀ n z, (E.typeOf n).isSome = true → zn (i n) = some z → call n z ∧ ccall n z) :
    ∀ (t : Typespec) (inArr : Bool) (gt : GoType) (z : GoVal), t.wf E K inArr = true →
      t.goType = some gt → zeroGo g.const zn gt = some z → hasT E call t z ∧ cleanT E ccall t z
  | .int true, _, gt, z, _, hg, h => by
    simp only [Typespec.goType] at hg; cases hg
    simp only [zeroGo] at h; cases h
    simp only [hasT, cleanT]; exact ⟨⟨_, rfl⟩, trivial⟩
  | .int false, _, gt, z, _, hg, h => by
    simp only [Typespec.goType] at hg; cases hg
    simp only [zeroGo] at h; cases h
    simp only [hasT, cleanT]; exact ⟨⟨_, rfl⟩, trivial⟩
  | .hyper true, _, gt, z, _, hg, h => by
    simp only [Typespec.goType] at hg; cases hg
    simp only [zeroGo] at h; cases h
    simp only [hasT, cleanT]; exact ⟨⟨_, rfl⟩, trivial⟩
  | .hyper false, _, gt, z, _, hg, h => by
    simp only [Typespec.goType] at hg; cases hg
    simp only [zeroGo] at h; cases h
    simp only [hasT, cleanT]; exact ⟨⟨_, rfl⟩, trivial⟩
  | .bool, _, gt, z, _, hg, h => by
    simp only [Typespec.goType] at hg; cases hg
    simp only [zeroGo] at h; cases h
    simp only [hasT, cleanT]; exact ⟨⟨_, rfl⟩, trivial⟩
  | .struct ds, inArr, gt, z, hwf, hg, h => by
    simp only [Typespec.goType] at hg
    obtain ⟨gfs, hgfs, hg⟩ := Option.bind_inv hg
    cases hg
    simp only [zeroGo] at h
    obtain ⟨fs, hfs, rfl⟩ := except_map_eq h
    simp only [Typespec.wf, Bool.and_eq_true] at hwf
    have := zeroDs_shape hconst hz ds inArr gfs fs hwf.2 hgfs hfs
    simp only [hasT, cleanT]
    exact ⟨⟨fs, rfl, this.1⟩, fs, rfl, this.2⟩
  | .union sw cs, inArr, gt, z, hwf, hg, h => by
    simp only [Typespec.goType] at hg
    obtain ⟨gf, hgf, hg⟩ := Option.bind_inv hg
    obtain ⟨gfs, hgfs, hg⟩ := Option.bind_inv hg
    cases hg
    simp only [zeroGo] at h
    obtain ⟨fs, hfs, rfl⟩ := except_map_eq h
    simp only [Typespec.wf, Bool.and_eq_true] at hwf
    obtain ⟨rest, hrest, h1, h2, h3⟩ := zeroDecl_shape hconst hz sw inArr gf gfs fs hwf.1.2 hgf hfs
    cases hk : sw.kindOf E K with
    | none => rw [hk] at hwf; simp at hwf
    | some κ =>
      rw [hk] at hwf
      have := zeroCs_shape hconst hz cs inArr κ gfs rest hwf.2 hgfs hrest
      simp only [hasT, cleanT]
      exact ⟨⟨fs, rest, rfl, h1, this.1⟩, fs, rfl, h2, h3 ▸ this.2⟩
  | .ident n, _, gt, z, hwf, hg, h => by
    simp only [Typespec.goType] at hg; cases hg
    simp only [zeroGo] at h
    simp only [Typespec.wf] at hwf
    simp only [hasT, cleanT]
    exact hz n z hwf h
  | .float, _, _, _, h, _, _ => by simp [Typespec.wf] at h
  | .double, _, _, _, h, _, _ => by simp [Typespec.wf] at h
  | .quadruple, _, _, _, h, _, _ => by simp [Typespec.wf] at h
  | .enum _, _, _, _, h, _, _ => by simp [Typespec.wf] at h
theorem zeroD_shape (hconst : ∀ v c, E.const v = some c → g.const v = some c)
    (hz : ∀ n z, (E.typeOf n).isSome = true → zn (i n) = some z → call n z ∧ ccall n z) :
    ∀ (t : DeclType) (inArr : Bool) (gt : GoType) (z : GoVal), t.wf E K inArr = true →
      t.goType = some gt → zeroGo g.const zn gt = some z → hasD E call t z ∧ cleanD E ccall t z
  | .typespec t, inArr, gt, z, hwf, hg, h => by
    simp only [DeclType.wf, DeclType.goType] at hwf hg
    simp only [hasD, cleanD]
    exact zeroT_shape hconst hz t inArr gt z hwf hg h
  | .array _ _, _, _, _, h, _, _ => by simp [DeclType.wf] at h
  | .varArray t _, _, gt, z, _, hg, h => by
    simp only [DeclType.goType] at hg
    obtain ⟨gt', _, hg⟩ := Option.bind_inv hg
    cases hg
    simp only [zeroGo] at h; cases h
    simp only [hasD, cleanD]
    exact ⟨⟨none, rfl, by simp⟩, trivial⟩
  | .opaqueArray sz, _, gt, z, hwf, hg, h => by
    simp only [DeclType.goType] at hg; cases hg
    simp only [zeroGo] at h
    obtain ⟨n, hn, rfl⟩ := except_map_eq h
    simp only [DeclType.wf] at hwf
    obtain ⟨c, hc⟩ := Option.isSome_iff_exists.mp hwf
    have := hconst sz c hc
    rw [hn] at this; cases this
    simp only [hasD, cleanD]
    exact ⟨⟨_, rfl, by rw [hc]; simp⟩, trivial⟩
  | .opaqueVarArray _, _, gt, z, _, hg, h => by
    simp only [DeclType.goType] at hg; cases hg
    simp only [zeroGo] at h; cases h
    simp only [hasD, cleanD]; exact ⟨⟨_, rfl⟩, trivial⟩
  | .string _, _, gt, z, _, hg, h => by
    simp only [DeclType.goType] at hg; cases hg
    simp only [zeroGo] at h; cases h
    simp only [hasD, cleanD]; exact ⟨⟨_, rfl⟩, trivial⟩
  | .ptr t, _, gt, z, _, hg, h => by
    simp only [DeclType.goType] at hg
    obtain ⟨gt', _, hg⟩ := Option.bind_inv hg
    cases hg
    simp only [zeroGo] at h; cases h
    simp only [hasD, cleanD]
    exact ⟨⟨none, rfl, by simp⟩, trivial⟩
theorem zeroDecl_shape (hconst : ∀ v c, E.const v = some c → g.const v = some c)
    (hz : ∀ n z, (E.typeOf n).isSome = true → zn (i n) = some z → call n z ∧ ccall n z) :
    ∀ (d : Decl) (inArr : Bool) (gf : GoFields → GoFields) (gfs : GoFields)
      (fs : List (Ident × GoVal)), d.wf E K inArr = true →
      d.goField = some gf → zeroFields g.const zn (gf gfs) = some fs →
      ∃ rest, zeroFields g.const zn gfs = some rest ∧ hasField E call d fs rest ∧
        cleanDecl E ccall d fs ∧ skipField d fs = rest
  | .void, _, gf, gfs, fs, _, hg, h => by
    simp only [Decl.goField] at hg; cases hg
    simp only [hasField, cleanDecl, skipField]
    exact ⟨fs, h, rfl, trivial, rfl⟩
  | .name t n, inArr, gf, gfs, fs, hwf, hg, h => by
    simp only [Decl.goField] at hg
    obtain ⟨gt, hgt, hg⟩ := Option.bind_inv hg
    cases hg
    simp only [zeroFields] at h
    obtain ⟨z, hz1, h⟩ := Option.bind_inv h
    obtain ⟨rest, hrest, h⟩ := Option.bind_inv h
    cases h
    simp only [Decl.wf] at hwf
    have := zeroD_shape hconst hz t inArr gt z hwf hgt hz1
    simp only [hasField, cleanDecl, skipField]
    exact ⟨rest, hrest, ⟨z, rfl, this.1⟩, ⟨_, z, rest, rfl, this.2⟩, rfl⟩
theorem zeroDs_shape (hconst : ∀ v c, E.const v = some c → g.const v = some c)
    (hz : ∀ n z, (E.typeOf n).isSome = true → zn (i n) = some z → call n z ∧ ccall n z) :
    ∀ (ds : Decls) (inArr : Bool) (gfs : GoFields)
      (fs : List (Ident × GoVal)), ds.wf E K inArr = true →
      ds.goFields = some gfs → zeroFields g.const zn gfs = some fs →
      hasDs E call ds fs ∧ cleanDs E ccall ds fs
  | .nil, _, gfs, fs, _, hg, h => by
    simp only [Decls.goFields] at hg; cases hg
    simp only [zeroFields] at h; cases h
    simp only [hasDs, cleanDs]; exact ⟨trivial, trivial⟩
  | .cons d ds, inArr, gfs, fs, hwf, hg, h => by
    simp only [Decls.goFields] at hg
    obtain ⟨gf, hgf, hg⟩ := Option.bind_inv hg
    obtain ⟨gfs', hgfs, hg⟩ := Option.bind_inv hg
    cases hg
    simp only [Decls.wf, Bool.and_eq_true] at hwf
    obtain ⟨rest, hrest, h1, h2, h3⟩ := zeroDecl_shape hconst hz d inArr gf gfs' fs hwf.1 hgf h
    have := zeroDs_shape hconst hz ds inArr gfs' rest hwf.2 hgfs hrest
    simp only [hasDs, cleanDs]
    exact ⟨⟨rest, h1, this.1⟩, h2, h3 ▸ this.2⟩
theorem zeroCs_shape (hconst : ∀ v c, E.const v = some c → g.const v = some c)
    (hz : ∀ n z, (E.typeOf n).isSome = true → zn (i n) = some z → call n z ∧ ccall n z) :
    ∀ (cs : Cases) (inArr : Bool) (κ : Kind) (gfs : GoFields)
      (fs : List (Ident × GoVal)), cs.wf E K inArr κ = true →
      cs.goFields = some gfs → zeroFields g.const zn gfs = some fs →
      hasCs E call cs fs ∧ cleanCs E ccall cs fs
  | .nil, _, _, gfs, fs, _, hg, h => by
    simp only [Cases.goFields] at hg; cases hg
    simp only [zeroFields] at h; cases h
    simp only [hasCs, cleanCs]; exact ⟨trivial, trivial⟩
  | .dflt d, inArr, κ, gfs, fs, hwf, hg, h => by
    simp only [Cases.goFields] at hg
    obtain ⟨gf, hgf, hg⟩ := Option.bind_inv hg
    cases hg
    simp only [Cases.wf] at hwf
    obtain ⟨rest, hrest, h1, h2, h3⟩ := zeroDecl_shape hconst hz d inArr gf .nil fs hwf hgf h
    simp only [zeroFields] at hrest; cases hrest
    simp only [hasCs, cleanCs]
    exact ⟨h1, h2⟩
  | .cons _ _ d cs, inArr, κ, gfs, fs, hwf, hg, h => by
    simp only [Cases.goFields] at hg
    obtain ⟨gf, hgf, hg⟩ := Option.bind_inv hg
    obtain ⟨gfs', hgfs, hg⟩ := Option.bind_inv hg
    cases hg
    simp only [Cases.wf, Bool.and_eq_true] at hwf
    obtain ⟨rest, hrest, h1, h2, h3⟩ := zeroDecl_shape hconst hz d inArr gf gfs' fs hwf.1.2 hgf h
    have := zeroCs_shape hconst hz cs inArr κ gfs' rest hwf.2 hgfs hrest
    simp only [hasCs, cleanCs]
    exact ⟨⟨rest, h1, this.1⟩, h2, h3 ▸ this.2⟩
end

/-! ### Existence of zero values -/

mutual
theorem zeroT_exists (hconst : ∀ v c, E.const v = some c → g.const v = some c)
    (hz : ∀ n, (E.typeOf n).isSome = true → (zn (i n)).isSome = true) :
    ∀ (t : Typespec) (inArr : Bool), t.wf E K inArr = true →
      ∃ gt z, t.goType = some gt ∧ zeroGo g.const zn gt = some z
  | .int true, _, _ => by simp [Typespec.goType, zeroGo]
  | .int false, _, _ => by simp [Typespec.goType, zeroGo]
  | .hyper true, _, _ => by simp [Typespec.goType, zeroGo]
  | .hyper false, _, _ => by simp [Typespec.goType, zeroGo]
  | .bool, _, _ => by simp [Typespec.goType, zeroGo]
  | .struct ds, inArr, hwf => by
    simp only [Typespec.wf, Bool.and_eq_true] at hwf
    obtain ⟨gfs, fs, h1, h2⟩ := zeroDs_exists hconst hz ds inArr hwf.2
    exact ⟨.struct gfs, .struct fs, by simp [Typespec.goType, h1], by simp [zeroGo, h2]⟩
  | .union sw cs, inArr, hwf => by
    simp only [Typespec.wf, Bool.and_eq_true] at hwf
    cases hk : sw.kindOf E K with
    | none => rw [hk] at hwf; simp at hwf
    | some κ =>
      rw [hk] at hwf
      obtain ⟨gfs, fs, h1, h2⟩ := zeroCs_exists hconst hz cs inArr κ hwf.2
      obtain ⟨gf, h3, h4⟩ := zeroDecl_exists hconst hz sw inArr hwf.1.2
      obtain ⟨fs', h5⟩ := h4 gfs fs h2
      exact ⟨.struct (gf gfs), .struct fs', by simp [Typespec.goType, h1, h3],
        by simp [zeroGo, h5]⟩
  | .ident n, _, hwf => by
    simp only [Typespec.wf] at hwf
    obtain ⟨z, h⟩ := Option.isSome_iff_exists.mp (hz n hwf)
    exact ⟨.named (i n), z, by simp [Typespec.goType], by simp [zeroGo, h]⟩
  | .float, _, h => by simp [Typespec.wf] at h
  | .double, _, h => by simp [Typespec.wf] at h
  | .quadruple, _, h => by simp [Typespec.wf] at h
  | .enum _, _, h => by simp [Typespec.wf] at h
theorem zeroD_exists (hconst : ∀ v c, E.const v = some c → g.const v = some c)
    (hz : ∀ n, (E.typeOf n).isSome = true → (zn (i n)).isSome = true) :
    ∀ (t : DeclType) (inArr : Bool), t.wf E K inArr = true →
      ∃ gt z, t.goType = some gt ∧ zeroGo g.const zn gt = some z
  | .typespec t, inArr, hwf => by
    simp only [DeclType.wf, DeclType.goType] at hwf ⊢
    exact zeroT_exists hconst hz t inArr hwf
  | .array _ _, _, h => by simp [DeclType.wf] at h
  | .varArray t _, _, hwf => by
    simp only [DeclType.wf, Bool.and_eq_true] at hwf
    obtain ⟨gt, z, h1, h2⟩ := zeroT_exists hconst hz t true hwf.1.2
    exact ⟨.slice gt, .slice none, by simp [DeclType.goType, h1], by simp [zeroGo]⟩
  | .opaqueArray sz, _, hwf => by
    simp only [DeclType.wf] at hwf
    obtain ⟨c, hc⟩ := Option.isSome_iff_exists.mp hwf
    exact ⟨.byteArray sz, .barr (zeros c), by simp [DeclType.goType],
      by simp [zeroGo, hconst sz c hc]⟩
  | .opaqueVarArray _, _, _ => by simp [DeclType.goType, zeroGo]
  | .string _, _, _ => by simp [DeclType.goType, zeroGo]
  | .ptr t, inArr, hwf => by
    simp only [DeclType.wf] at hwf
    obtain ⟨gt, z, h1, h2⟩ := zeroT_exists hconst hz t inArr hwf
    exact ⟨.ptr gt, .ptr none, by simp [DeclType.goType, h1], by simp [zeroGo]⟩
theorem zeroDecl_exists (hconst : ∀ v c, E.const v = some c → g.const v = some c)
    (hz : ∀ n, (E.typeOf n).isSome = true → (zn (i n)).isSome = true) :
    ∀ (d : Decl) (inArr : Bool), d.wf E K inArr = true →
      ∃ gf, d.goField = some gf ∧ ∀ gfs fs, zeroFields g.const zn gfs = some fs →
        ∃ fs', zeroFields g.const zn (gf gfs) = some fs'
  | .void, _, _ => ⟨id, by simp [Decl.goField], fun gfs fs h => ⟨fs, h⟩⟩
  | .name t n, inArr, hwf => by
    simp only [Decl.wf] at hwf
    obtain ⟨gt, z, h1, h2⟩ := zeroD_exists hconst hz t inArr hwf
    exact ⟨.cons (i n) gt, by simp [Decl.goField, h1], fun gfs fs h =>
      ⟨(i n, z) :: fs, by simp [zeroFields, h, h2]⟩⟩
theorem zeroDs_exists (hconst : ∀ v c, E.const v = some c → g.const v = some c)
    (hz : ∀ n, (E.typeOf n).isSome = true → (zn (i n)).isSome = true) :
    ∀ (ds : Decls) (inArr : Bool), ds.wf E K inArr = true →
      ∃ gfs fs, ds.goFields = some gfs ∧ zeroFields g.const zn gfs = some fs
  | .nil, _, _ => by simp [Decls.goFields, zeroFields]
  | .cons d ds, inArr, hwf => by
    simp only [Decls.wf, Bool.and_eq_true] at hwf
    obtain ⟨gfs, fs, h1, h2⟩ := zeroDs_exists hconst hz ds inArr hwf.2
    obtain ⟨gf, h3, h4⟩ := zeroDecl_exists hconst hz d inArr hwf.1
    obtain ⟨fs', h5⟩ := h4 gfs fs h2
    exact ⟨gf gfs, fs', by simp [Decls.goFields, h1, h3], h5⟩
theorem zeroCs_exists (hconst : ∀ v c, E.const v = some c → g.const v = some c)
    (hz : ∀ n, (E.typeOf n).isSome = true → (zn (i n)).isSome = true) :
    ∀ (cs : Cases) (inArr : Bool) (κ : Kind), cs.wf E K inArr κ = true →
      ∃ gfs fs, cs.goFields = some gfs ∧ zeroFields g.const zn gfs = some fs
  | .nil, _, _, _ => by simp [Cases.goFields, zeroFields]
  | .dflt d, inArr, κ, hwf => by
    simp only [Cases.wf] at hwf
    obtain ⟨gf, h3, h4⟩ := zeroDecl_exists hconst hz d inArr hwf
    obtain ⟨fs', h5⟩ := h4 .nil [] (by simp [zeroFields])
    exact ⟨gf .nil, fs', by simp [Cases.goFields, h3], h5⟩
  | .cons l more d cs, inArr, κ, hwf => by
    simp only [Cases.wf, Bool.and_eq_true] at hwf
    obtain ⟨gfs, fs, h1, h2⟩ := zeroCs_exists hconst hz cs inArr κ hwf.2
    obtain ⟨gf, h3, h4⟩ := zeroDecl_exists hconst hz d inArr hwf.1.2
    obtain ⟨fs', h5⟩ := h4 gfs fs h2
    exact ⟨gf gfs, fs', by simp [Cases.goFields, h1, h3], h5⟩
end

end

/-! ### Named types -/

/-- Number of nested names in a zero value. -/
def GoProg.depth (g : GoProg) : Nat := g.types.length + 1

section
variable {g : GoProg} {E : Env} {defs : Ident → Option DeclType} {K : Nat}

theorem zeroN_shape (L : Link g E defs K) (k : Nat) : ∀ n z, (E.typeOf n).isSome = true →
    g.zeroN k (i n) = some z → hasN E k n z ∧ cleanN E k n z := by
  induction k with
  | zero => intro n z _ h; simp [GoProg.zeroN] at h
  | succ k ih =>
    intro n z hn h
    obtain ⟨t, ht⟩ := Option.isSome_iff_exists.mp hn
    obtain ⟨gt, hgt, hl⟩ := L.goType n t ht
    simp only [GoProg.zeroN, hl] at h
    rcases t.ptr_or with ⟨t', rfl⟩ | hnp
    · simp only [zeroGo, zeroFields] at h
      simp only [DeclType.goType] at hgt
      obtain ⟨gt', hgt', hg⟩ := Option.bind_inv hgt
      cases hg
      simp only [zeroGo] at h
      cases h
      refine ⟨⟨_, ht, .ptr none, rfl, ?_⟩, ⟨_, ht, "P", rfl⟩⟩
      simp only [hasD]
      exact ⟨none, rfl, by simp⟩
    · have h' : zeroGo g.const (g.zeroN k) gt = some z := by
        cases t <;> first | exact h | exact hnp.elim
      have := zeroD_shape L.const ih t false gt z (L.wf n t ht) hgt h'
      refine ⟨⟨t, ht, (hasTop_notPtr hnp z).mpr this.1⟩, ⟨t, ht, ?_⟩⟩
      cases t <;> first | exact this.2 | exact hnp.elim

/-- Zero value of the elements of arrays and of new optional data. -/
def zeroOf (g : GoProg) (t : Typespec) : Option GoVal := t.goType.bind g.zero

theorem zeroOf_ok (L : Link g E defs K) (t : Typespec) (inArr : Bool) (hwf : t.wf E K inArr = true) :
    ∃ z, zeroOf g t = some z ∧ hasT E (hasN E g.depth) t z ∧ cleanT E (cleanN E g.depth) t z := by
  have hz : ∀ n, (E.typeOf n).isSome = true → (g.zeroNamed (i n)).isSome = true := by
    intro n hn
    obtain ⟨t, ht⟩ := Option.isSome_iff_exists.mp hn
    exact L.zero n t ht
  obtain ⟨gt, z, h1, h2⟩ := zeroT_exists (zn := g.zeroNamed) L.const hz t inArr hwf
  have := zeroT_shape (zn := g.zeroNamed) L.const (zeroN_shape L g.depth) t inArr gt z hwf h1 h2
  exact ⟨z, by simp [zeroOf, h1, GoProg.zero, h2], this⟩

/-- The zero value of a named type. -/
theorem zeroNamed_ok (L : Link g E defs K) (n : Ident) (hn : (E.typeOf n).isSome = true) :
    ∃ z, g.zeroNamed (i n) = some z ∧ hasN E g.depth n z ∧ cleanN E g.depth n z := by
  obtain ⟨t, ht⟩ := Option.isSome_iff_exists.mp hn
  obtain ⟨z, hz⟩ := Option.isSome_iff_exists.mp (L.zero n t ht)
  exact ⟨z, hz, zeroN_shape L g.depth n z hn hz⟩

end

end Verif.Gen
