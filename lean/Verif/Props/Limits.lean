/-
PROPERTIES C22, C24, C26: miscompiled nested arrays, what the generator refuses, memory use.
-/
import Verif.Props.Codec
import Verif.Gen.Mono

namespace Verif.Props
open Verif.Xdr Verif.Spec Verif.Gen

/-! ### C22 nested inline arrays -/

/-- `struct foo { struct { unsigned int gids<>; } groups<>; };` -/
def nestedSpec : Gen.Spec :=
  [.struct "foo" (.cons (.name (.varArray (.struct
    (.cons (.name (.varArray (.int true) none) "gids") .nil)) none) "groups") .nil)]

/-- The package generated for it. -/
def nestedProg : GoProg := (generate ⟨true, "uint32"⟩ nestedSpec).get (by decide +kernel)

/-- A Go value of type `Foo`. -/
def fooVal (groups : List (List UInt32)) : GoVal :=
  .struct [("Groups", .slice (some (groups.map fun l =>
    .struct [("Gids", .slice (some (l.map .u32)))])))]

/-- What it stands for. -/
def fooX (groups : List (List UInt32)) : XVal :=
  .struct [.array (groups.map fun l => .struct [.array (l.map fun x => .uint x.toNat)])]

theorem nested_typeOf : (envOf true nestedSpec).typeOf "foo" =
    some (.typespec (.struct (.cons (.name (.varArray (.struct
      (.cons (.name (.varArray (.int true) none) "gids") .nil)) none) "groups") .nil))) := by
  decide +kernel

theorem fooVal_typed (l : List (List UInt32)) : Typed (envOf true nestedSpec) "foo" (fooVal l) := by
  refine typed_fold nested_typeOf ?_
  have h1 : i "groups" = "Groups" := by decide +kernel
  have h2 : i "gids" = "Gids" := by decide +kernel
  simp [hasTop, hasD, hasT, hasDs, hasField, fooVal, h1, h2]

theorem fooX_value (l : List (List UInt32)) (h1 : l.length < 4294967296)
    (h2 : ∀ m ∈ l, m.length < 4294967296) : IsValue (envOf true nestedSpec) "foo" (fooX l) := by
  rw [isValue_iff nested_typeOf]
  simp only [memD, memT, memDs, fooX]
  refine ⟨_, ⟨_, _, ⟨_, none, rfl, ⟨by simp only [List.length_map]; omega, by simp⟩, ?_, rfl⟩, rfl, rfl⟩, rfl⟩
  intro y hy
  simp only [List.mem_map] at hy
  obtain ⟨m, hm, rfl⟩ := hy
  refine ⟨_, ⟨_, _, ⟨_, none, rfl, ⟨by have := h2 m hm; simp only [List.length_map]; omega, by simp⟩, ?_, rfl⟩, rfl, rfl⟩, rfl⟩
  intro y hy
  simp only [List.mem_map] at hy
  obtain ⟨x, _, rfl⟩ := hy
  exact ⟨x.toNat, x.toNat_lt, rfl⟩

/-- The generator accepts `nestedSpec`.  Its encoder reports success but puts other numbers on the
wire than the value holds: 7 6 comes out where RFC 4506 asks for 5 6. -/
theorem C22_wrong_bytes : ∃ v x b,
    generate ⟨true, "uint32"⟩ nestedSpec = some nestedProg ∧
    Typed (envOf true nestedSpec) "foo" v ∧ Denotes (envOf true nestedSpec) "foo" v x ∧
    IsValue (envOf true nestedSpec) "foo" x ∧
    Runs nestedProg "Foo" (makeWriter []) v (makeWriter b) v ∧ b ≠ enc x :=
  ⟨fooVal [[7], [5, 6]], fooX [[7], [5, 6]],
    [0, 0, 0, 2, 0, 0, 0, 1, 0, 0, 0, 7, 0, 0, 0, 2, 0, 0, 0, 7, 0, 0, 0, 6],
    by simp [nestedProg], fooVal_typed _, ⟨3, by decide +kernel⟩, fooX_value _ (by simp) (by simp),
    Runs.of_fuel (k := 1) (by decide +kernel), by decide +kernel⟩

/-- It also panics (index out of range), encoding a value or decoding a correct message. -/
theorem C22_panics : ∃ v x,
    Typed (envOf true nestedSpec) "foo" v ∧ Denotes (envOf true nestedSpec) "foo" v x ∧
    IsValue (envOf true nestedSpec) "foo" x ∧
    Panics nestedProg "Foo" (makeWriter []) v ∧
    ∃ z, nestedProg.zeroNamed "Foo" = some z ∧ Panics nestedProg "Foo" (makeReader (enc x)) z :=
  ⟨fooVal [[5, 6]], fooX [[5, 6]], fooVal_typed _, ⟨3, by decide +kernel⟩,
    fooX_value _ (by simp) (by simp), Panics.of_fuel (k := 1) (by decide +kernel),
    .struct [("Groups", .slice none)], by decide +kernel, Panics.of_fuel (k := 1) (by decide +kernel)⟩

/-! ### C24 what the generator refuses -/

mutual
/-- Does a type contain one for which `xdr` has no codec: floating point, an enumeration declared
inline, a union on `void`? -/
def unsupportedT : Typespec → Bool
  | .int _ => false
  | .hyper _ => false
  | .bool => false
  | .ident _ => false
  | .float => true
  | .double => true
  | .quadruple => true
  | .enum _ => true
  | .struct ds => unsupportedDs ds
  | .union .void _ => true
  | .union (.name t _) cs => unsupportedD t || unsupportedCs cs
def unsupportedD : DeclType → Bool
  | .typespec t => unsupportedT t
  | .array t _ => unsupportedT t
  | .varArray t _ => unsupportedT t
  | .ptr t => unsupportedT t
  | .opaqueArray _ => false
  | .opaqueVarArray _ => false
  | .string _ => false
def unsupportedDecl : Decl → Bool
  | .void => false
  | .name t _ => unsupportedD t
def unsupportedDs : Decls → Bool
  | .nil => false
  | .cons d ds => unsupportedDecl d || unsupportedDs ds
def unsupportedCs : Cases → Bool
  | .nil => false
  | .dflt d => unsupportedDecl d
  | .cons _ _ d cs => unsupportedDecl d || unsupportedCs cs
end

mutual
/-- Does a type contain `quadruple`, which has no Go type? -/
def quadT : Typespec → Bool
  | .quadruple => true
  | .struct ds => quadDs ds
  | .union sw cs => quadDecl sw || quadCs cs
  | _ => false
def quadD : DeclType → Bool
  | .typespec t => quadT t
  | .array t _ => quadT t
  | .varArray t _ => quadT t
  | .ptr t => quadT t
  | _ => false
def quadDecl : Decl → Bool
  | .void => false
  | .name t _ => quadD t
def quadDs : Decls → Bool
  | .nil => false
  | .cons d ds => quadDecl d || quadDs ds
def quadCs : Cases → Bool
  | .nil => false
  | .dflt d => quadDecl d
  | .cons _ _ d cs => quadDecl d || quadCs cs
end

/-- The definitions that make the generator give up. -/
def unsupportedDefn : Defn → Bool
  | .const _ _ => false
  | .enum _ _ => false
  | .typedef d => unsupportedDecl d
  | .struct _ ds => unsupportedDs ds
  | .union _ sw cs => unsupportedT (.union sw cs)
  | .program p => p.vers.any fun v => v.calls.any fun c => c.arg.any quadT || c.res.any quadT

theorem isSome_bind {α β} {o : Option α} {f : α → Option β} :
    (o >>= f).isSome = true ↔ ∃ a, o = some a ∧ (f a).isSome = true := by
  cases o <;> simp

mutual
theorem goType_T : ∀ t : Typespec, t.goType.isSome = !quadT t
  | .int u => by cases u <;> rfl
  | .hyper u => by cases u <;> rfl
  | .bool => rfl
  | .ident _ => rfl
  | .float => rfl
  | .double => rfl
  | .quadruple => rfl
  | .enum _ => rfl
  | .struct ds => by
    have := goType_Ds ds
    simp only [Typespec.goType, quadT, ← this]
    cases ds.goFields <;> rfl
  | .union sw cs => by
    have h1 := goType_Decl sw
    have h2 := goType_Cs cs
    simp only [Typespec.goType, quadT, Bool.not_or, ← h1, ← h2]
    cases sw.goField <;> cases cs.goFields <;> rfl
theorem goType_D : ∀ t : DeclType, t.goType.isSome = !quadD t
  | .typespec t => by simpa only [DeclType.goType, quadD] using goType_T t
  | .array t _ => by
    have := goType_T t
    simp only [DeclType.goType, quadD, ← this]
    cases t.goType <;> rfl
  | .varArray t _ => by
    have := goType_T t
    simp only [DeclType.goType, quadD, ← this]
    cases t.goType <;> rfl
  | .ptr t => by
    have := goType_T t
    simp only [DeclType.goType, quadD, ← this]
    cases t.goType <;> rfl
  | .opaqueArray _ => rfl
  | .opaqueVarArray _ => rfl
  | .string _ => rfl
theorem goType_Decl : ∀ d : Decl, d.goField.isSome = !quadDecl d
  | .void => rfl
  | .name t _ => by
    have := goType_D t
    simp only [Decl.goField, quadDecl, ← this]
    cases t.goType <;> rfl
theorem goType_Ds : ∀ ds : Decls, ds.goFields.isSome = !quadDs ds
  | .nil => rfl
  | .cons d ds => by
    have h1 := goType_Decl d
    have h2 := goType_Ds ds
    simp only [Decls.goFields, quadDs, Bool.not_or, ← h1, ← h2]
    cases d.goField <;> cases ds.goFields <;> rfl
theorem goType_Cs : ∀ cs : Cases, cs.goFields.isSome = !quadCs cs
  | .nil => rfl
  | .dflt d => by
    have h1 := goType_Decl d
    simp only [Cases.goFields, quadCs, ← h1]
    cases d.goField <;> rfl
  | .cons _ _ d cs => by
    have h1 := goType_Decl d
    have h2 := goType_Cs cs
    simp only [Cases.goFields, quadCs, Bool.not_or, ← h1, ← h2]
    cases d.goField <;> cases cs.goFields <;> rfl
end

mutual
theorem quad_unsupT : ∀ t : Typespec, quadT t = true → unsupportedT t = true
  | .int u, h => by simp [quadT] at h
  | .hyper u, h => by simp [quadT] at h
  | .bool, h => by simp [quadT] at h
  | .ident _, h => by simp [quadT] at h
  | .float, h => rfl
  | .double, h => rfl
  | .quadruple, h => rfl
  | .enum _, h => rfl
  | .struct ds, h => by
    simp only [quadT] at h
    simpa only [unsupportedT] using quad_unsupDs ds h
  | .union .void cs, h => by simp only [unsupportedT]
  | .union (.name t _) cs, h => by
    simp only [quadT, quadDecl, Bool.or_eq_true] at h
    simp only [unsupportedT, Bool.or_eq_true]
    exact h.imp (quad_unsupD t) (quad_unsupCs cs)
theorem quad_unsupD : ∀ t : DeclType, quadD t = true → unsupportedD t = true
  | .typespec t, h => by simp only [quadD] at h; simpa only [unsupportedD] using quad_unsupT t h
  | .array t _, h => by simp only [quadD] at h; simpa only [unsupportedD] using quad_unsupT t h
  | .varArray t _, h => by simp only [quadD] at h; simpa only [unsupportedD] using quad_unsupT t h
  | .ptr t, h => by simp only [quadD] at h; simpa only [unsupportedD] using quad_unsupT t h
  | .opaqueArray _, h => by simp [quadD] at h
  | .opaqueVarArray _, h => by simp [quadD] at h
  | .string _, h => by simp [quadD] at h
theorem quad_unsupDecl : ∀ d : Decl, quadDecl d = true → unsupportedDecl d = true
  | .void, h => by simp [quadDecl] at h
  | .name t _, h => by
    simp only [quadDecl] at h; simpa only [unsupportedDecl] using quad_unsupD t h
theorem quad_unsupDs : ∀ ds : Decls, quadDs ds = true → unsupportedDs ds = true
  | .nil, h => by simp [quadDs] at h
  | .cons d ds, h => by
    simp only [quadDs, Bool.or_eq_true] at h
    simp only [unsupportedDs, Bool.or_eq_true]
    exact h.imp (quad_unsupDecl d) (quad_unsupDs ds)
theorem quad_unsupCs : ∀ cs : Cases, quadCs cs = true → unsupportedCs cs = true
  | .nil, h => by simp [quadCs] at h
  | .dflt d, h => by
    simp only [quadCs] at h
    simpa only [unsupportedCs] using quad_unsupDecl d h
  | .cons _ _ d cs, h => by
    simp only [quadCs, Bool.or_eq_true] at h
    simp only [unsupportedCs, Bool.or_eq_true]
    exact h.imp (quad_unsupDecl d) (quad_unsupCs cs)
end

theorem goType_some_of_supp {t : Typespec} (h : unsupportedT t = false) : ∃ gt, t.goType = some gt := by
  have h1 := goType_T t
  cases hq : quadT t with
  | true => rw [quad_unsupT t hq] at h; cases h
  | false => rw [hq] at h1; exact Option.isSome_iff_exists.mp h1

mutual
theorem goXdr_T : ∀ (t : Typespec) (p : Ex), (t.goXdr p).isSome = !unsupportedT t
  | .int u, p => by cases u <;> rfl
  | .hyper u, p => by cases u <;> rfl
  | .bool, p => rfl
  | .ident _, p => rfl
  | .float, p => rfl
  | .double, p => rfl
  | .quadruple, p => rfl
  | .enum _, p => rfl
  | .struct ds, p => by simpa only [Typespec.goXdr, unsupportedT] using goXdr_Ds ds p
  | .union .void cs, p => by simp [Typespec.goXdr, unsupportedT]
  | .union (.name t n) cs, p => by
    have h1 := goXdr_D t (fieldPtr p (i n))
    have h2 := goXdr_Cs cs p
    simp only [Typespec.goXdr, unsupportedT, Bool.not_or, ← h1, ← h2]
    cases t.goXdr (fieldPtr p (i n)) <;> cases cs.goXdr p <;> rfl
theorem goXdr_D : ∀ (t : DeclType) (p : Ex), (t.goXdr p).isSome = !unsupportedD t
  | .typespec t, p => by simpa only [DeclType.goXdr, unsupportedD] using goXdr_T t p
  | .array t _, p => by
    have := goXdr_T t (fixedElemPtr p)
    simp only [DeclType.goXdr, unsupportedD, ← this]
    cases t.goXdr (fixedElemPtr p) <;> rfl
  | .varArray t _, p => by
    have h1 := goXdr_T t (elemPtr p)
    simp only [DeclType.goXdr, unsupportedD]
    cases hu : unsupportedT t with
    | true =>
      rw [hu] at h1
      cases h : t.goXdr (elemPtr p) with
      | none => rfl
      | some b => rw [h] at h1; cases h1
    | false =>
      obtain ⟨gt, hgt⟩ := goType_some_of_supp hu
      rw [hu] at h1
      obtain ⟨b, hb⟩ := Option.isSome_iff_exists.mp h1
      simp [hb, hgt]
  | .ptr t, p => by
    have h1 := goXdr_T t (.deref p)
    simp only [DeclType.goXdr, unsupportedD]
    cases hu : unsupportedT t with
    | true =>
      rw [hu] at h1
      cases h : t.goXdr (.deref p) with
      | none => rfl
      | some b => rw [h] at h1; cases h1
    | false =>
      obtain ⟨gt, hgt⟩ := goType_some_of_supp hu
      rw [hu] at h1
      obtain ⟨b, hb⟩ := Option.isSome_iff_exists.mp h1
      simp [hb, hgt]
  | .opaqueArray _, p => rfl
  | .opaqueVarArray _, p => rfl
  | .string _, p => rfl
theorem goXdr_Decl : ∀ (d : Decl) (p : Ex), (d.goXdr p).isSome = !unsupportedDecl d
  | .void, p => rfl
  | .name t n, p => by simpa only [Decl.goXdr, unsupportedDecl] using goXdr_D t (fieldPtr p (i n))
theorem goXdr_Ds : ∀ (ds : Decls) (p : Ex), (ds.goXdr p).isSome = !unsupportedDs ds
  | .nil, p => rfl
  | .cons d ds, p => by
    have h1 := goXdr_Decl d p
    have h2 := goXdr_Ds ds p
    simp only [Decls.goXdr, unsupportedDs, Bool.not_or, ← h1, ← h2]
    cases d.goXdr p <;> cases ds.goXdr p <;> rfl
theorem goXdr_Cs : ∀ (cs : Cases) (p : Ex), (cs.goXdr p).isSome = !unsupportedCs cs
  | .nil, p => rfl
  | .dflt d, p => by
    have h1 := goXdr_Decl d p
    simp only [Cases.goXdr, unsupportedCs, ← h1]
    cases d.goXdr p <;> rfl
  | .cons l more d cs, p => by
    have h1 := goXdr_Decl d p
    have h2 := goXdr_Cs cs p
    simp only [Cases.goXdr, unsupportedCs, Bool.not_or, ← h1, ← h2]
    cases d.goXdr p <;> cases cs.goXdr p <;> rfl
end

theorem goTypeD_some_of_supp {t : DeclType} (h : unsupportedD t = false) : ∃ gt, t.goType = some gt := by
  have h1 := goType_D t
  cases hq : quadD t with
  | true => rw [quad_unsupD t hq] at h; cases h
  | false => rw [hq] at h1; exact Option.isSome_iff_exists.mp h1

theorem emit_two {α β γ : Type} {o : Option α} {q : Option β} {f : α → β → γ} {u : Bool}
    (h1 : u = false → o.isSome = true) (h2 : q.isSome = !u) :
    (do let a ← o; let b ← q; pure (f a b) : Option γ).isSome = !u := by
  cases u with
  | true => cases o <;> cases q <;> simp_all
  | false => have := h1 rfl; cases o <;> cases q <;> simp_all

theorem emitDefn_isSome (fl : Flags) (d : Defn) : (emitDefn fl d).isSome = !unsupportedDefn d := by
  cases d with
  | const n v => rfl
  | enum n items =>
    obtain ⟨u, c⟩ := fl
    cases u <;> rfl
  | typedef d =>
    cases d with
    | void => rfl
    | name t n =>
      simp only [emitDefn, unsupportedDefn, unsupportedDecl]
      cases t <;> (
        simp only [emitTypedef]
        refine emit_two (fun h => ?_) (goXdr_D _ _)
        obtain ⟨gt, hgt⟩ := goTypeD_some_of_supp h
        simp [hgt])
  | struct n ds =>
    simp only [emitDefn, emitStruct, unsupportedDefn]
    refine emit_two (fun h => ?_) (goXdr_T (.struct ds) _)
    rw [goType_Ds]
    cases hq : quadDs ds with
    | true => rw [quad_unsupDs ds hq] at h; cases h
    | false => rfl
  | union n sw cs =>
    simp only [emitDefn, emitUnion, unsupportedDefn]
    refine emit_two (fun h => ?_) (goXdr_T (.union sw cs) _)
    obtain ⟨gt, hgt⟩ := goType_some_of_supp h
    simp [hgt]
  | program p =>
    have hc : ∀ c : ProgCall, ((c.arg.all fun t => t.goType.isSome) && (c.res.all fun t => t.goType.isSome))
        = !(c.arg.any quadT || c.res.any quadT) := by
      intro c
      cases c.arg <;> cases c.res <;> simp [goType_T]
    have : progTypesOk p = !(unsupportedDefn (.program p)) := by
      simp only [progTypesOk, unsupportedDefn, hc, List.not_any_eq_all_not]
    simp only [emitDefn, ← this]
    cases progTypesOk p <;> rfl

/-- The generator gives up (panics) exactly on the specifications that contain an unsupported
definition; so a package that is generated has a codec for every type in it. -/
theorem C24_refuses (fl : Flags) : ∀ s : Gen.Spec,
    generate fl s = none ↔ ∃ d ∈ s, unsupportedDefn d = true
  | [] => by simp [generate]
  | d :: s => by
    have h1 := emitDefn_isSome fl d
    have h2 := C24_refuses fl s
    simp only [generate, List.mem_cons, exists_eq_or_imp, ← h2]
    cases he : emitDefn fl d with
    | none => rw [he] at h1; simp_all
    | some a =>
      rw [he] at h1
      cases hg : generate fl s <;> simp_all

example : unsupportedDefn (.struct "s" (.cons (.name (.varArray (.struct
    (.cons (.name (.typespec .double) "x") .nil)) none) "l") .nil)) = true := by decide +kernel
example : unsupportedDefn (.struct "s" (.cons (.name (.varArray (.struct
    (.cons (.name (.typespec (.hyper true)) "x") .nil)) none) "l") .nil)) = false := by decide +kernel

/-! ### C26 memory -/

theorem xdrRW_reader_len (xs : XdrState) (v : List UInt8) (h : xs.reader = true) :
    (xdrRW xs v).1.buf.length ≤ xs.buf.length ∧ (xdrRW xs v).1.reader = true ∧
    ((xdrRW xs v).1.err = none → (xdrRW xs v).1.buf.length + v.length ≤ xs.buf.length) := by
  simp only [xdrRW, h]
  split
  · rename_i he; exact ⟨Nat.le_refl _, h, fun h' => by rw [h'] at he; cases he⟩
  · simp only [if_true]
    split
    · simp
    · simp; omega

theorem xdrR_len (xs : XdrState) (n : Nat) :
    (xdrR xs n).2 = none ∨ xs.err = none ∧ ∃ d, (xdrR xs n).2 = some d ∧ d.length ≤ xs.buf.length := by
  simp only [xdrR]
  split
  · split
    · exact .inl rfl
    · rename_i h; simp at h
  · split
    · exact .inl rfl
    · rename_i h
      exact .inr ⟨by simpa using h, _, rfl, by simp only [List.length_take]; omega⟩

/-- Whatever the message announces, opaque data and strings take no more room than the message (even
if the decode fails later on); otherwise the target is unchanged. -/
theorem C26_bytes (b : List UInt8) (max : Int) :
    (∀ old, (xdrVarArray (makeReader b) max old).2 = old ∨
      goLen (xdrVarArray (makeReader b) max old).2 ≤ b.length) ∧
    (∀ old, (xdrString (makeReader b) max old).2 = old ∨
      (xdrString (makeReader b) max old).2.length ≤ b.length) := by
  have hb := (xdrRW_reader_len (makeReader b) (zeros 4) rfl).1
  constructor
  · intro old
    simp only [xdrVarArray, err_reader, encoding_reader, Bool.false_eq_true, if_false]
    split
    · exact .inl rfl
    · refine .inr ?_
      rcases xdrR_len (xdrRW (makeReader b) (zeros 4)).1
        (getU32 (xdrRW (makeReader b) (zeros 4)).2).toNat with h | ⟨_, d, h, hd⟩
      · simp only [h, goLen, Option.getD_none, List.length_nil]; omega
      · simp only [h, goLen, Option.getD_some]; exact Nat.le_trans hd hb
  · intro old
    simp only [xdrString, err_reader, encoding_reader, Bool.false_eq_true, if_false]
    split
    · exact .inl rfl
    · refine .inr ?_
      rcases xdrR_len (xdrRW (makeReader b) (zeros 4)).1
        (getU32 (xdrRW (makeReader b) (zeros 4)).2).toNat with h | ⟨_, d, h, hd⟩
      · simp only [h, goElems, Option.getD_none, List.length_nil]; omega
      · simp only [h, goElems, Option.getD_some]; exact Nat.le_trans hd hb

theorem codecElems_length {f : XdrState → GoVal → Res (XdrState × GoVal)} : ∀ (n : Nat) (xs : XdrState)
    (l : List GoVal) (xs' : XdrState) (l' : List GoVal), codecElems f n xs l = .ok (xs', l') →
      l'.length = l.length
  | 0, xs, l, xs', l', h => by simp only [codecElems] at h; cases h; rfl
  | n + 1, xs, [], xs', l', h => by simp [codecElems] at h
  | n + 1, xs, w :: l, xs', l', h => by
    simp only [codecElems, bind, Except.bind] at h
    cases h1 : f xs w with
    | error e => rw [h1] at h; cases h
    | ok a =>
      rw [h1] at h
      obtain ⟨xs1, w1⟩ := a
      simp only at h
      cases h2 : codecElems f n xs1 l with
      | error e => rw [h2] at h; cases h
      | ok c =>
        rw [h2] at h
        obtain ⟨xs2, l2⟩ := c
        simp only [pure, Except.pure] at h
        cases h
        simp [codecElems_length n xs1 l _ _ h2]

/-- A variable-length array without declared maximum is allocated with the announced number of
elements, whether or not the message contains them. -/
theorem C26_array_alloc {fl : Flags} {s : Gen.Spec} {g : GoProg} (hg : generate fl s = some g)
    (hs : supported fl s = true) {n : Ident} {t : Typespec}
    (ht : (envOf fl.unsignedEnum s).typeOf n = some (.varArray t none)) {v : GoVal}
    (hv : Typed (envOf fl.unsignedEnum s) n v) (k : Nat) (hk : k < 4294967296) (rest : List UInt8) :
    ∃ xs' l, Runs g (i n) (makeReader (be 4 k ++ rest)) v xs' (.slice (some l)) ∧ l.length = k := by
  obtain ⟨d, hv⟩ := hv
  have hr : ∃ F xs' v', 0 < F ∧
      codecN g (defsOf fl s) F (i n) (makeReader (be 4 k ++ rest)) v = .ok (xs', v') ∧
      ∃ o, v = .slice o := by
    have ho : ∃ o, v = .slice o := by
      cases d with
      | zero => exact hv.elim
      | succ d =>
        obtain ⟨t', ht', hv⟩ := hv
        rw [ht] at ht'; cases ht'
        simp only [hasTop, hasD] at hv
        obtain ⟨o, rfl, _⟩ := hv
        exact ⟨o, rfl⟩
    have hd : 0 < d := by
      cases d with
      | zero => exact hv.elim
      | succ d => omega
    rcases codecN_decode (link hg hs) (F := d + (be 4 k ++ rest).length / 4 * g.depth)
      (Nat.le_refl _) hv with ⟨x, p, r, v', h1, h2, h3, h4, h5, h6⟩ | ⟨xs', v', h1, h2, h3, h4⟩
    · exact ⟨_, _, v', by omega, h4, ho⟩
    · exact ⟨_, xs', v', by omega, h1, ho⟩
  obtain ⟨F, xs', v', hF, hc, o, rfl⟩ := hr
  have hrun := runs_of_codecN hg hs hc
  obtain ⟨F, rfl⟩ : ∃ m, F = m + 1 := ⟨F - 1, by omega⟩
  simp only [codecN, (link hg hs).typeOf n _ ht, topCodec, DeclType.codec, codecVar] at hc
  have hn : (getU32 (be 4 k)).toNat = k := by
    rw [getU32_toNat (by simp [be_length]), beVal_be]; exact Nat.mod_eq_of_lt (by omega)
  have he : encodingSetSize (makeReader (be 4 k ++ rest)) 0 (o.getD []).length =
      (makeReader (be 4 k ++ rest), 0) := by simp [encodingSetSize, makeReader]
  simp only [he, u32_reader (be 4 k) rest 0 (by simp [be_length]), Option.any_none,
    Bool.false_eq_true, if_false, decoding_reader, if_true, hn] at hc
  cases hz : t.goType.bind g.zero with
  | none => rw [hz] at hc; cases hc
  | some z =>
    rw [hz] at hc
    simp only [orStuck, bind, Except.bind] at hc
    split at hc
    · cases hc
    · rename_i a ha
      obtain ⟨xs2, l2⟩ := a
      simp only [pure, Except.pure] at hc
      cases hc
      exact ⟨_, l2, hrun, by simpa using codecElems_length _ _ _ _ _ ha⟩

/-- `typedef unsigned int flavors<>;` -/
def flavorsSpec : Gen.Spec := [.typedef (.name (.varArray (.int true) none) "flavors")]

-- The hypotheses of C26_array_alloc can be met: seven elements announced, two present.
example : supported ⟨true, "uint32"⟩ flavorsSpec = true := by decide +kernel
example : (envOf true flavorsSpec).typeOf "flavors" = some (.varArray (.int true) none) := by
  decide +kernel
example : Typed (envOf true flavorsSpec) "flavors" (.slice none) :=
  typed_fold (t := .varArray (.int true) none) (by decide +kernel) (by simp [hasTop, hasD])
example : ((generate ⟨true, "uint32"⟩ flavorsSpec).get (by decide +kernel)).runXdr 1 "Flavors"
    (makeReader [0, 0, 0, 7, 0, 0, 0, 1, 0, 0, 0, 2]) (.slice none) =
    .ok (⟨some (.notEnough 4 0), true, []⟩,
      .slice (some [.u32 1, .u32 2, .u32 0, .u32 0, .u32 0, .u32 0, .u32 0])) := by decide +kernel

end Verif.Props
