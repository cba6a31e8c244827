/-
The constants, labels and zero values of a package that has what the generator prints for a specification
that compiles.
-/
import Verif.Lang.GenLink

namespace Verif.Lang.Text
open Verif.Spec (CTy constTy basicTy tyByName ctyMax constDeclOk constFits constInt under underN intMax otherMax)
set_option linter.unusedSimpArgs false
variable {fl : Gen.Flags} {s : Gen.Spec} {g : Gen.GoProg} {q : Pkg} {Ps : Prog}

/-- The types of constants (`-const-type`) that the semantics of Verif.Lang.Sem has. -/
def constTypes : List String := ["", "uint32", "int32", "uint64", "int64", "int"]

/-- The value of a kind. -/
def Kv : Gen.Kind → Nat → V
  | .u32, n => .u32 (UInt32.ofInt n)
  | .i32, n => .i32 (Int32.ofInt n)
  | .u64, n => .u64 (UInt64.ofInt n)
  | .i64, n => .i64 (Int64.ofInt n)
  | .bool, _ => .bool false

/-- The value of a constant of a type. -/
def Cv (g : Gen.GoProg) (t : CTy) (n : Nat) (v : V) : Prop :=
  match t with
  | .untyped => v = .const n
  | .other m => m = "int" ∧ v = .int n
  | .typed t => ∃ κ m, under g t = some κ.go ∧ Gen.Kind.max κ = some m ∧ n < m ∧ v = Kv κ n

theorem zeroGo_kind : ∀ {k : Nat} {t : Gen.GoType} {y : Gen.GoVal} {κ : Gen.Kind}, Gen.zeroGo g.const (g.zeroN k) t = some y →
    underN g k t = some κ.go → y = match κ with | .u32 => .u32 0 | .i32 => .i32 0 | .u64 => .u64 0 | .i64 => .i64 0 | .bool => .bool false
  | k, t, y, κ, h, hu => by
    by_cases hn : ∃ n, t = .named n
    · obtain ⟨n, rfl⟩ := hn
      cases k with
      | zero => simp [underN] at hu
      | succ k =>
        rw [Gen.zeroGo, Gen.GoProg.zeroN] at h
        rw [underN] at hu
        cases hl : g.types.lookup n with
        | none => rw [hl] at h; cases h
        | some t' =>
          rw [hl] at h hu
          exact zeroGo_kind (k := k) h hu
    · have : t = κ.go := by
        cases k <;> cases t <;> simp_all [underN]
      subst this
      cases κ <;> (simp only [Gen.Kind.go, Gen.zeroGo] at h; cases h; rfl)

theorem find_mem {cs : List Gen.GoConst} {x : String} {c : Gen.GoConst} (h : cs.find? (·.name = x) = some c) : c ∈ cs ∧ c.name = x :=
  ⟨List.mem_of_find?_eq_some h, by simpa using List.find?_some h⟩

theorem const_not_bad (H : Gen.Comp fl s g) {c : Gen.GoConst} (hc : c ∈ g.consts) : c.name ∉ Gen.badNames := by
  rw [Gen.generate_consts H.facts.gen] at hc
  exact H.bad _ (Gen.constName_mem hc)

theorem types_nodup (H : Gen.Comp fl s g) : (g.types.map Prod.fst).Nodup := by
  obtain ⟨ht, -⟩ := Gen.generate_types H.facts.gen
  have : ∀ {l : List (String × Gen.DeclType)} {r : List (String × Gen.GoType)},
      Spec.mapAll (fun q : String × Gen.DeclType => (Gen.topType q.2).map fun gt => (Gen.i q.1, gt)) l = some r →
      r.map Prod.fst = l.map fun p => Gen.i p.1 := by
    intro l
    induction l with
    | nil => intro r h; cases h; rfl
    | cons a l ih =>
      intro r h
      simp only [Spec.mapAll, bind, Option.bind, Pure.pure] at h
      cases h1 : Gen.topType a.2 with
      | none => rw [h1] at h; cases h
      | some b =>
        rw [h1] at h
        dsimp only [Option.map] at h
        split at h
        · cases h
        · rename_i r' hr
          cases h
          rw [List.map_cons, List.map_cons, ih hr]
  rw [this ht]
  exact H.facts.types

/-! ### Types are plain -/

mutual
theorem tsPlain {E : Spec.Env} {K : Nat} : ∀ {a : Bool} (t : Gen.Typespec) {gt : Gen.GoType}, t.wf E K a = true → t.goType = some gt → plainT gt
  | a, .int true, gt, _, h => by cases h; simp [plainT]
  | a, .int false, gt, _, h => by cases h; simp [plainT]
  | a, .hyper true, gt, _, h => by cases h; simp [plainT]
  | a, .hyper false, gt, _, h => by cases h; simp [plainT]
  | a, .bool, gt, _, h => by cases h; simp [plainT]
  | a, .float, gt, h, _ => by simp [Gen.Typespec.wf] at h
  | a, .double, gt, h, _ => by simp [Gen.Typespec.wf] at h
  | a, .quadruple, gt, h, _ => by simp [Gen.Typespec.wf] at h
  | a, .enum _, gt, h, _ => by simp [Gen.Typespec.wf] at h
  | a, .ident n, gt, _, h => by cases h; simp [plainT]
  | a, .struct ds, gt, hw, h => by
    simp only [Gen.Typespec.wf, Bool.and_eq_true, decide_eq_true_eq] at hw
    simp only [Gen.Typespec.goType] at h
    obtain ⟨fs, hfs, h⟩ := Gen.bind_some h
    cases h
    rw [plainT, Gen.Decls.goFields_names hfs]
    exact ⟨hw.1, dsPlain ds hw.2 hfs⟩
  | a, .union sw cs, gt, hw, h => by
    simp only [Gen.Typespec.wf, Bool.and_eq_true, decide_eq_true_eq] at hw
    simp only [Gen.Typespec.goType] at h
    obtain ⟨f, hf, h⟩ := Gen.bind_some h
    obtain ⟨fs, hfs, h⟩ := Gen.bind_some h
    cases h
    rw [plainT, Gen.Decl.goField_names hf, Gen.Cases.goFields_names hfs]
    refine ⟨hw.1.1, dcPlain sw hw.1.2 hf ?_⟩
    cases hk : sw.kindOf E K with
    | none => rw [hk] at hw; simp at hw
    | some κ => rw [hk] at hw; exact csPlain κ cs hw.2 hfs
theorem dtPlain {E : Spec.Env} {K : Nat} : ∀ {a : Bool} (t : Gen.DeclType) {gt : Gen.GoType}, t.wf E K a = true → t.goType = some gt → plainT gt
  | a, .typespec t, gt, hw, h => by
    simp only [Gen.DeclType.wf] at hw
    simp only [Gen.DeclType.goType] at h
    exact tsPlain t hw h
  | a, .array _ _, gt, hw, _ => by simp [Gen.DeclType.wf] at hw
  | a, .varArray t m, gt, hw, h => by
    simp only [Gen.DeclType.goType] at h
    obtain ⟨gt', h1, h⟩ := Gen.bind_some h
    cases h
    simp [plainT]
  | a, .opaqueArray sz, gt, hw, h => by simp only [Gen.DeclType.goType] at h; cases h; simp [plainT]
  | a, .opaqueVarArray m, gt, hw, h => by simp only [Gen.DeclType.goType] at h; cases h; simp [plainT]
  | a, .string m, gt, hw, h => by simp only [Gen.DeclType.goType] at h; cases h; simp [plainT]
  | a, .ptr t, gt, hw, h => by
    simp only [Gen.DeclType.goType] at h
    obtain ⟨gt', h1, h⟩ := Gen.bind_some h
    cases h
    simp [plainT]
theorem dcPlain {E : Spec.Env} {K : Nat} : ∀ {a : Bool} (d : Gen.Decl) {f : Gen.GoFields → Gen.GoFields} {fs : Gen.GoFields}, d.wf E K a = true →
    d.goField = some f → plainF fs → plainF (f fs)
  | a, .void, f, fs, _, h, hfs => by simp only [Gen.Decl.goField] at h; cases h; exact hfs
  | a, .name t n, f, fs, hw, h, hfs => by
    simp only [Gen.Decl.wf] at hw
    simp only [Gen.Decl.goField] at h
    obtain ⟨gt, h1, h⟩ := Gen.bind_some h
    cases h
    rw [plainF]
    exact ⟨dtPlain t hw h1, hfs⟩
theorem dsPlain {E : Spec.Env} {K : Nat} : ∀ {a : Bool} (ds : Gen.Decls) {fs : Gen.GoFields}, ds.wf E K a = true → ds.goFields = some fs → plainF fs
  | a, .nil, fs, _, h => by simp only [Gen.Decls.goFields] at h; cases h; simp [plainF]
  | a, .cons d ds, fs, hw, h => by
    simp only [Gen.Decls.wf, Bool.and_eq_true] at hw
    simp only [Gen.Decls.goFields] at h
    obtain ⟨f, hf, h⟩ := Gen.bind_some h
    obtain ⟨fs', hfs, h⟩ := Gen.bind_some h
    cases h
    exact dcPlain d hw.1 hf (dsPlain ds hw.2 hfs)
theorem csPlain {E : Spec.Env} {K : Nat} : ∀ {a : Bool} (κ : Gen.Kind) (cs : Gen.Cases) {fs : Gen.GoFields}, cs.wf E K a κ = true →
    cs.goFields = some fs → plainF fs
  | a, κ, .nil, fs, _, h => by simp only [Gen.Cases.goFields] at h; cases h; simp [plainF]
  | a, κ, .dflt d, fs, hw, h => by
    simp only [Gen.Cases.wf] at hw
    simp only [Gen.Cases.goFields] at h
    obtain ⟨f, hf, h⟩ := Gen.bind_some h
    cases h
    exact dcPlain d hw hf (by simp [plainF])
  | a, κ, .cons l ls d cs, fs, hw, h => by
    simp only [Gen.Cases.wf, Bool.and_eq_true] at hw
    simp only [Gen.Cases.goFields] at h
    obtain ⟨f, hf, h⟩ := Gen.bind_some h
    obtain ⟨fs', hfs, h⟩ := Gen.bind_some h
    cases h
    exact dcPlain d hw.1.2 hf (csPlain κ cs hw.2 hfs)
end

theorem types_plain (H : Gen.Comp fl s g) (n : String) (t : Gen.GoType) (h : (n, t) ∈ g.types) : n ∉ Gen.badNames ∧ plainT t := by
  refine ⟨H.type_bad (Gen.lookup_of_mem h), ?_⟩
  obtain ⟨m, d, hm, rfl, ht⟩ := H.type_mem h
  have hw := H.facts.wf _ hm
  cases d with
  | ptr d =>
    simp only [Gen.topType] at ht
    obtain ⟨gt', h3, rfl⟩ := Gen.except_map_eq ht
    simp only [plainT, plainF, and_true]
    exact ⟨by simp [Gen.GoFields.names], dtPlain _ hw h3⟩
  | _ => exact dtPlain _ hw ht

theorem zero_text (H : Gen.Comp fl s g) (T : IsText g q) (hq : Has Ps q) {t : Gen.GoType} (ht : plainT t) :
    ZeroOK (xdrPkg :: Ps) q.name (tyG t) (g.zero t) :=
  T.zero H.facts.consts (types_nodup H) hq (types_plain H) ht

/-! ### Constants -/

theorem coerce_kind (κ : Gen.Kind) (n : Nat) {v : V}
    (h : RepZ v (match κ with | .u32 => .u32 0 | .i32 => .i32 0 | .u64 => .u64 0 | .i64 => .i64 0 | .bool => .bool false))
    {m : Nat} (hκ : Gen.Kind.max κ = some m) :
    coerce v (.const n) = Kv κ n := by
  have h := h (⟨fun _ => .nil, 0, (), []⟩ : St Unit)
  cases κ with
  | bool => cases hκ
  | _ => cases h; rfl

theorem prog_const {P : Prog} {q : Pkg} {x : String} {t : Ty} {e : Expr} {z : V} {n : Nat} (hp : P.pkg q.name = some q)
    (h : q.consts.lookup x = some (some t, e)) (h1 : e ≠ .id "true") (h2 : e ≠ .id "false") (hz : P.zero q.name t = some z)
    (hn : q.nat e = some n) : P.const q.name x = some (coerce z (.const n)) := by
  simp only [Prog.const, hp, h, bind, Option.bind, hz, hn]
  rfl

theorem valE_ne {c : Gen.Val} {n : Nat} {b : String} (H : Gen.Comp fl s g) (hb : b ∈ Gen.badNames) (h : g.const c = some n) : valE c ≠ .id b := by
  intro e
  cases c with
  | lit m => cases e
  | ident x =>
    rw [valE] at e
    cases e
    rw [Gen.GoProg.const, Gen.constVal] at h
    split at h
    · rename_i c hc
      obtain ⟨hm, rfl⟩ := find_mem hc
      exact const_not_bad H hm hb
    · cases h

/-- The types of constants. -/
theorem const_types (H : Gen.Comp fl s g) (hct : fl.constType ∈ constTypes) {c : Gen.GoConst} (hc : c ∈ g.consts) :
    c.ty ∈ constTypes ∨ ∃ e items, Gen.Defn.enum e items ∈ s ∧ c.ty = Gen.i e := by
  rw [Gen.generate_consts H.facts.gen, List.mem_flatMap] at hc
  obtain ⟨d, hd, hc⟩ := hc
  cases d with
  | const n v =>
    simp only [Gen.defnConsts, List.mem_singleton] at hc
    subst hc
    exact .inl hct
  | enum e items =>
    simp only [Gen.defnConsts, List.mem_map] at hc
    obtain ⟨it, hit, rfl⟩ := hc
    exact .inr ⟨e, items, hd, rfl⟩
  | program p =>
    simp only [Gen.defnConsts, Gen.emitProgConsts, List.mem_cons, List.mem_flatMap, List.mem_map] at hc
    refine .inl ?_
    rcases hc with rfl | ⟨v, hv, rfl | ⟨c', hc', rfl⟩⟩ <;> simp [constTypes]
  | _ => simp [Gen.defnConsts] at hc

theorem constVal_mono {cs : List Gen.GoConst} : ∀ {k k' : Nat} {v : Gen.Val} {n : Nat}, k ≤ k' → Gen.constVal cs k v = some n →
    Gen.constVal cs k' v = some n
  | k, k', .lit m, n, _, h => by cases k <;> cases k' <;> simpa [Gen.constVal] using h
  | 0, _, .ident x, n, _, h => by simp [Gen.constVal] at h
  | k + 1, 0, .ident x, n, hk, h => by omega
  | k + 1, k' + 1, .ident x, n, hk, h => by
    rw [Gen.constVal] at h ⊢
    split at h
    · exact constVal_mono (by omega) h
    · cases h

/-- A constant is the same number. -/
theorem const_text (H : Gen.Comp fl s g) (T : IsText g q) (hq : Has Ps q) (hct : fl.constType ∈ constTypes) {x : String} {ct : CTy} {n : Nat}
    (ht : constTy g (.ident x) = some ct) (hn : g.const (.ident x) = some n) :
    ∃ v, sizeV (xdrPkg :: Ps) q.name (.ident x) = some v ∧ Cv g ct n v := by
  rw [constTy] at ht
  split at ht
  · cases ht
  rename_i c hc
  obtain ⟨hm, hx⟩ := find_mem hc
  have hbad := const_not_bad H hm
  have hloc : x ∉ locals := by
    intro hl
    rw [hx] at hbad
    exact hbad ((by decide : ∀ y ∈ locals, y ∈ Gen.badNames) x hl)
  have hl := T.consts c hm
  rw [hx] at hl
  have hp := pkg_second (Ps := Ps) hq
  have hnc : g.const c.val = some n := by
    rw [Gen.GoProg.const, Gen.constVal, hc] at hn
    exact constVal_mono (by omega) hn
  have hdecl := List.all_eq_true.1 (Gen.constDecls H) c hm
  simp only [constDeclOk, hnc] at hdecl
  rw [sizeV, if_neg hloc]
  by_cases h0 : c.ty = ""
  · rw [if_pos h0] at ht hl
    split at ht
    · rename_i m hv
      cases ht
      rw [hv] at hl hnc
      have : m = n := by simpa [Gen.GoProg.const, Gen.constVal] using hnc
      subst this
      refine ⟨.const m, ?_, rfl⟩
      simp only [Prog.const, hp, hl, bind, Option.bind, valE]
      rfl
    · cases ht
  · rw [if_neg h0] at ht hl hdecl
    have hc1 := fun z hz => prog_const (P := xdrPkg :: Ps) (z := z) hp hl (valE_ne H (by decide) hnc) (valE_ne H (by decide) hnc) hz
      (T.nat H.facts.consts hnc)
    simp only [ht, Bool.and_eq_true, Option.any_eq_true, decide_eq_true_eq] at hdecl
    obtain ⟨⟨m, hmax, hlt⟩, -⟩ := hdecl
    rcases const_types H hct hm with h | ⟨e, items, he, h⟩
    · have hb : ∀ {b ct'}, c.ty = b → basicTy b = some ct' → ct = ct' := by
        rintro b ct' rfl hb
        rw [H.tyByName_basic hb] at ht
        exact (Option.some.inj ht).symm
      simp only [constTypes, List.mem_cons, List.not_mem_nil, or_false] at h
      rcases h with h | h | h | h | h | h
      · exact absurd h h0
      · have := hb h rfl
        subst this
        rw [h] at hc1
        simp only [ctyMax, under, underN, Option.bind_some, intMax, Option.some.injEq] at hmax
        subst hmax
        exact ⟨_, hc1 _ (zero_uint32' _ _), .u32, _, rfl, rfl, hlt, rfl⟩
      · have := hb h rfl
        subst this
        rw [h] at hc1
        simp only [ctyMax, under, underN, Option.bind_some, intMax, Option.some.injEq] at hmax
        subst hmax
        exact ⟨_, hc1 (.i32 0) (by simp [Prog.zero, Prog.fuel, zeroN]), .i32, _, rfl, rfl, hlt, rfl⟩
      · have := hb h rfl
        subst this
        rw [h] at hc1
        simp only [ctyMax, under, underN, Option.bind_some, intMax, Option.some.injEq] at hmax
        subst hmax
        exact ⟨_, hc1 _ (zero_uint64' _ _), .u64, _, rfl, rfl, hlt, rfl⟩
      · have := hb h rfl
        subst this
        rw [h] at hc1
        simp only [ctyMax, under, underN, Option.bind_some, intMax, Option.some.injEq] at hmax
        subst hmax
        exact ⟨_, hc1 (.i64 0) (by simp [Prog.zero, Prog.fuel, zeroN]), .i64, _, rfl, rfl, hlt, rfl⟩
      · have := hb h rfl
        subst this
        rw [h] at hc1
        exact ⟨_, hc1 _ (zero_int' _ _), rfl, rfl⟩
    · rw [h, (H.tyByName_enum he).1] at ht
      cases ht
      have hmem := H.typeOf_mem (Gen.enum_specTypes (u := fl.unsignedEnum) he)
      have hk : Gen.kindOf (Spec.envOf fl.unsignedEnum s) (Gen.nameBound fl s) (.typespec (.ident e)) =
          some (if fl.unsignedEnum then .u32 else .i32) := by
        simp only [Gen.nameBound, Gen.kindOf, hmem, Option.bind_some]
        cases fl.unsignedEnum <;> simp [Gen.kindOf]
      have hu := Gen.kind_under H hk rfl
      rw [Gen.under_enum H he] at hmax
      have hz := H.lnk.zero e _ hmem
      obtain ⟨y, hy⟩ := Option.isSome_iff_exists.1 hz
      obtain ⟨v, hv, hr⟩ := zero_text (Ps := Ps) H T hq (t := .named (Gen.i e)) (by simp [plainT]) y (by rw [Gen.GoProg.zero, Gen.zeroGo]; exact hy)
      have hy' := zeroGo_kind (k := g.types.length + 1) (t := .named (Gen.i e)) (y := y) (by rw [Gen.zeroGo]; exact hy) hu
      rw [hy'] at hr
      rw [tyG] at hv
      rw [h] at hc1
      have hkm : Gen.Kind.max (if fl.unsignedEnum then .u32 else .i32) = some m := by
        rw [← hmax]; cases fl.unsignedEnum <;> rfl
      refine ⟨_, hc1 v hv, _, m, hu, hkm, hlt, coerce_kind _ n (fun st => hr st) hkm⟩

/-! ### Maximum sizes -/

theorem u32_ofInt {n : Nat} : UInt32.ofInt (n : Int) = UInt32.ofNat n := ofInt32_nat n

theorem size_text (H : Gen.Comp fl s g) (T : IsText g q) (hq : Has Ps q) (hct : fl.constType ∈ constTypes) {c : Option Gen.Val}
    (h : c.all (Gen.fits fl s .uint32 (2 ^ 32)) = true) : SizeP (xdrPkg :: Ps) q.name g c := by
  rintro v rfl n hn
  rw [Option.all_some] at h
  have hf := H.constFits_of (gt := .uint32) (m := 2 ^ 32) rfl h
  cases v with
  | lit m =>
    have : m = n := by simpa [Gen.GoProg.const, Gen.constVal] using hn
    subst this
    simp only [constFits, constTy, hn] at hf
    exact ⟨by simpa [under, underN, intMax] using hf, .inl rfl⟩
  | ident x =>
    rw [constFits] at hf
    split at hf
    · rename_i hc
      obtain ⟨v, h1, h2⟩ := const_text (Ps := Ps) H T hq hct hc hn
      simp only [hn] at hf
      rw [Cv] at h2
      subst h2
      exact ⟨by simpa [under, underN, intMax] using hf, .inl h1⟩
    · rename_i t hc
      obtain ⟨v, h1, κ, m, h2, h3, h4, rfl⟩ := const_text (Ps := Ps) H T hq hct hc hn
      rw [decide_eq_true_eq] at hf
      subst hf
      have : κ = .u32 := by cases κ <;> simp [under, underN, Gen.Kind.go] at h2 <;> rfl
      subst this
      cases h3
      refine ⟨h4, .inr ?_⟩
      rw [h1, Kv, u32_ofInt]
    · cases hf

theorem int32_back {n : Nat} (h : n < 2 ^ 31) : (Int32.ofInt (n : Int)).toInt = n := by
  rw [Int32.toInt_ofInt_of_le (by omega) (by omega)]

theorem int64_back {n : Nat} (h : n < 2 ^ 63) : (Int64.ofInt (n : Int)).toInt = n := by
  rw [Int64.toInt_ofInt_of_le (by omega) (by omega)]

theorem uint64_back {x : UInt64} (h : x.toNat < 2 ^ 63) : x.toInt64.toInt = x.toNat := by
  rw [UInt64.toInt64]
  show x.toBitVec.toInt = _
  rw [BitVec.toInt_eq_toNat_cond]
  have : x.toBitVec.toNat = x.toNat := rfl
  rw [this, if_pos (by omega)]

theorem max_text (H : Gen.Comp fl s g) (T : IsText g q) (hq : Has Ps q) (hct : fl.constType ∈ constTypes) {c : Option Gen.Val}
    (h : c.all (Gen.inInt s) = true) : MaxP (xdrPkg :: Ps) q.name g c := by
  rintro v rfl n hn
  rw [Option.all_some] at h
  have hf := H.constInt_of h
  simp only [constInt, hn, Bool.and_eq_true, Option.any_some, decide_eq_true_eq] at hf
  obtain ⟨hf, hlt⟩ := hf
  obtain ⟨ct, hc⟩ := Option.isSome_iff_exists.1 hf
  cases v with
  | lit m =>
    have : m = n := by simpa [Gen.GoProg.const, Gen.constVal] using hn
    subst this
    exact ⟨_, rfl, rfl⟩
  | ident x =>
    obtain ⟨v, h1, h2⟩ := const_text (Ps := Ps) H T hq hct hc hn
    refine ⟨v, h1, ?_⟩
    cases ct with
    | untyped => rw [Cv] at h2; subst h2; rfl
    | other m => rw [Cv] at h2; obtain ⟨-, rfl⟩ := h2; rfl
    | typed t =>
      obtain ⟨κ, m, -, h3, h4, rfl⟩ := h2
      cases κ with
      | bool => cases h3
      | u32 => cases h3; simp only [Kv, convert, u32_ofInt, UInt32.toNat_ofNat_of_lt' h4]
      | i32 => cases h3; simp only [Kv, convert, int32_back h4]
      | i64 => cases h3; simp only [Kv, convert, int64_back h4]
      | u64 =>
        cases h3
        simp only [Kv, convert]
        rw [ofInt64_nat, uint64_back (by rw [UInt64.toNat_ofNat_of_lt' h4]; exact hlt), UInt64.toNat_ofNat_of_lt' h4]

/-! ### Labels -/

theorem label_text (H : Gen.Comp fl s g) (T : IsText g q) (hq : Has Ps q) (hct : fl.constType ∈ constTypes) {t : Gen.DeclType} {κ : Gen.Kind}
    {gt : Gen.GoType} (hk : Gen.kindOf (Spec.envOf fl.unsignedEnum s) (Gen.nameBound fl s) t = some κ) (hg : t.goType = some gt) {l : Gen.Val}
    {lab : Gen.Label} (hl : (Spec.envOf fl.unsignedEnum s).label l = some lab) (hf : Gen.labelFits κ lab = true)
    (hfit : ∀ m, κ.max = some m → Gen.fits fl s gt m l = true) : labelOk (xdrPkg :: Ps) q.name g κ l = true := by
  have hu := Gen.kind_under H hk hg
  have hgl := H.lnk.label l lab hl
  have hconst : ∀ x ∈ ["nil", "true", "false"], Prog.const (xdrPkg :: Ps) q.name x = none := by
    intro x hx
    simp only [Prog.const, pkg_second hq, T.pre x hx, bind, Option.bind]
  rw [labelOk, hgl]
  cases hκ : κ.max with
  | none =>
    have : κ = .bool := by cases κ <;> first | rfl | cases hκ
    subst this
    cases lab with
    | int n => simp [Gen.labelFits] at hf
    | bool b =>
      have : Gen.iVal l = .ident "true" ∧ b = true ∨ Gen.iVal l = .ident "false" ∧ b = false := by
        unfold Gen.GoProg.label at hgl
        split at hgl
        · rename_i e; cases hgl; exact .inl ⟨e, rfl⟩
        · rename_i e; cases hgl; exact .inr ⟨e, rfl⟩
        · obtain ⟨c, _, h⟩ := Option.map_eq_some_iff.1 hgl; cases h
      rcases this with ⟨h, rfl⟩ | ⟨h, rfl⟩
      · rw [h]
        simp only [labV, if_neg (show "true" ∉ locals by decide), hconst "true" (by decide), ↓reduceIte]
        rfl
      · rw [h]
        simp only [labV, if_neg (show "false" ∉ locals by decide), hconst "false" (by decide), ↓reduceIte]
        rfl
  | some m =>
    have hfits := hfit m hκ
    have hfit' := H.constFits_of (by rw [hu, Option.bind_some]; exact Gen.Kind.max_go hκ) hfits
    cases lab with
    | bool b => cases κ <;> simp [Gen.labelFits] at hf <;> cases hκ
    | int n =>
      have hn : g.const (Gen.iVal l) = some n := by
        unfold Gen.GoProg.label at hgl
        split at hgl
        · cases hgl
        · cases hgl
        · obtain ⟨c, h1, h2⟩ := Option.map_eq_some_iff.1 hgl
          cases h2
          exact h1
      have hi : Gen.iVal l = l := by
        unfold Gen.fits at hfits
        split at hfits
        · rename_i hc; exact (H.constTy_eq hc).2
        · rename_i hc; exact (H.constTy_eq hc).2
        · cases hfits
      rw [hi] at hn ⊢
      have hmg := Gen.Kind.max_go hκ
      cases l with
      | lit k =>
        have : k = n := by simpa [Gen.GoProg.const, Gen.constVal] using hn
        subst this
        simp only [constFits, constTy, hn, hu, Option.bind_some, hmg, decide_eq_true_eq] at hfit'
        simp only [labV]
        cases κ <;> cases hκ <;> simpa [labMatch] using hfit'
      | ident x =>
        have hlv : ∀ v, sizeV (xdrPkg :: Ps) q.name (.ident x) = some v → labV (xdrPkg :: Ps) q.name (.ident x) = some v := by
          intro v hv
          rw [sizeV] at hv
          rw [labV]
          split at hv
          · cases hv
          · rename_i h; rw [if_neg h, hv]
        rw [constFits] at hfit'
        split at hfit'
        · rename_i hc
          obtain ⟨v, h1, h2⟩ := const_text (Ps := Ps) H T hq hct hc hn
          simp only [hn, hu, Option.bind_some, hmg, decide_eq_true_eq] at hfit'
          rw [Cv] at h2
          subst h2
          rw [hlv _ h1]
          cases κ <;> cases hκ <;> simpa [labMatch] using hfit'
        · rename_i t' hc
          obtain ⟨v, h1, κ', m', h2, h3, h4, rfl⟩ := const_text (Ps := Ps) H T hq hct hc hn
          rw [decide_eq_true_eq] at hfit'
          subst hfit'
          rw [hu] at h2
          have : κ = κ' := by cases κ <;> cases κ' <;> first | rfl | cases h2
          subst this
          rw [hlv _ h1]
          cases κ with
          | bool => cases hκ
          | u32 => cases h3; simp only [Kv, labMatch, u32_ofInt, UInt32.toNat_ofNat_of_lt' h4, beq_self_eq_true]
          | i32 => cases h3; simp only [Kv, labMatch, int32_back h4, beq_self_eq_true]
          | i64 => cases h3; simp only [Kv, labMatch, int64_back h4, beq_self_eq_true]
          | u64 => cases h3; simp only [Kv, labMatch, ofInt64_nat, UInt64.toNat_ofNat_of_lt' h4, beq_self_eq_true]
        · cases hfit'

end Verif.Lang.Text
