/-
Running generated code, as read from the files, does what the functions of Verif.Gen.Codec do.
-/
import Verif.Lang.GenRep
import Verif.Gen.CodecN
namespace Verif.Lang.Text
open Verif.Xdr (XErr XdrState)
variable {ω : Type} {Ps : Prog}
set_option linter.unusedSimpArgs false

/-! ### The library: a reader stays one, and a writer leaves the values alone -/

theorem u32_rd (xs : XdrState) (v : UInt32) : (Xdr.xdrU32 xs v).1.reader = xs.reader := by
  simp only [Xdr.xdrU32]
  repeat' split
  all_goals first | rfl | exact rw_reader_eq _ _
theorem s32_rd (xs : XdrState) (v : Int32) : (Xdr.xdrS32 xs v).1.reader = xs.reader := by
  simp only [Xdr.xdrS32]
  repeat' split
  all_goals first | rfl | exact rw_reader_eq _ _
theorem u64_rd (xs : XdrState) (v : UInt64) : (Xdr.xdrU64 xs v).1.reader = xs.reader := by
  simp only [Xdr.xdrU64]
  repeat' split
  all_goals first | rfl | exact rw_reader_eq _ _
theorem s64_rd (xs : XdrState) (v : Int64) : (Xdr.xdrS64 xs v).1.reader = xs.reader := by
  simp only [Xdr.xdrS64]
  repeat' split
  all_goals first | rfl | exact rw_reader_eq _ _
theorem bool_rd (xs : XdrState) (v : Bool) : (Xdr.xdrBool xs v).1.reader = xs.reader := by
  simp only [Xdr.xdrBool]
  repeat' split
  all_goals first | rfl | exact rw_reader_eq _ _

theorem dec_false {xs : XdrState} (h : xs.reader = false) (v : List UInt8) : Xdr.decoding (Xdr.xdrRW xs v).1 = false := by
  simp only [Xdr.decoding, rw_reader_eq, h]
  simp

theorem u32_same {xs : XdrState} (h : xs.reader = false) (v : UInt32) : (Xdr.xdrU32 xs v).2 = v := by
  simp only [Xdr.xdrU32, dec_false h]
  split <;> rfl
theorem s32_same {xs : XdrState} (h : xs.reader = false) (v : Int32) : (Xdr.xdrS32 xs v).2 = v := by
  simp only [Xdr.xdrS32, dec_false h]
  split <;> rfl
theorem u64_same {xs : XdrState} (h : xs.reader = false) (v : UInt64) : (Xdr.xdrU64 xs v).2 = v := by
  simp only [Xdr.xdrU64, dec_false h]
  split <;> rfl
theorem s64_same {xs : XdrState} (h : xs.reader = false) (v : Int64) : (Xdr.xdrS64 xs v).2 = v := by
  simp only [Xdr.xdrS64, dec_false h]
  split <;> rfl
theorem bool_same {xs : XdrState} (h : xs.reader = false) (v : Bool) : (Xdr.xdrBool xs v).2 = v := by
  simp only [Xdr.xdrBool, dec_false h]
  split <;> rfl

theorem rw_same {xs : XdrState} (h : xs.reader = false) (v : List UInt8) : (Xdr.xdrRW xs v).2 = v := by
  simp only [Xdr.xdrRW, h]
  repeat' split
  all_goals first | rfl | contradiction
theorem array_rd (xs : XdrState) (v : List UInt8) : (Xdr.xdrArray xs v).1.reader = xs.reader := by
  simp only [Xdr.xdrArray]
  repeat' split
  all_goals first | rfl | simp only [rw_reader_eq]
theorem array_same {xs : XdrState} (h : xs.reader = false) (v : List UInt8) : (Xdr.xdrArray xs v).2 = v := by
  simp only [Xdr.xdrArray, rw_same h]
  split <;> rfl
theorem array_length (xs : XdrState) (v : List UInt8) : (Xdr.xdrArray xs v).2.length = v.length := by
  simp only [Xdr.xdrArray]
  split
  · rfl
  · exact rw_length _ _
theorem enc_of {xs : XdrState} (h : xs.reader = false) (he : ¬ xs.err.isSome = true) : Xdr.encoding xs = true := by
  cases e : xs.err <;> simp_all [Xdr.encoding]
theorem varArray_rd (xs : XdrState) (m : Int) (v : Xdr.GoBytes) : (Xdr.xdrVarArray xs m v).1.reader = xs.reader := by
  simp only [Xdr.xdrVarArray, Xdr.setError]
  repeat' split
  all_goals first | rfl | simp only [rw_reader_eq, r_reader_eq]
theorem varArray_same {xs : XdrState} (h : xs.reader = false) (m : Int) (v : Xdr.GoBytes) : (Xdr.xdrVarArray xs m v).2 = v := by
  simp only [Xdr.xdrVarArray]
  split
  · rfl
  · rename_i he
    rw [if_pos (enc_of h he)]
    repeat' split
    all_goals rfl
theorem string_rd (xs : XdrState) (m : Int) (v : List UInt8) : (Xdr.xdrString xs m v).1.reader = xs.reader := by
  simp only [Xdr.xdrString, Xdr.setError]
  repeat' split
  all_goals first | rfl | simp only [rw_reader_eq, r_reader_eq]
theorem string_same {xs : XdrState} (h : xs.reader = false) (m : Int) (v : List UInt8) : (Xdr.xdrString xs m v).2 = v := by
  simp only [Xdr.xdrString]
  split
  · rfl
  · rename_i he
    rw [if_pos (enc_of h he)]
    repeat' split
    all_goals rfl
theorem setSize_rd (xs : XdrState) (v : UInt32) (n : Nat) : (Xdr.encodingSetSize xs v n).1.reader = xs.reader := by
  simp only [Xdr.encodingSetSize, Xdr.setError]
  repeat' split
  all_goals rfl

/-! ### Variables -/

/-- The variables of generated code. -/
def locals : List String := ["v", "xs", "i", "opted", "__arraysz"]

/-- The package imports package xdr and does not redefine `nil`. -/
structure PkgOK (Ps : Prog) (pkg : String) : Prop where
  imp : isImport (xdrPkg :: Ps) pkg "xdr" = true
  cnil : Prog.const (xdrPkg :: Ps) pkg "nil" = none

/-- `xs` points to the `XdrState`; nothing but `locals` is declared. -/
structure EnvOK (ρ : Env) (st : St ω) (D : Nat → Prop) (x : Nat) : Prop where
  xs : ∃ ix, ρ.find "xs" = some ix ∧ D ix ∧ st.heap ix = .ptr "" ⟨x, []⟩
  other : ∀ y, y ∉ locals → ρ.find y = none

/-- `v`, and `i` in a loop, are the same variables. -/
def Agree (u : Bool) (ρ ρ' : Env) : Prop := ρ'.find "v" = ρ.find "v" ∧ (u = true → ρ'.find "i" = ρ.find "i")

theorem Agree.refl (u : Bool) (ρ : Env) : Agree u ρ ρ := ⟨rfl, fun _ => rfl⟩
theorem Agree.trans {u : Bool} {ρ ρ' ρ'' : Env} (h : Agree u ρ ρ') (h' : Agree u ρ' ρ'') : Agree u ρ ρ'' :=
  ⟨h'.1.trans h.1, fun e => (h'.2 e).trans (h.2 e)⟩

/-- The expression, which refers to the cells `D` only, points to `l`. -/
def PtrTo (S : Sem ω) (pkg : String) (u : Bool) (ρ : Env) (D : Nat → Prop) (st : St ω) (e : Expr) (l : Loc) : Prop :=
  ∀ ρ' st', Agree u ρ ρ' → (∀ j, D j → st'.heap j = st.heap j) →
    pkgName S.prog pkg ρ' e = none ∧ ∃ T, ∀ Q : List V → St ω → Prop, wp (evalM S pkg ρ' e) Q st' = Q [.ptr T l] st'

theorem PtrTo.mono {S : Sem ω} {pkg : String} {u : Bool} {ρ ρ1 : Env} {D : Nat → Prop} {st st1 : St ω} {e : Expr} {l : Loc}
    (h : PtrTo S pkg u ρ D st e l) (ha : Agree u ρ ρ1) (hd : ∀ j, D j → st1.heap j = st.heap j) : PtrTo S pkg u ρ1 D st1 e l :=
  fun _ _ h1 h2 => h _ _ (ha.trans h1) fun j hj => (h2 j hj).trans (hd j hj)

/-- Running `b`, with `e` pointing to the value, does `F`. -/
def Does (S : Sem ω) (pkg : String) (u : Bool) (e : Expr) (b : List Stmt)
    (F : XdrState → Gen.GoVal → Gen.Res (XdrState × Gen.GoVal)) : Prop :=
  ∀ ⦃rd : Bool⦄ ⦃st : St ω⦄ ⦃x a w t p xs ok v ρ D y xs' y'⦄, At rd st x a w t p xs ok v → PtrTo S pkg u ρ D st e ⟨t, p⟩ →
    EnvOK ρ st D x → Fixed D rd st x w t → Rep st ok v y → F xs y = .ok (xs', y') →
    wp (execs S pkg b ρ .next) (fun r st' => r = (ρ, .next) ∧ ∃ w' v', Did rd st st' x a w w' t p xs' ok v v' ∧
      Rep st' (After rd a x st ok) v' y') st

/-! ### Calls of the library -/

section
variable {E : Ext ω} {k : Nat} {pkg : String} {u : Bool} {e : Expr}
local notation "𝕊" => (Sem.mk (xdrPkg :: Ps) (callN (xdrPkg :: Ps) E (k + 2)) E.ext E.spawn E.grow E.loops : Sem ω)

theorem wp_xdrE {ρ : Env} {D : Nat → Prop} {st : St ω} {l : Loc} {x : Nat} {f t : String} {Q : Env × Ctl → St ω → Prop}
    (hP : PkgOK Ps pkg) (hp : PtrTo 𝕊 pkg u ρ D st e l) (hE : EnvOK ρ st D x) (hf : isType (xdrPkg :: Ps) "xdr" f = false)
    (hf1 : f ≠ "Errorf") (hf2 : f ≠ "Sprintf")
    (h : ∀ T, wp (callN (xdrPkg :: Ps) E (k + 2) (.fn "xdr" f) [.ptr "" ⟨x, []⟩, .ptr T l]) (fun _ st' => Q (ρ, .next) st') st) :
    wp (execs 𝕊 pkg [xdrE f t e] ρ .next) Q st := by
  obtain ⟨-, T, hT⟩ := hp ρ st (.refl _ _) fun _ _ => rfl
  obtain ⟨ix, h1, h2, h3⟩ := hE.xs
  have h4 := hE.other "xdr" (by decide)
  rw [xdrE]
  go_run [h1, h3, h4, hP.imp, hT, hf]
  exact h _

theorem does_u32 (hP : PkgOK Ps pkg) : Does 𝕊 pkg u e [xdrE "XdrU32" "uint32" e] Gen.libU32 := by
  intro rd st x a w t p xs ok v ρ D y xs' y' hA hp hE hD hR hF
  refine wp_xdrE hP hp hE isType_xdr_XdrU32 (by decide) (by decide) fun T => ?_
  cases y <;> cases hF
  cases hR
  refine wp_mono (XdrU32_spec E k hA.hx T t p _ hA.cell hA.tlt hA.tx hA.ta hA.tw) ?_
  rintro _ st1 ⟨-, hpost, hput⟩
  obtain ⟨w', h⟩ := Did.post hA hpost (u32_rd _ _) hput fun e => by rw [u32_same (hA.hr.trans e)]
  exact ⟨rfl, w', _, h, .u32 _⟩

theorem does_i32 (hP : PkgOK Ps pkg) : Does 𝕊 pkg u e [xdrE "XdrS32" "int32" e] Gen.libS32 := by
  intro rd st x a w t p xs ok v ρ D y xs' y' hA hp hE hD hR hF
  refine wp_xdrE hP hp hE isType_xdr_XdrS32 (by decide) (by decide) fun T => ?_
  cases y <;> cases hF
  cases hR
  refine wp_mono (XdrS32_spec E k hA.hx T t p _ hA.cell hA.tlt hA.tx hA.ta hA.tw) ?_
  rintro _ st1 ⟨-, hpost, hput⟩
  obtain ⟨w', h⟩ := Did.post hA hpost (s32_rd _ _) hput fun e => by rw [s32_same (hA.hr.trans e)]
  exact ⟨rfl, w', _, h, .i32 _⟩

theorem does_u64 (hP : PkgOK Ps pkg) : Does 𝕊 pkg u e [xdrE "XdrU64" "uint64" e] Gen.libU64 := by
  intro rd st x a w t p xs ok v ρ D y xs' y' hA hp hE hD hR hF
  refine wp_xdrE hP hp hE isType_xdr_XdrU64 (by decide) (by decide) fun T => ?_
  cases y <;> cases hF
  cases hR
  refine wp_mono (XdrU64_spec E k hA.hx T t p _ hA.cell hA.tlt hA.tx hA.ta hA.tw) ?_
  rintro _ st1 ⟨-, hpost, hput⟩
  obtain ⟨w', h⟩ := Did.post hA hpost (u64_rd _ _) hput fun e => by rw [u64_same (hA.hr.trans e)]
  exact ⟨rfl, w', _, h, .u64 _⟩

theorem does_i64 (hP : PkgOK Ps pkg) : Does 𝕊 pkg u e [xdrE "XdrS64" "int64" e] Gen.libS64 := by
  intro rd st x a w t p xs ok v ρ D y xs' y' hA hp hE hD hR hF
  refine wp_xdrE hP hp hE isType_xdr_XdrS64 (by decide) (by decide) fun T => ?_
  cases y <;> cases hF
  cases hR
  refine wp_mono (XdrS64_spec E k hA.hx T t p _ hA.cell hA.tlt hA.tx hA.ta hA.tw) ?_
  rintro _ st1 ⟨-, hpost, hput⟩
  obtain ⟨w', h⟩ := Did.post hA hpost (s64_rd _ _) hput fun e => by rw [s64_same (hA.hr.trans e)]
  exact ⟨rfl, w', _, h, .i64 _⟩

theorem does_bool (hP : PkgOK Ps pkg) : Does 𝕊 pkg u e [xdrE "XdrBool" "bool" e] Gen.libBool := by
  intro rd st x a w t p xs ok v ρ D y xs' y' hA hp hE hD hR hF
  refine wp_xdrE hP hp hE isType_xdr_XdrBool (by decide) (by decide) fun T => ?_
  cases y <;> cases hF
  cases hR
  refine wp_mono (XdrBool_spec E k hA.hx T t p _ hA.cell hA.tlt hA.tx hA.ta hA.tw) ?_
  rintro _ st1 ⟨-, hpost, hput⟩
  obtain ⟨w', h⟩ := Did.post hA hpost (bool_rd _ _) hput fun e => by rw [bool_same (hA.hr.trans e)]
  exact ⟨rfl, w', _, h, .bool _⟩


theorem zero_int' (P : Prog) (p : String) : P.zero p (.name "int") = some (.int 0) := by simp [Prog.zero, Prog.fuel, zeroN]
theorem zero_uint32' (P : Prog) (p : String) : P.zero p (.name "uint32") = some (.u32 0) := by simp [Prog.zero, Prog.fuel, zeroN]
theorem zero_uint64' (P : Prog) (p : String) : P.zero p (.name "uint64") = some (.u64 0) := by simp [Prog.zero, Prog.fuel, zeroN]
theorem zero_bool' (P : Prog) (p : String) : P.zero p (.name "bool") = some (.bool false) := by simp [Prog.zero, Prog.fuel, zeroN]
theorem isType_int' (P : Prog) (p : String) : isType P p "int" = true := by simp [isType]
theorem isType_uint64' (P : Prog) (p : String) : isType P p "uint64" = true := by simp [isType]

/-- What a constant is. -/
def sizeV (P : Prog) (pkg : String) : Gen.Val → Option V
  | .lit n => some (.const n)
  | .ident s => if s ∈ locals then none else P.const pkg s

/-- The constant is the number, and can be compared with a `uint32`. -/
def SizeIs (P : Prog) (pkg : String) (c : Gen.Val) (n : Nat) : Prop :=
  n < 2 ^ 32 ∧ (sizeV P pkg c = some (.const n) ∨ sizeV P pkg c = some (.u32 (UInt32.ofNat n)))

theorem wp_valE {S : Sem ω} {ρ : Env} {D : Nat → Prop} {st : St ω} {x : Nat} {c : Gen.Val} {z : V} (hE : EnvOK ρ st D x)
    (h : sizeV S.prog pkg c = some z) (Q : List V → St ω → Prop) (st' : St ω) : wp (evalM S pkg ρ (valE c)) Q st' = Q [z] st' := by
  cases c with
  | lit n => cases h; rw [valE, wp_int]
  | ident s =>
    rw [sizeV] at h
    split at h
    · cases h
    · rename_i hs
      rw [valE, wp_id, wp_evalId, hE.other s hs, h]

/-- The constant, converted to `int`, is the number. -/
def MaxIs (P : Prog) (pkg : String) (c : Gen.Val) (n : Nat) : Prop :=
  ∃ z, sizeV P pkg c = some z ∧ convert (.int 0) z = some (.int n)

theorem wp_maxE {S : Sem ω} {ρ : Env} {D : Nat → Prop} {st : St ω} {x : Nat} {c : Option Gen.Val} {m : Int} (hE : EnvOK ρ st D x)
    (h : c = none ∧ m = -1 ∨ ∃ v n, c = some v ∧ m = ((n : Nat) : Int) ∧ MaxIs S.prog pkg v n) (Q : List V → St ω → Prop) (st' : St ω) :
    wp (evalM S pkg ρ (maxE c)) Q st' = Q [.int m] st' := by
  have h4 := hE.other "int" (by decide)
  rcases h with ⟨rfl, rfl⟩ | ⟨v, n, rfl, rfl, z, hv, hz⟩ <;> rw [maxE]
  · go_run [h4, isType_int', zero_int', wp_neg]
    rfl
  · go_run [h4, isType_int', zero_int', wp_valE hE hv]
    unfold convert at hz
    rw [hz]

theorem maxOf_cases {P : Prog} {g : Gen.GoProg} {c : Option Gen.Val} {m : Int} (hm : Gen.maxOf g.const c = some m)
    (hs : ∀ v, c = some v → ∀ n, g.const v = some n → MaxIs P pkg v n) :
    c = none ∧ m = -1 ∨ ∃ v n, c = some v ∧ m = ((n : Nat) : Int) ∧ MaxIs P pkg v n := by
  cases c with
  | none => cases hm; exact .inl ⟨rfl, rfl⟩
  | some v =>
    rw [Gen.maxOf] at hm
    cases h : g.const v with
    | none => rw [h] at hm; cases hm
    | some n => rw [h] at hm; cases hm; exact .inr ⟨v, n, rfl, rfl, hs v rfl n h⟩

theorem does_varArray (hP : PkgOK Ps pkg) {c : Option Gen.Val} {m : Int}
    (hm : c = none ∧ m = -1 ∨ ∃ v n, c = some v ∧ m = ((n : Nat) : Int) ∧ MaxIs (xdrPkg :: Ps) pkg v n) :
    Does 𝕊 pkg u e [.expr (.call (.sel (.id "xdr") "XdrVarArray")
      [.id "xs", maxE c, .call (.un "*" (.ty (.slice (.name "byte")))) [e] false] false)] (Gen.libVarArray m) := by
  intro rd st x a w t p xs ok v ρ D y xs' y' hA hp hE hD hR hF
  obtain ⟨-, T, hT⟩ := hp ρ st (.refl _ _) fun _ _ => rfl
  obtain ⟨ix, h1, h2, h3⟩ := hE.xs
  have h4 := hE.other "xdr" (by decide)
  have hmx := fun Q st' => wp_maxE (S := 𝕊) (pkg := pkg) hE hm Q st'
  go_run [h1, h3, h4, hP.imp, hT, hmx]
  cases y <;> cases hF
  cases hR with
  | bytes hg hs =>
  refine wp_mono (XdrVarArray_spec E k hA.hx m _ t p _ _ hA.cell hg (fun s h => ?_) hA.tlt hA.tx hA.ta hA.tw) ?_
  · have := hs s h
    exact ⟨this.1, (hA.hok _ this.2).1, (hA.hok _ this.2).2.1⟩
  rintro _ st1 ⟨-, hpost, v', hput, hg', hv'⟩
  have hw := hA.w
  obtain ⟨w', h⟩ := Did.post hA hpost (varArray_rd _ _ _) hput fun e => by
    subst e
    rw [varArray_same hA.hr] at hg'
    rcases hv' with rfl | rfl | ⟨h, -⟩
    · rfl
    · cases hg'; cases hg; rfl
    · exact absurd hw h
  refine ⟨rfl, w', _, h, .bytes hg' fun s e => ?_⟩
  have := h.keeps.next
  rcases hv' with rfl | rfl | ⟨h', o, n, rfl⟩
  · have := hs s e
    exact ⟨by omega, .inl this.2⟩
  · cases e
  · cases e
    have := hA.hx.alt
    refine ⟨by dsimp only; omega, ?_⟩
    cases rd with
    | true => exact .inr ⟨rfl, .inl ⟨rfl, h'⟩⟩
    | false => exact absurd hw h'

theorem does_string (hP : PkgOK Ps pkg) {c : Option Gen.Val} {m : Int}
    (hm : c = none ∧ m = -1 ∨ ∃ v n, c = some v ∧ m = ((n : Nat) : Int) ∧ MaxIs (xdrPkg :: Ps) pkg v n) :
    Does 𝕊 pkg u e [.expr (.call (.sel (.id "xdr") "XdrString")
      [.id "xs", maxE c, .call (.un "*" (.id "string")) [e] false] false)] (Gen.libString m) := by
  intro rd st x a w t p xs ok v ρ D y xs' y' hA hp hE hD hR hF
  obtain ⟨-, T, hT⟩ := hp ρ st (.refl _ _) fun _ _ => rfl
  obtain ⟨ix, h1, h2, h3⟩ := hE.xs
  have h4 := hE.other "xdr" (by decide)
  have hmx := fun Q st' => wp_maxE (S := 𝕊) (pkg := pkg) hE hm Q st'
  go_run [h1, h3, h4, hP.imp, hT, hmx]
  cases y <;> cases hF
  cases hR
  refine wp_mono (XdrString_spec E k hA.hx m _ t p _ hA.cell hA.tlt hA.tx hA.ta hA.tw) ?_
  rintro _ st1 ⟨-, hpost, hput⟩
  obtain ⟨w', h⟩ := Did.post hA hpost (string_rd _ _ _) hput fun e => by rw [string_same (hA.hr.trans e)]
  exact ⟨rfl, w', _, h, .str _⟩

theorem does_array (hP : PkgOK Ps pkg) :
    Does 𝕊 pkg u e [.expr (.call (.sel (.id "xdr") "XdrArray") [.id "xs", .slc (.un "*" e) none none none] false)] Gen.libArray := by
  intro rd st x a w t p xs ok v ρ D y xs' y' hA hp hE hD hR hF
  obtain ⟨-, T, hT⟩ := hp ρ st (.refl _ _) fun _ _ => rfl
  obtain ⟨ix, h1, h2, h3⟩ := hE.xs
  have h4 := hE.other "xdr" (by decide)
  cases y <;> cases hF
  cases hR with
  | barr =>
  rename_i b
  have hc := hA.cell
  go_run [h1, h3, h4, hP.imp, hT, hc]
  have hs : sub ⟨⟨t, p⟩, 0, b.length, b.length⟩ b = b := by simp [sub]
  have hx := XdrArray_spec (Ps := Ps) E k hA.hx ⟨⟨t, p⟩, 0, b.length, b.length⟩ b ⟨hc, by simp, by simp⟩ hA.tlt hA.tx hA.ta hA.tw
  rw [hs] at hx
  refine wp_mono hx ?_
  rintro _ st1 ⟨-, hpost, hput⟩
  have ho : overwrite b 0 (Xdr.xdrArray xs b).2 = (Xdr.xdrArray xs b).2 := by
    have := array_length xs b
    simp [overwrite, this]
  dsimp only at hput
  rw [ho] at hput
  obtain ⟨w', h⟩ := Did.post hA hpost (array_rd _ _) hput fun e => by rw [array_same (hA.hr.trans e)]
  exact ⟨rfl, w', _, h, .barr _⟩

end
end Verif.Lang.Text
