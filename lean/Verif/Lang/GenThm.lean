/-
Generated code does what the functions of Verif.Gen.Codec do: all declarations.
-/
import Verif.Lang.GenUnion
import Verif.Gen.Supported

namespace Verif.Lang.Text
open Verif.Xdr (XErr XdrState)
variable {ω : Type} {Ps : Prog}
set_option linter.unusedSimpArgs false

/-! ### Conditions that can be computed -/

/-- The kind of a discriminant type. -/
def kindD (defs : String → Option Gen.DeclType) : Nat → Gen.DeclType → Option Gen.Kind
  | _, .typespec (.int true) => some .u32
  | _, .typespec (.int false) => some .i32
  | _, .typespec (.hyper true) => some .u64
  | _, .typespec (.hyper false) => some .i64
  | _, .typespec .bool => some .bool
  | k + 1, .typespec (.ident n) => (defs (Gen.i n)).bind (kindD defs k)
  | _, _ => none

/-- The zero values are the same, and the elements are not bytes. -/
def ZeroP (P : Prog) (pkg : String) (g : Gen.GoProg) (t : Gen.Typespec) : Prop :=
  ∀ gt, t.goType = some gt → ZeroOK P pkg (tyG gt) (g.zero gt) ∧ tyG gt ≠ .name "byte"

/-- The maximum is the same number, and can be compared with a `uint32`. -/
def SizeP (P : Prog) (pkg : String) (g : Gen.GoProg) (c : Option Gen.Val) : Prop :=
  ∀ v, c = some v → ∀ n, g.const v = some n → SizeIs P pkg v n

/-- The maximum is the same number. -/
def MaxP (P : Prog) (pkg : String) (g : Gen.GoProg) (c : Option Gen.Val) : Prop :=
  ∀ v, c = some v → ∀ n, g.const v = some n → MaxIs P pkg v n

mutual
/-- What the theorems below need: no array is the element of an array without a name of its own, and maximum sizes,
labels and zero values are the same in the package as read as in the one that was printed. -/
def tsOk (P : Prog) (pkg : String) (g : Gen.GoProg) (defs : String → Option Gen.DeclType) (K : Nat) (arr : Bool) : Gen.Typespec → Prop
  | .struct ds => dsOk P pkg g defs K arr ds
  | .union sw cs =>
    match sw with
    | .void => False
    | .name t _ => dtOk P pkg g defs K arr t ∧ ∃ κ, kindD defs K t = some κ ∧ csOk P pkg g defs K arr κ cs
  | _ => True
def dtOk (P : Prog) (pkg : String) (g : Gen.GoProg) (defs : String → Option Gen.DeclType) (K : Nat) (arr : Bool) : Gen.DeclType → Prop
  | .typespec t => tsOk P pkg g defs K arr t
  | .array _ _ => False
  | .varArray t m => arr = false ∧ tsOk P pkg g defs K true t ∧ ZeroP P pkg g t ∧ SizeP P pkg g m
  | .opaqueArray _ => True
  | .opaqueVarArray m => MaxP P pkg g m
  | .string m => MaxP P pkg g m
  | .ptr t => tsOk P pkg g defs K arr t ∧ ZeroP P pkg g t
def dcOk (P : Prog) (pkg : String) (g : Gen.GoProg) (defs : String → Option Gen.DeclType) (K : Nat) (arr : Bool) : Gen.Decl → Prop
  | .void => True
  | .name t _ => dtOk P pkg g defs K arr t
def dsOk (P : Prog) (pkg : String) (g : Gen.GoProg) (defs : String → Option Gen.DeclType) (K : Nat) (arr : Bool) : Gen.Decls → Prop
  | .nil => True
  | .cons d ds => dcOk P pkg g defs K arr d ∧ dsOk P pkg g defs K arr ds
def csOk (P : Prog) (pkg : String) (g : Gen.GoProg) (defs : String → Option Gen.DeclType) (K : Nat) (arr : Bool) (κ : Gen.Kind) : Gen.Cases → Prop
  | .nil => True
  | .dflt d => dcOk P pkg g defs K arr d
  | .cons l more d cs => (l :: more).all (labelOk P pkg g κ) = true ∧ dcOk P pkg g defs K arr d ∧ csOk P pkg g defs K arr κ cs
end

theorem stmtsG_append : ∀ a b : Gen.Stmts, stmtsG (a ++ b) = stmtsG a ++ stmtsG b
  | .nil, b => by rw [stmtsG]; rfl
  | .cons s a, b => by
    show stmtsG (.cons s (a ++ b)) = _
    rw [stmtsG, stmtsG, stmtsG_append a b]
    rfl

section
variable {E : Ext ω} {k : Nat} {pkg : String} {g : Gen.GoProg} {call : Gen.Call} {defs : String → Option Gen.DeclType} {K : Nat}
local notation "𝕊" => (Sem.mk (xdrPkg :: Ps) (callN (xdrPkg :: Ps) E (k + 2)) E.ext E.spawn E.grow E.loops : Sem ω)

theorem Does.stuck {S : Sem ω} {u : Bool} {e : Expr} {b : List Stmt} {F : XdrState → Gen.GoVal → Gen.Res (XdrState × Gen.GoVal)}
    (h : ∀ xs v, F xs v = .error .stuck) : Does S pkg u e b F := by
  intro rd st x a w t p xs ok v ρ D y xs' y' hA hp hE hD hR hF
  rw [h] at hF
  cases hF

theorem Does.congr {S : Sem ω} {u : Bool} {e : Expr} {b : List Stmt} {F G : XdrState → Gen.GoVal → Gen.Res (XdrState × Gen.GoVal)}
    (h : Does S pkg u e b F) (hg : ∀ xs v, G xs v = F xs v) : Does S pkg u e b G := by
  have : G = F := by funext xs v; exact hg xs v
  rw [this]; exact h

theorem DoesF.congr {S : Sem ω} {u : Bool} {e : Expr} {b : List Stmt}
    {F G : XdrState → List (String × Gen.GoVal) → Gen.Res (XdrState × List (String × Gen.GoVal))}
    (h : DoesF S pkg u e b F) (hg : ∀ xs v, G xs v = F xs v) : DoesF S pkg u e b G := by
  have : G = F := by funext xs v; exact hg xs v
  rw [this]; exact h

theorem DoesC.congr {S : Sem ω} {u : Bool} {e : Expr} {c : List (List Expr) × List (List Stmt)} {κ : Gen.Kind}
    {F G : Gen.GoVal → XdrState → List (String × Gen.GoVal) → Gen.Res (XdrState × List (String × Gen.GoVal))}
    (h : DoesC S pkg u e c κ F) (hg : ∀ d xs v, G d xs v = F d xs v) : DoesC S pkg u e c κ G := by
  have : G = F := by funext d xs v; exact hg d xs v
  rw [this]; exact h

/-- `F` after looking up the maximum. -/
theorem Does.orStuck {S : Sem ω} {u : Bool} {e : Expr} {b : List Stmt} {α : Type} {o : Option α}
    {F : α → XdrState → Gen.GoVal → Gen.Res (XdrState × Gen.GoVal)} (h : ∀ m, o = some m → Does S pkg u e b (F m)) :
    Does S pkg u e b (fun xs v => Gen.orStuck o >>= fun m => F m xs v) := by
  cases o with
  | none => exact .stuck fun _ _ => rfl
  | some m => exact (h m rfl).congr fun _ _ => rfl

mutual
theorem tsDoes (hP : PkgOK Ps pkg) (hloop : 2 ^ 32 ≤ E.loops) (hcall : ∀ n, CallOK 𝕊 pkg (Gen.i n) (call (Gen.i n)))
    (hkind : ∀ t κ, kindD defs K t = some κ → ∀ {xs v xs' v'}, t.codec g call xs v = .ok (xs', v') → Gen.ofKind κ v')
    (t : Gen.Typespec) (u : Bool) (p : Gen.Ex) (s : Gen.Stmts) (hs : t.goXdr p = some s) (hok : tsOk (xdrPkg :: Ps) pkg g defs K u t) :
    Does 𝕊 pkg u (exG p) (stmtsG s) (fun xs v => t.codec g call xs v) := by
  cases t with
  | int b =>
    cases b <;> simp only [Gen.Typespec.goXdr] at hs <;> cases hs <;> simp only [stmtsG, stmtG]
    · exact (does_i32 hP).congr fun _ _ => by rw [Gen.Typespec.codec]
    · exact (does_u32 hP).congr fun _ _ => by rw [Gen.Typespec.codec]
  | hyper b =>
    cases b <;> simp only [Gen.Typespec.goXdr] at hs <;> cases hs <;> simp only [stmtsG, stmtG]
    · exact (does_i64 hP).congr fun _ _ => by rw [Gen.Typespec.codec]
    · exact (does_u64 hP).congr fun _ _ => by rw [Gen.Typespec.codec]
  | float => exact .stuck fun _ _ => by rw [Gen.Typespec.codec]
  | double => exact .stuck fun _ _ => by rw [Gen.Typespec.codec]
  | quadruple => exact .stuck fun _ _ => by rw [Gen.Typespec.codec]
  | bool =>
    simp only [Gen.Typespec.goXdr] at hs; cases hs; simp only [stmtsG, stmtG]
    exact (does_bool hP).congr fun _ _ => by rw [Gen.Typespec.codec]
  | enum items => exact .stuck fun _ _ => by rw [Gen.Typespec.codec]
  | ident n =>
    simp only [Gen.Typespec.goXdr] at hs; cases hs; simp only [stmtsG, stmtG]
    exact (does_call (hcall n)).congr fun _ _ => by rw [Gen.Typespec.codec]
  | struct ds =>
    simp only [Gen.Typespec.goXdr] at hs
    simp only [tsOk] at hok
    refine (dsDoes hP hloop hcall hkind ds u p s hs hok).struct.congr fun xs v => ?_
    cases v <;> simp only [Gen.Typespec.codec]
  | union sw cs =>
    cases sw with
    | void => simp [tsOk] at hok
    | name t n =>
      simp only [Gen.Typespec.goXdr] at hs
      obtain ⟨s1, hs1, hs⟩ := Gen.Option.bind_inv hs
      obtain ⟨c, hc, hs⟩ := Gen.Option.bind_inv hs
      cases hs
      simp only [tsOk] at hok
      obtain ⟨hok1, κ, hk, hok2⟩ := hok
      · rw [stmtsG_append]
        simp only [stmtsG, stmtG]
        refine (does_union (dtDoes hP hloop hcall hkind t u _ s1 hs1 hok1) (hkind t κ hk) (csDoes hP hloop hcall hkind cs u κ p c hc hok2)).congr
          fun xs v => ?_
        cases v with
        | struct fs =>
          cases fs with
          | nil => simp only [Gen.Typespec.codec]
          | cons a fs =>
            obtain ⟨f, d⟩ := a
            simp only [Gen.Typespec.codec]
        | _ => simp only [Gen.Typespec.codec]
theorem dtDoes (hP : PkgOK Ps pkg) (hloop : 2 ^ 32 ≤ E.loops) (hcall : ∀ n, CallOK 𝕊 pkg (Gen.i n) (call (Gen.i n)))
    (hkind : ∀ t κ, kindD defs K t = some κ → ∀ {xs v xs' v'}, t.codec g call xs v = .ok (xs', v') → Gen.ofKind κ v')
    (t : Gen.DeclType) (u : Bool) (p : Gen.Ex) (s : Gen.Stmts) (hs : t.goXdr p = some s) (hok : dtOk (xdrPkg :: Ps) pkg g defs K u t) :
    Does 𝕊 pkg u (exG p) (stmtsG s) (fun xs v => t.codec g call xs v) := by
  cases t with
  | typespec t =>
    simp only [Gen.DeclType.goXdr] at hs
    simp only [dtOk] at hok
    exact (tsDoes hP hloop hcall hkind t u p s hs hok).congr fun _ _ => by rw [Gen.DeclType.codec]
  | array t sz => simp [dtOk] at hok
  | varArray t m =>
    simp only [Gen.DeclType.goXdr] at hs
    obtain ⟨b, hb, hs⟩ := Gen.Option.bind_inv hs
    obtain ⟨gt, hgt, hs⟩ := Gen.Option.bind_inv hs
    cases hs
    simp only [dtOk] at hok
    obtain ⟨rfl, hok1, hz, hm⟩ := hok
    obtain ⟨hz, hty⟩ := hz gt hgt
    have hzt : t.goType.bind g.zero = g.zero gt := by rw [hgt]; rfl
    rw [← hzt] at hz
    have hb := tsDoes hP hloop hcall hkind t true _ b hb hok1
    cases m with
    | none =>
      have h := does_slice hP hz hty hloop (c := none) (m := none) (.inl ⟨rfl, rfl⟩) hb
      refine Does.congr (F := Gen.codecVar none (t.goType.bind g.zero) (fun xs v => t.codec g call xs v)) ?_ fun _ _ => by rw [Gen.DeclType.codec]
      exact h
    | some c =>
      refine Does.congr (Does.orStuck (o := g.const c) (F := fun m => Gen.codecVar (some m) (t.goType.bind g.zero) (fun xs v => t.codec g call xs v))
        fun n hn => ?_) fun _ _ => by rw [Gen.DeclType.codec]
      exact does_slice hP hz hty hloop (c := some c) (m := some n) (.inr ⟨c, n, rfl, rfl, hm c rfl n hn⟩) hb
  | opaqueArray c =>
    simp only [Gen.DeclType.goXdr] at hs; cases hs; simp only [stmtsG, stmtG]
    exact (does_array hP).congr fun _ _ => by rw [Gen.DeclType.codec]
  | opaqueVarArray c =>
    simp only [Gen.DeclType.goXdr] at hs; cases hs; simp only [stmtsG, stmtG]
    simp only [dtOk] at hok
    refine Does.congr (Does.orStuck (o := Gen.maxOf g.const c) (F := fun m => Gen.libVarArray m) fun m hm => ?_) fun _ _ => by rw [Gen.DeclType.codec]
    exact does_varArray hP (maxOf_cases hm hok)
  | string c =>
    simp only [Gen.DeclType.goXdr] at hs; cases hs; simp only [stmtsG, stmtG]
    simp only [dtOk] at hok
    refine Does.congr (Does.orStuck (o := Gen.maxOf g.const c) (F := fun m => Gen.libString m) fun m hm => ?_) fun _ _ => by rw [Gen.DeclType.codec]
    exact does_string hP (maxOf_cases hm hok)
  | ptr t =>
    simp only [Gen.DeclType.goXdr] at hs
    obtain ⟨b, hb, hs⟩ := Gen.Option.bind_inv hs
    obtain ⟨gt, hgt, hs⟩ := Gen.Option.bind_inv hs
    cases hs
    simp only [dtOk] at hok
    obtain ⟨hz, -⟩ := hok.2 gt hgt
    have hzt : t.goType.bind g.zero = g.zero gt := by rw [hgt]; rfl
    rw [← hzt] at hz
    have hb := tsDoes hP hloop hcall hkind t u _ b hb hok.1
    exact (does_ptr hP hz hb).congr fun _ _ => by rw [Gen.DeclType.codec]
theorem dcDoes (hP : PkgOK Ps pkg) (hloop : 2 ^ 32 ≤ E.loops) (hcall : ∀ n, CallOK 𝕊 pkg (Gen.i n) (call (Gen.i n)))
    (hkind : ∀ t κ, kindD defs K t = some κ → ∀ {xs v xs' v'}, t.codec g call xs v = .ok (xs', v') → Gen.ofKind κ v')
    (d : Gen.Decl) (u : Bool) (p : Gen.Ex) (s : Gen.Stmts) (hs : d.goXdr p = some s) (hok : dcOk (xdrPkg :: Ps) pkg g defs K u d) :
    DoesF 𝕊 pkg u (exG p) (stmtsG s) (fun xs fs => d.codec g call xs fs) := by
  cases d with
  | void =>
    simp only [Gen.Decl.goXdr] at hs
    cases hs
    rw [stmtsG]
    exact DoesF.nil.congr fun _ _ => by rw [Gen.Decl.codec]
  | name t n =>
    simp only [Gen.Decl.goXdr] at hs
    simp only [dcOk] at hok
    refine (Does.field (n := Gen.i n) (dtDoes hP hloop hcall hkind t u _ s hs hok)).congr fun xs fs => ?_
    cases fs with
    | nil => rw [Gen.Decl.codec]
    | cons a fs => obtain ⟨f, w⟩ := a; rw [Gen.Decl.codec]
theorem dsDoes (hP : PkgOK Ps pkg) (hloop : 2 ^ 32 ≤ E.loops) (hcall : ∀ n, CallOK 𝕊 pkg (Gen.i n) (call (Gen.i n)))
    (hkind : ∀ t κ, kindD defs K t = some κ → ∀ {xs v xs' v'}, t.codec g call xs v = .ok (xs', v') → Gen.ofKind κ v')
    (ds : Gen.Decls) (u : Bool) (p : Gen.Ex) (s : Gen.Stmts) (hs : ds.goXdr p = some s) (hok : dsOk (xdrPkg :: Ps) pkg g defs K u ds) :
    DoesF 𝕊 pkg u (exG p) (stmtsG s) (fun xs fs => ds.codec g call xs fs) := by
  cases ds with
  | nil =>
    simp only [Gen.Decls.goXdr] at hs
    cases hs
    rw [stmtsG]
    exact DoesF.nil.congr fun _ _ => by rw [Gen.Decls.codec]
  | cons d ds =>
    simp only [Gen.Decls.goXdr] at hs
    obtain ⟨s1, hs1, hs⟩ := Gen.Option.bind_inv hs
    obtain ⟨s2, hs2, hs⟩ := Gen.Option.bind_inv hs
    cases hs
    simp only [dsOk] at hok
    have h2 := dsDoes hP hloop hcall hkind ds u p s2 hs2 hok.2
    rw [stmtsG_append]
    cases d with
    | void =>
      simp only [Gen.Decl.goXdr] at hs1
      cases hs1
      rw [stmtsG, List.nil_append]
      exact h2.congr fun _ _ => by rw [Gen.Decls.codec]
    | name t n =>
      simp only [Gen.Decl.goXdr] at hs1
      simp only [dcOk] at hok
      refine (DoesF.cons (n := Gen.i n) (dtDoes hP hloop hcall hkind t u _ s1 hs1 hok.1) h2).congr fun xs fs => ?_
      cases fs with
      | nil => rw [Gen.Decls.codec]
      | cons a fs => obtain ⟨f, w⟩ := a; rw [Gen.Decls.codec]
theorem csDoes (hP : PkgOK Ps pkg) (hloop : 2 ^ 32 ≤ E.loops) (hcall : ∀ n, CallOK 𝕊 pkg (Gen.i n) (call (Gen.i n)))
    (hkind : ∀ t κ, kindD defs K t = some κ → ∀ {xs v xs' v'}, t.codec g call xs v = .ok (xs', v') → Gen.ofKind κ v')
    (cs : Gen.Cases) (u : Bool) (κ : Gen.Kind) (p : Gen.Ex) (c : Gen.GoCases) (hs : cs.goXdr p = some c)
    (hok : csOk (xdrPkg :: Ps) pkg g defs K u κ cs) :
    DoesC 𝕊 pkg u (exG p) (casesG c) κ (fun d xs fs => cs.codec g call d xs fs) := by
  cases cs with
  | nil =>
    simp only [Gen.Cases.goXdr] at hs
    cases hs
    exact DoesC.nil.congr fun _ _ _ => by rw [Gen.Cases.codec]
  | dflt d =>
    simp only [Gen.Cases.goXdr] at hs
    obtain ⟨s, hs1, hs⟩ := Gen.Option.bind_inv hs
    cases hs
    simp only [csOk] at hok
    exact (DoesC.dflt (dcDoes hP hloop hcall hkind d u p s hs1 hok)).congr fun _ _ _ => by rw [Gen.Cases.codec]
  | cons l more d cs =>
    simp only [Gen.Cases.goXdr] at hs
    obtain ⟨s, hs1, hs⟩ := Gen.Option.bind_inv hs
    obtain ⟨c, hs2, hs⟩ := Gen.Option.bind_inv hs
    cases hs
    simp only [csOk] at hok
    exact DoesC.cons hok.1 (dcDoes hP hloop hcall hkind d u p s hs1 hok.2.1) (csDoes hP hloop hcall hkind cs u κ p c hs2 hok.2.2)
end
end

end Verif.Lang.Text
