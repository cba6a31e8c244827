/-
The codec of named types, and its relation to running the generated methods.
-/
import Verif.Gen.CompileThm

namespace Verif.Gen
open Verif.Xdr

/-- The codec of a type definition: `emitTypedef` wraps pointer types in a struct (out.go:453-456). -/
def topCodec (g : GoProg) (call : Call) (t : DeclType) (xs : XdrState) (v : GoVal) :
    Res (XdrState × GoVal) :=
  match t with
  | .ptr t =>
    match v with
    | .struct [(f, w)] =>
      if f = "P" then do
        let (xs, w) ← DeclType.codec g call (.ptr t) xs w
        pure (xs, .struct [(f, w)])
      else .error .stuck
    | _ => .error .stuck
  | t => t.codec g call xs v

/-- The codec of a named type, with at most `k` nested names. -/
def codecN (g : GoProg) (defs : Ident → Option DeclType) : Nat → Call
  | 0, _, _, _ => .error .fuel
  | k + 1, n, xs, v =>
    match defs n with
    | some t => topCodec g (codecN g defs k) t xs v
    | none => .error .stuck

/-! ### Monotonicity -/

/-- `r2` succeeds whenever `r1` does, with the same result. -/
def Le {α} (r1 r2 : Res α) : Prop := ∀ a, r1 = .ok a → r2 = .ok a

theorem Le.refl {α} (r : Res α) : Le r r := fun _ h => h

theorem Le.bind {α β} {r1 r2 : Res α} {f1 f2 : α → Res β} (h : Le r1 r2)
    (hf : ∀ a, Le (f1 a) (f2 a)) : Le (r1 >>= f1) (r2 >>= f2) := by
  intro b hb
  cases h1 : r1 with
  | error s => rw [h1] at hb; cases hb
  | ok a =>
    rw [h1] at hb
    rw [h a h1]
    exact hf a b hb

theorem Le.ite {α} {c : Prop} [Decidable c] {a a' b b' : Res α} (h1 : Le a a') (h2 : Le b b') :
    Le (if c then a else b) (if c then a' else b') := by
  split
  · exact h1
  · exact h2

theorem codecElems_mono {f1 f2 : XdrState → GoVal → Res (XdrState × GoVal)}
    (hf : ∀ xs v, Le (f1 xs v) (f2 xs v)) : ∀ (n : Nat) (xs : XdrState) (l : List GoVal),
      Le (codecElems f1 n xs l) (codecElems f2 n xs l)
  | 0, xs, l => Le.refl _
  | n + 1, xs, [] => Le.refl _
  | n + 1, xs, w :: l => by
    simp only [codecElems]
    exact Le.bind (hf _ _) fun a => Le.bind (codecElems_mono hf n _ _) fun b => Le.refl _

theorem codecVar_mono {f1 f2 : XdrState → GoVal → Res (XdrState × GoVal)}
    (hf : ∀ xs v, Le (f1 xs v) (f2 xs v)) (mx : Option Nat) (z : Option GoVal) (xs : XdrState)
    (v : GoVal) : Le (codecVar mx z f1 xs v) (codecVar mx z f2 xs v) := by
  cases v with
  | slice o =>
    simp only [codecVar]
    refine Le.ite (Le.refl _) (Le.ite ?_ ?_)
    · exact Le.bind (Le.refl _) fun z => Le.bind (codecElems_mono hf _ _ _) fun a => Le.refl _
    · cases o with
      | none => exact Le.refl _
      | some l => exact Le.bind (codecElems_mono hf _ _ _) fun a => Le.refl _
  | _ => exact Le.refl _

theorem codecPtr_mono {f1 f2 : XdrState → GoVal → Res (XdrState × GoVal)}
    (hf : ∀ xs v, Le (f1 xs v) (f2 xs v)) (z : Option GoVal) (xs : XdrState)
    (v : GoVal) : Le (codecPtr z f1 xs v) (codecPtr z f2 xs v) := by
  cases v with
  | ptr o =>
    simp only [codecPtr]
    refine Le.bind ?_ fun a => Le.bind ?_ fun b => Le.refl _
    · simp only [codecPtrEnc]
      refine Le.ite (Le.ite ?_ (Le.refl _)) (Le.refl _)
      cases o with
      | none => exact Le.refl _
      | some w => exact Le.bind (hf _ _) fun a => Le.refl _
    · simp only [codecPtrDec]
      refine Le.ite (Le.ite ?_ (Le.refl _)) (Le.refl _)
      exact Le.bind (Le.refl _) fun z => Le.bind (hf _ _) fun a => Le.refl _
  | _ => exact Le.refl _

mutual
theorem Typespec.codec_mono {g : GoProg} {c1 c2 : Call} (hc : ∀ n xs v, Le (c1 n xs v) (c2 n xs v)) :
    ∀ (t : Typespec) (xs : XdrState) (v : GoVal), Le (t.codec g c1 xs v) (t.codec g c2 xs v)
  | .int true, xs, v => by simp only [Typespec.codec]; exact Le.refl _
  | .int false, xs, v => by simp only [Typespec.codec]; exact Le.refl _
  | .hyper true, xs, v => by simp only [Typespec.codec]; exact Le.refl _
  | .hyper false, xs, v => by simp only [Typespec.codec]; exact Le.refl _
  | .float, xs, v => by simp only [Typespec.codec]; exact Le.refl _
  | .double, xs, v => by simp only [Typespec.codec]; exact Le.refl _
  | .quadruple, xs, v => by simp only [Typespec.codec]; exact Le.refl _
  | .bool, xs, v => by simp only [Typespec.codec]; exact Le.refl _
  | .enum _, xs, v => by simp only [Typespec.codec]; exact Le.refl _
  | .struct ds, xs, v => by
    simp only [Typespec.codec]
    cases v with
    | struct fs => exact Le.bind (Decls.codec_mono hc ds xs fs) fun a => Le.refl _
    | _ => exact Le.refl _
  | .union sw cs, xs, v => by
    cases sw with
    | void => unfold Typespec.codec; exact Le.refl _
    | name t n =>
      unfold Typespec.codec
      cases v with
      | struct fs =>
        cases fs with
        | nil => exact Le.refl _
        | cons a arms =>
          obtain ⟨f, d⟩ := a
          refine Le.ite ?_ (Le.refl _)
          exact Le.bind (DeclType.codec_mono hc t xs d) fun a =>
            Le.bind (Cases.codec_mono hc _ cs _ _) fun b => Le.refl _
      | _ => exact Le.refl _
  | .ident n, xs, v => by simp only [Typespec.codec]; exact hc _ xs v
theorem DeclType.codec_mono {g : GoProg} {c1 c2 : Call} (hc : ∀ n xs v, Le (c1 n xs v) (c2 n xs v)) :
    ∀ (t : DeclType) (xs : XdrState) (v : GoVal), Le (t.codec g c1 xs v) (t.codec g c2 xs v)
  | .typespec t, xs, v => by simp only [DeclType.codec]; exact Typespec.codec_mono hc t xs v
  | .array _ _, xs, v => by simp only [DeclType.codec]; exact Le.refl _
  | .varArray t none, xs, v => by
    simp only [DeclType.codec]
    exact codecVar_mono (fun xs v => Typespec.codec_mono hc t xs v) _ _ xs v
  | .varArray t (some m), xs, v => by
    simp only [DeclType.codec]
    exact Le.bind (Le.refl _) fun m =>
      codecVar_mono (fun xs v => Typespec.codec_mono hc t xs v) _ _ xs v
  | .opaqueArray _, xs, v => by simp only [DeclType.codec]; exact Le.refl _
  | .opaqueVarArray _, xs, v => by simp only [DeclType.codec]; exact Le.refl _
  | .string _, xs, v => by simp only [DeclType.codec]; exact Le.refl _
  | .ptr t, xs, v => by
    simp only [DeclType.codec]
    exact codecPtr_mono (fun xs v => Typespec.codec_mono hc t xs v) _ xs v
theorem Decl.codec_mono {g : GoProg} {c1 c2 : Call} (hc : ∀ n xs v, Le (c1 n xs v) (c2 n xs v)) :
    ∀ (d : Decl) (xs : XdrState) (fs : List (Ident × GoVal)),
      Le (d.codec g c1 xs fs) (d.codec g c2 xs fs)
  | .void, xs, fs => by simp only [Decl.codec]; exact Le.refl _
  | .name t n, xs, [] => by simp only [Decl.codec]; exact Le.refl _
  | .name t n, xs, (f, w) :: fs => by
    simp only [Decl.codec]
    exact Le.ite (Le.bind (DeclType.codec_mono hc t xs w) fun a => Le.refl _) (Le.refl _)
theorem Decls.codec_mono {g : GoProg} {c1 c2 : Call} (hc : ∀ n xs v, Le (c1 n xs v) (c2 n xs v)) :
    ∀ (ds : Decls) (xs : XdrState) (fs : List (Ident × GoVal)),
      Le (ds.codec g c1 xs fs) (ds.codec g c2 xs fs)
  | .nil, xs, fs => by simp only [Decls.codec]; exact Le.refl _
  | .cons .void ds, xs, fs => by simp only [Decls.codec]; exact Decls.codec_mono hc ds xs fs
  | .cons (.name t n) ds, xs, [] => by simp only [Decls.codec]; exact Le.refl _
  | .cons (.name t n) ds, xs, (f, w) :: fs => by
    simp only [Decls.codec]
    exact Le.ite (Le.bind (DeclType.codec_mono hc t xs w) fun a =>
      Le.bind (Decls.codec_mono hc ds _ _) fun b => Le.refl _) (Le.refl _)
theorem Cases.codec_mono {g : GoProg} {c1 c2 : Call} (hc : ∀ n xs v, Le (c1 n xs v) (c2 n xs v))
    (d : GoVal) : ∀ (cs : Cases) (xs : XdrState) (fs : List (Ident × GoVal)),
      Le (cs.codec g c1 d xs fs) (cs.codec g c2 d xs fs)
  | .nil, xs, fs => by simp only [Cases.codec]; exact Le.refl _
  | .dflt b, xs, fs => by simp only [Cases.codec]; exact Decl.codec_mono hc b xs fs
  | .cons l more b cs, xs, fs => by
    simp only [Cases.codec]
    refine Le.bind (Le.refl _) fun m => Le.ite (Decl.codec_mono hc b xs fs) ?_
    cases b with
    | void => exact Cases.codec_mono hc d cs xs fs
    | name t n =>
      cases fs with
      | nil => exact Le.refl _
      | cons a fs =>
        obtain ⟨f, w⟩ := a
        exact Le.ite (Le.bind (Cases.codec_mono hc d cs xs fs) fun a => Le.refl _) (Le.refl _)
end

theorem topCodec_mono {g : GoProg} {c1 c2 : Call} (hc : ∀ n xs v, Le (c1 n xs v) (c2 n xs v))
    (t : DeclType) (xs : XdrState) (v : GoVal) : Le (topCodec g c1 t xs v) (topCodec g c2 t xs v) := by
  unfold topCodec
  split
  · split
    · exact Le.ite (Le.bind (DeclType.codec_mono hc _ xs _) fun a => Le.refl _) (Le.refl _)
    · exact Le.refl _
  · exact DeclType.codec_mono hc t xs v

theorem codecN_succ (g : GoProg) (defs : Ident → Option DeclType) (k : Nat) :
    ∀ n xs v, Le (codecN g defs k n xs v) (codecN g defs (k + 1) n xs v) := by
  induction k with
  | zero => intro n xs v a h; cases h
  | succ k ih =>
    intro n xs v
    unfold codecN
    cases defs n with
    | none => exact Le.refl _
    | some t => exact topCodec_mono ih t xs v

theorem codecN_le {g : GoProg} {defs : Ident → Option DeclType} {k k' : Nat} (h : k ≤ k') (n : Ident)
    (xs : XdrState) (v : GoVal) : Le (codecN g defs k n xs v) (codecN g defs k' n xs v) := by
  induction h with
  | refl => exact Le.refl _
  | step _ ih => exact fun a ha => codecN_succ g defs _ n xs v a (ih a ha)

/-! ### Running the generated methods -/

/-- The body of the method generated for a definition. -/
def topXdr (t : DeclType) : Option Stmts :=
  match t with
  | .ptr t => DeclType.goXdr (.ptr t) (.addr (.field .recv "P"))
  | t => t.goXdr .recv

theorem loadPath_one {v w : GoVal} {f : Ident} (h : v = .struct [(f, w)]) :
    loadPath v [.field f] = .ok w := by
  subst h; simp [loadPath, child, getField, bind, Except.bind]

theorem top_exec {g : GoProg} {call : Call} {t : DeclType} {body : Stmts}
    (hb : topXdr t = some body) (hok : t.ok false = true) (xs : XdrState) (v : GoVal)
    (a : XdrState × GoVal) (h : topCodec g call t xs v = .ok a) :
    execs g call body ⟨xs, v, []⟩ = .ok ⟨a.1, a.2, []⟩ := by
  have key : ∀ t : DeclType, ∀ body, t.goXdr .recv = some body → t.ok false = true →
      t.codec g call xs v = .ok a → execs g call body ⟨xs, v, []⟩ = .ok ⟨a.1, a.2, []⟩ := by
    intro t body hb hok h
    have hs := DeclType.sim g call t false none .recv [] body hb hok (by simp) (PtrAt.recv none)
      ⟨xs, v, []⟩ v (ViOK.none _) rfl
    obtain ⟨xs', v'⟩ := a
    simp only [h, Sim] at hs
    obtain ⟨v'', h1, h2⟩ := hs
    simp only [storePath] at h1; cases h1
    exact h2
  cases t with
  | ptr t =>
    simp only [topXdr] at hb
    simp only [topCodec] at h
    split at h
    · rename_i f w
      split at h
      · rename_i hf
        subst hf
        have hp : PtrAt none (.addr (.field .recv "P")) [.field "P"] := by
          have := PtrAt.field (vi := none) (p := .recv) (path := []) "P" (PtrAt.recv none)
          exact this
        have hs := DeclType.sim g call (.ptr t) false none _ _ body hb hok (by simp) hp
          ⟨xs, .struct [("P", w)], []⟩ w (ViOK.none _) (loadPath_one rfl)
        cases hc : DeclType.codec g call (.ptr t) xs w with
        | error s => rw [hc] at h; cases h
        | ok r =>
          obtain ⟨xs', w'⟩ := r
          rw [hc] at h
          cases h
          simp only [hc, Sim] at hs
          obtain ⟨v'', h1, h2⟩ := hs
          simp [storePath, child, getField, bind, Except.bind, Pure.pure, Except.pure, setChild,
            setField] at h1
          subst h1
          exact h2
      · cases h
    · cases h
  | typespec t => exact key _ body hb hok h
  | array t sz => exact key _ body hb hok h
  | varArray t sz => exact key _ body hb hok h
  | opaqueArray sz => exact key _ body hb hok h
  | opaqueVarArray sz => exact key _ body hb hok h
  | string sz => exact key _ body hb hok h

/-- Running the generated method does what the codec says. -/
theorem runXdr_of_codecN {g : GoProg} {defs : Ident → Option DeclType}
    (hm : ∀ n t, defs n = some t → t.ok false = true ∧
      ∃ body, topXdr t = some body ∧ g.methods.lookup n = some body) (k : Nat) :
    ∀ n xs v, Le (codecN g defs k n xs v) (g.runXdr k n xs v) := by
  induction k with
  | zero => intro n xs v a h; cases h
  | succ k ih =>
    intro n xs v a h
    unfold codecN at h
    unfold GoProg.runXdr
    cases hd : defs n with
    | none => rw [hd] at h; cases h
    | some t =>
      rw [hd] at h
      obtain ⟨hok, body, hb, hl⟩ := hm n t hd
      have h' := topCodec_mono ih t xs v a h
      have := top_exec hb hok xs v a h'
      simp only [hl]
      rw [this]
      rfl

end Verif.Gen
