/-
The generated methods do what the functions of Verif.Gen.CodecN do.
-/
import Verif.Lang.GenThm
import Verif.Gen.Encode

namespace Verif.Lang.Text
open Verif.Xdr (XErr XdrState)
variable {ω : Type} {Ps : Prog}
set_option linter.unusedSimpArgs false

/-- The state before, and the one that is left, without the parameters. -/
theorem Did.call {rd : Bool} {st st0 st1 st2 : St ω} {x a w w' t : Nat} {p : List String} {xs xs' : XdrState} {ok : Nat → Prop} {v v' : V}
    (h0 : At rd st x a w t p xs ok v) (h : Did rd st0 st1 x a w w' t p xs' ok v v') (hh : ∀ j, j < st.next → st0.heap j = st.heap j)
    (hn : st.next ≤ st0.next) (hw : st0.world = st.world) (h1 : st2.heap = st1.heap) (h2 : st2.next = st1.next) (h3 : st2.world = st1.world)
    (h4 : st2.defers = st.defers) : Did rd st st2 x a w w' t p xs' ok v v' := by
  obtain ⟨hA, hw', hk, hp, hs⟩ := h
  have n1 := hk.next
  have hX : Xs st2 x a w' xs' := hA.hx.mono (by rw [h1]) (by rw [h1]) (by rw [h1]) (by omega)
  have := h0.tlt
  refine ⟨⟨hX, hA.hr, by rw [h1]; exact hA.cell, by rw [h2]; exact hA.tlt, hA.tx, hA.ta, hA.tw,
    After.good h0 (by omega) (by omega) hX hA.hr⟩, by omega, ⟨fun j e f g i => ?_, by omega, ?_, h4⟩, ?_, hs⟩
  · rw [h1, hk.heap j (by omega) f g i, hh j e]
  · rw [h3, hk.world, hw]
  · rw [h1, ← hh t (by omega)]; exact hp

section
variable {E : Ext ω} {k : Nat} {pkg : String} {g : Gen.GoProg} {call : Gen.Call} {defs : String → Option Gen.DeclType} {K : Nat}

theorem callOK_of {n : String} {body : List Stmt} {F : XdrState → Gen.GoVal → Gen.Res (XdrState × Gen.GoVal)}
    (hf : Prog.find (xdrPkg :: Ps) (.meth (pkg ++ "." ++ n) "Xdr") = some (pkg, methG n body))
    (hb : Does (Sem.mk (xdrPkg :: Ps) (callN (xdrPkg :: Ps) E (k + 2)) E.ext E.spawn E.grow E.loops : Sem ω) pkg false (.id "v") body F) :
    CallOK (Sem.mk (xdrPkg :: Ps) (callN (xdrPkg :: Ps) E (k + 3)) E.ext E.spawn E.grow E.loops : Sem ω) pkg n F := by
  intro rd st x a w t p xs ok v y xs' y' hA hR hF
  show wp (callN (xdrPkg :: Ps) E (k + 3) _ _) _ st
  rw [wp_callN _ _ _ _ _ _ _ _ _ hf, wp_callFunc]
  have h1 := hA.hx.xlt
  have h2 := hA.hx.alt
  have h3 := hA.hx.wlt
  have h4 := hA.tlt
  have hc : ∀ T l, coerce .nil (.ptr T l) = .ptr T l := fun _ _ => rfl
  go_run [methG]
  rw [hc, hc]
  generalize hst : ((st.deferring []).push (V.ptr (pkg ++ "." ++ n) ⟨t, p⟩)).push (V.ptr "" ⟨x, []⟩) = st0
  have g0 : ∀ j, j < st.next → st0.heap j = st.heap j := by
    intro j hj
    rw [← hst]
    go_run
  have g1 : st0.heap st.next = .ptr (pkg ++ "." ++ n) ⟨t, p⟩ := by rw [← hst]; go_run
  have g2 : st0.heap (st.next + 1) = .ptr "" ⟨x, []⟩ := by rw [← hst]; go_run
  have g3 : st0.next = st.next + 2 := by rw [← hst]; go_run
  have g4 : st0.world = st.world := by rw [← hst]; rfl
  have g5 : st0.defers = [] := by rw [← hst]; rfl
  have hX : Xs st0 x a w xs := hA.hx.mono (g0 _ h1) (g0 _ h2) (g0 _ h3) (by omega)
  have hA0 : At rd st0 x a w t p xs ok v := by
    refine ⟨hX, hA.hr, by rw [g0 _ h4]; exact hA.cell, by omega, hA.tx, hA.ta, hA.tw, fun j hj => ?_⟩
    obtain ⟨a1, a2, a3, a4⟩ := hA.hok j hj
    exact ⟨a1, a2, a3, fun e => by have := a4 e; omega⟩
  have hR0 : Rep st0 ok v y := hR.mono (fun j _ hj => g0 j hj) (by omega) fun _ hj _ => hj
  have hptr : PtrTo (Sem.mk (xdrPkg :: Ps) (callN (xdrPkg :: Ps) E (k + 2)) E.ext E.spawn E.grow E.loops : Sem ω) pkg false
      [[("xs", st.next + 1), ("v", st.next)]] (fun j => j = st.next ∨ j = st.next + 1) st0 (.id "v") ⟨t, p⟩ := by
    intro ρ' st' ha hd
    have hv : ρ'.find "v" = some st.next := by rw [ha.1]; rfl
    have hh := hd st.next (.inl rfl)
    rw [g1] at hh
    refine ⟨by rw [pkgName, hv], pkg ++ "." ++ n, fun Q => ?_⟩
    go_run [hv, hh]
  have hE : EnvOK [[("xs", st.next + 1), ("v", st.next)]] st0 (fun j => j = st.next ∨ j = st.next + 1) x := by
    refine ⟨⟨st.next + 1, rfl, .inr rfl, g2⟩, fun z hz => ?_⟩
    simp only [locals, List.mem_cons, not_or] at hz
    simp only [find_cons, lookup_cons, if_neg hz.1, if_neg hz.2.1]
    rfl
  have hD : Fixed (fun j => j = st.next ∨ j = st.next + 1) rd st0 x w t := by
    intro j hj
    exact ⟨by omega, by omega, by omega, fun _ => by omega⟩
  refine wp_mono (hb hA0 hptr hE hD hR0 hF) ?_
  rintro r st1 ⟨rfl, w', v', hdid, hrep⟩
  have hd := hdid.keeps.defers
  rw [g5] at hd
  go_run [hd, methG]
  refine ⟨w', v', Did.call hA hdid g0 (by omega) g4 rfl rfl rfl rfl, hrep.mono (fun _ _ _ => rfl) (Nat.le_refl _) fun j hj _ => ?_⟩
  rcases hj with hj | ⟨e, hj | hj⟩
  · exact .inl hj
  · exact .inr ⟨e, .inl hj⟩
  · exact .inr ⟨e, .inr (by omega)⟩

/-- Discriminants have the kind of their type. -/
theorem kindD_codec : ∀ (K : Nat) {t : Gen.DeclType} {κ : Gen.Kind} (j : Nat), kindD defs K t = some κ → ∀ {xs v xs' v'},
    t.codec g (Gen.codecN g defs j) xs v = .ok (xs', v') → Gen.ofKind κ v' := by
  intro K
  induction K with
  | zero =>
    intro t κ j hk xs v xs' v' h
    rw [kindD.eq_def] at hk
    split at hk <;> first
      | omega
      | (cases hk <;> simp only [Gen.DeclType.codec, Gen.Typespec.codec] at h <;> cases v <;> cases h <;> exact ⟨_, rfl⟩)
  | succ K ih =>
    intro t κ j hk xs v xs' v' h
    rw [kindD.eq_def] at hk
    split at hk
    case h_6 =>
      rename_i n he
      cases he
      obtain ⟨t', ht', hk'⟩ := Option.bind_eq_some_iff.1 hk
      simp only [Gen.DeclType.codec, Gen.Typespec.codec] at h
      cases j with
      | zero => cases h
      | succ j =>
        rw [Gen.codecN, ht'] at h
        dsimp only at h
        cases t' with
        | ptr t' => rw [kindD.eq_def] at hk'; cases K <;> cases hk'
        | _ => exact ih (xs := xs) (v := v) j hk' h
    all_goals cases hk <;> simp only [Gen.DeclType.codec, Gen.Typespec.codec] at h <;> cases v <;> cases h <;> exact ⟨_, rfl⟩

/-- What the package must be for the methods to work. -/
structure Prints (Ps : Prog) (pkg : String) (g : Gen.GoProg) (defs : String → Option Gen.DeclType) (K : Nat) : Prop where
  ok : PkgOK Ps pkg
  meth : ∀ T t, defs T = some t → ∃ b, Gen.topXdr t = some b ∧
    Prog.find (xdrPkg :: Ps) (.meth (pkg ++ "." ++ T) "Xdr") = some (pkg, methG T (stmtsG b))
  typ : ∀ T t, defs T = some t → dtOk (xdrPkg :: Ps) pkg g defs K false t

theorem topDoes {F : Gen.Call} {t : Gen.DeclType} {b : Gen.Stmts} (hb : Gen.topXdr t = some b)
    (hd : ∀ p s, t.goXdr p = some s → Does (Sem.mk (xdrPkg :: Ps) (callN (xdrPkg :: Ps) E (k + 2)) E.ext E.spawn E.grow E.loops : Sem ω) pkg false
      (exG p) (stmtsG s) (fun xs v => t.codec g F xs v)) :
    Does (Sem.mk (xdrPkg :: Ps) (callN (xdrPkg :: Ps) E (k + 2)) E.ext E.spawn E.grow E.loops : Sem ω) pkg false (.id "v") (stmtsG b)
      (Gen.topCodec g F t) := by
  cases t with
  | ptr t =>
    have h := (hd _ _ hb).field.struct
    intro rd st x a w t' p xs ok v ρ D y xs' y' hA hp hE hD hR hF
    refine h hA hp hE hD hR ?_
    rw [Gen.topCodec.eq_def] at hF
    dsimp only at hF
    split at hF
    · rename_i f w'
      dsimp only
      split at hF
      · rename_i hf
        rw [if_pos hf]
        cases hc : Gen.DeclType.codec g F (.ptr t) xs w' with
        | error e => rw [hc] at hF; cases hF
        | ok r => rw [hc] at hF; exact hF
      · cases hF
    · cases hF
  | _ => exact hd _ _ hb

/-- The method `Xdr` of every type does what the codec does. -/
theorem calls (L : Prints Ps pkg g defs K) (hloop : 2 ^ 32 ≤ E.loops) (k : Nat) : ∀ (j : Nat) (T : String),
    CallOK (Sem.mk (xdrPkg :: Ps) (callN (xdrPkg :: Ps) E (k + j + 2)) E.ext E.spawn E.grow E.loops : Sem ω) pkg T (Gen.codecN g defs j T) := by
  intro j
  induction j with
  | zero =>
    intro T rd st x a w t p xs ok v y xs' y' hA hR hF
    cases hF
  | succ j ih =>
    intro T
    cases hd : defs T with
    | none =>
      intro rd st x a w t p xs ok v y xs' y' hA hR hF
      rw [Gen.codecN, hd] at hF
      cases hF
    | some t =>
      obtain ⟨b, hb, hf⟩ := L.meth T t hd
      have h := callOK_of (E := E) (k := k + j) hf (topDoes hb fun p s hs =>
        dtDoes L.ok hloop (fun n => ih (Gen.i n)) (fun t κ hk => kindD_codec K j hk) t false p s hs (L.typ T t hd))
      intro rd st x a w t p xs ok v y xs' y' hA hR hF
      refine h hA hR ?_
      rw [Gen.codecN, hd] at hF
      exact hF
end
end Verif.Lang.Text
