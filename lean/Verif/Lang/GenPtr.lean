/-
Generated code for optional data (out.go:144-163).
-/
import Verif.Lang.GenBlock

namespace Verif.Lang.Text
open Verif.Xdr (XErr XdrState)
variable {ω : Type} {Ps : Prog}
set_option linter.unusedSimpArgs false

section
variable {E : Ext ω} {k : Nat} {pkg : String} {u : Bool} {e : Expr}
local notation "𝕊" => (Sem.mk (xdrPkg :: Ps) (callN (xdrPkg :: Ps) E (k + 2)) E.ext E.spawn E.grow E.loops : Sem ω)

theorem Does.seq {S : Sem ω} {b b' : List Stmt} {F G : XdrState → Gen.GoVal → Gen.Res (XdrState × Gen.GoVal)}
    (h : Does S pkg u e b F) (h' : Does S pkg u e b' G) :
    Does S pkg u e (b ++ b') (fun xs v => F xs v >>= fun r => G r.1 r.2) := by
  intro rd st x a w t p xs ok v ρ D y xs' y' hA hp hE hD hR hF
  cases hr : F xs y with
  | error => simp only [hr, bind, Except.bind] at hF; cases hF
  | ok r =>
    simp only [hr, bind, Except.bind] at hF
    rw [wp_execs_append]
    refine wp_mono (h hA hp hE hD hR hr) ?_
    rintro _ st1 ⟨rfl, w1, v1, hd, hrep⟩
    obtain ⟨hfx, hD'⟩ := hd.fixed hA hD
    refine wp_mono (h' hd.at' (hp.mono (.refl _ _) hfx) (hE.mono (fun _ h => h) hfx) hD' hrep hF) ?_
    rintro _ st2 ⟨rfl, w2, v2, hd2, hrep2⟩
    have := hd.keeps.next
    exact ⟨rfl, w2, v2, hd.trans hA hd2, hrep2.mono (fun _ _ _ => rfl) (Nat.le_refl _) fun _ hj _ => hj.trans this⟩

theorem wp_xsE {S : Sem ω} {ρ : Env} {D : Nat → Prop} {st : St ω} {x : Nat} (hE : EnvOK ρ st D x) (m : String) (args : List Expr)
    (Q : List V → St ω → Prop) :
    wp (evalM S pkg ρ (xsE m args)) Q st = wp (evalArgs S pkg ρ args) (fun vs s => wp (callMeth S (.ptr "" ⟨x, []⟩) m vs) Q s) st := by
  obtain ⟨ix, h1, h2, h3⟩ := hE.xs
  have h4 : pkgName S.prog pkg ρ (.id "xs") = none := by simp [pkgName, h1]
  rw [xsE, wp_call_sel (h := rfl), h4]
  simp only [wp_id, wp_evalId, h1, wp_load, h3, at_nil, wp_one]
  rfl

theorem wp_xs {S : Sem ω} {st : St ω} {x a w : Nat} {xs : XdrState} (hX : Xs st x a w xs) (m : String) (args : List V)
    (Q : List V → St ω → Prop) :
    wp (callMeth S (.ptr "" ⟨x, []⟩) m args) Q st = wp (S.call (.meth "xdr.XdrState" m) (.ptr "" ⟨x, []⟩ :: args)) Q st := by
  obtain ⟨e, b, hx, -⟩ := hX.cell
  rw [wp_meth_ptr0]
  simp only [hx, at_nil]

theorem wp_encodingE {ρ : Env} {D : Nat → Prop} {st : St ω} {x a w : Nat} {xs : XdrState} (hE : EnvOK ρ st D x) (hX : Xs st x a w xs)
    {Q : List V → St ω → Prop} (h : ∀ st', Post st st' x a w x xs → Q [.bool (Xdr.encoding xs)] st') :
    wp (evalM 𝕊 pkg ρ (xsE "Encoding" [])) Q st := by
  rw [wp_xsE hE, wp_args_nil, wp_xs hX]
  refine wp_mono (Encoding_spec hX) ?_
  rintro _ st' ⟨rfl, hp⟩
  exact h st' hp

theorem wp_decodingE {ρ : Env} {D : Nat → Prop} {st : St ω} {x a w : Nat} {xs : XdrState} (hE : EnvOK ρ st D x) (hX : Xs st x a w xs)
    {Q : List V → St ω → Prop} (h : ∀ st', Post st st' x a w x xs → Q [.bool (Xdr.decoding xs)] st') :
    wp (evalM 𝕊 pkg ρ (xsE "Decoding" [])) Q st := by
  rw [wp_xsE hE, wp_args_nil, wp_xs hX]
  refine wp_mono (Decoding_spec hX) ?_
  rintro _ st' ⟨rfl, hp⟩
  exact h st' hp

/-- A local variable is a place for a value. -/
theorem At.local {rd : Bool} {st st' : St ω} {x a w w' t : Nat} {p : List String} {xs xs' : XdrState} {ok : Nat → Prop} {v : V}
    (h : At rd st x a w t p xs ok v) (hs : Side rd st st' x a w w' xs') {c : Nat} (hc : st.next ≤ c) (hl : c < st'.next)
    (hw : c ≠ w') {z : V} (hz : st'.heap c = z) : At rd st' x a w' c [] xs' (fun _ => False) z := by
  have := h.hx.xlt
  have := h.hx.alt
  exact ⟨hs.hx, hs.hr, by rw [hz, at_nil], hl, by omega, by omega, hw, fun j hj => hj.elim⟩

theorem PtrTo.local {S : Sem ω} {ρ : Env} {st : St ω} {y : String} {c : Nat} (hy : ρ.find y = some c) (Q : List V → St ω → Prop) :
    wp (evalM S pkg ρ (.un "&" (.id y))) Q st = Q [.ptr "" ⟨c, []⟩] st := by
  rw [wp_ref (h := rfl), wp_addr_id, hy]

/-- A call of the library on a local variable. -/
theorem wp_xdrVar {ρ : Env} {D : Nat → Prop} {st : St ω} {c : Nat} {x : Nat} {f t y : String} {Q : Env × Ctl → St ω → Prop}
    (hP : PkgOK Ps pkg) (hy : ρ.find y = some c) (hE : EnvOK ρ st D x) (hf : isType (xdrPkg :: Ps) "xdr" f = false)
    (hf1 : f ≠ "Errorf") (hf2 : f ≠ "Sprintf")
    (h : ∀ T, wp (callN (xdrPkg :: Ps) E (k + 2) (.fn "xdr" f) [.ptr "" ⟨x, []⟩, .ptr T ⟨c, []⟩]) (fun _ st' => Q (ρ, .next) st') st) :
    wp (execs 𝕊 pkg [xdrE f t (.un "&" (.id y))] ρ .next) Q st := by
  obtain ⟨ix, h1, h2, h3⟩ := hE.xs
  have h4 := hE.other "xdr" (by decide)
  rw [xdrE]
  go_run [h1, h3, h4, hP.imp, hy, hf]
  exact h _

theorem wp_boolVar {rd : Bool} {ρ : Env} {D : Nat → Prop} {st st' : St ω} {x a w w' t : Nat} {p : List String} {xs xs' : XdrState}
    {ok : Nat → Prop} {v : V} {c : Nat} {b : Bool} (hP : PkgOK Ps pkg) (hA : At rd st x a w t p xs ok v)
    (hs : Side rd st st' x a w w' xs') (hE : EnvOK ρ st' D x) (hy : ρ.find "opted" = some c) (hc : st.next ≤ c) (hl : c < st'.next)
    (hw : c ≠ w') (hb : st'.heap c = .bool b) :
    wp (execs 𝕊 pkg [xdrE "XdrBool" "bool" (.un "&" (.id "opted"))] ρ .next) (fun r st2 => r = (ρ, .next) ∧
      ∃ w2, Side rd st st2 x a w w2 (Xdr.xdrBool xs' b).1 ∧ st2.heap c = .bool (Xdr.xdrBool xs' b).2 ∧ c ≠ w2 ∧ c < st2.next) st' := by
  refine wp_xdrVar hP hy hE isType_xdr_XdrBool (by decide) (by decide) fun T => ?_
  have h1 := hA.hx.xlt
  have h2 := hA.hx.alt
  refine wp_mono (XdrBool_spec E k hs.hx T c [] b (by rw [hb, at_nil]) hl (by omega) (by omega) hw) ?_
  rintro _ st2 ⟨-, hpost, hput⟩
  obtain ⟨w2, hw2, hs2⟩ := hs.post hpost (bool_rd _ _) (.inl hc)
  obtain ⟨w3, hw3, hx3, hk⟩ := hpost
  have := hk.next
  rw [put_nil] at hput
  exact ⟨rfl, w2, hs2, (Option.some.inj hput).symm, by omega, by omega⟩

theorem notNil {st : St ω} {ok : Nat → Prop} {v : V} {o : Option Gen.GoVal} (h : Rep st ok v (.ptr o)) :
    binop "!=" v .nil = some (.bool o.isSome) := by
  cases h <;> rfl

theorem wp_ptrEnc (hP : PkgOK Ps pkg) {b : List Stmt} {F : XdrState → Gen.GoVal → Gen.Res (XdrState × Gen.GoVal)}
    (hb : Does 𝕊 pkg u (.un "*" e) b F) :
    Does 𝕊 pkg u e [.ite (xsE "Encoding" [])
      [.define ["opted"] [.bin "!=" (.un "*" e) (.id "nil")], xdrE "XdrBool" "bool" (.un "&" (.id "opted")), .ite (.id "opted") b []] []]
      (fun xs v => match v with
        | .ptr o => (Gen.codecPtrEnc F xs o >>= fun r => pure (r.1, .ptr r.2))
        | _ => .error .stuck) := by
  intro rd st x a w t p xs ok v ρ D y xs' y' hA hp hE hD hR hF
  cases y <;> try (cases hF; done)
  rename_i o
  dsimp only at hF
  rw [wp_execs_next, wp_s_ite]
  refine wp_encodingE hE hA.hx fun st1 hpost => ?_
  obtain ⟨w1, -, hs1⟩ := (Side.refl hA.hx hA.hr).post hpost rfl (.inr rfl)
  rw [wp_one]
  dsimp only
  cases hen : Xdr.encoding xs with
  | false =>
    rw [Gen.codecPtrEnc, if_neg (by simp [hen])] at hF
    cases hF
    simp only [Bool.false_eq_true, ↓reduceIte, wp_execs_nil]
    have hd := Did.side hA hs1
    exact ⟨trivial, w1, v, hd, hd.rep hA hR⟩
  | true =>
    have hrd : rd = false := by
      rw [← hA.hr]
      simp [Xdr.encoding] at hen
      exact hen.2
    subst hrd
    rw [Gen.codecPtrEnc, if_pos hen] at hF
    simp only [↓reduceIte]
    -- the variable
    obtain ⟨hfx1, hD1⟩ := hs1.fixed hD
    obtain ⟨-, T, hT⟩ := hp ([] :: ρ) st1 (.scope _ _ _ rfl fun _ => rfl) hfx1
    have hA1 := hA.side hs1
    have hc1 := hA1.cell
    have hnil := hE.other "nil" (by decide)
    have hnil' : Env.find ([] :: ρ) "nil" = none := by rw [find_cons]; exact hnil
    have hdef : ∀ Q : Env × Ctl → St ω → Prop, Q ([("opted", st1.next)] :: ρ, .next) (st1.push (.bool o.isSome)) →
        wp (exec 𝕊 pkg (.define ["opted"] [.bin "!=" (.un "*" e) (.id "nil")]) ([] :: ρ)) Q st1 := by
      intro Q hQ
      rw [wp_s_define]
      go_run [↓hT, hc1, hnil', hnil, hP.cnil, notNil hR]
      exact hQ
    rw [wp_execs_next]
    refine hdef _ ?_
    dsimp only
    have hs2 := hs1.push (.bool o.isSome)
    generalize hst2 : st1.push (.bool o.isSome) = st2 at hs2 ⊢
    have hc2 : st2.heap st1.next = .bool o.isSome := by rw [← hst2, heap_push_same]
    have hn2 : st2.next = st1.next + 1 := by rw [← hst2, next_push]
    have hcw : st1.next ≠ w1 := by have := hs1.hx.wlt; omega
    obtain ⟨hfx2, hD2⟩ := hs2.fixed hD
    have hE2 : EnvOK ([("opted", st1.next)] :: ρ) st2 D x :=
      (hE.mono (fun _ h => h) hfx2).scope _ fun y hy => by
        rw [lookup_cons, if_neg (fun e => hy (by rw [e]; decide)), lookup_nil]
    have hc := hs1.keeps.next
    rw [show ([xdrE "XdrBool" "bool" (.un "&" (.id "opted")), .ite (.id "opted") b []] : List Stmt) =
      [xdrE "XdrBool" "bool" (.un "&" (.id "opted"))] ++ [.ite (.id "opted") b []] from rfl, wp_execs_append]
    refine wp_mono (wp_boolVar hP hA hs2 hE2 (by rw [find_cons]; rfl) hc (by omega) hcw hc2) ?_
    rintro _ st3 ⟨rfl, w3, hs3, hc3, hcw3, hcl3⟩
    obtain ⟨hfx3, hD3⟩ := hs3.fixed hD
    rw [bool_same hA.hr] at hc3
    have hif : ∀ Q, wp (evalM 𝕊 pkg ([("opted", st1.next)] :: ρ) (.id "opted")) Q st3 = Q [.bool o.isSome] st3 := by
      intro Q
      go_run [hc3]
    rw [wp_execs_next, wp_s_ite, hif, wp_one]
    dsimp only
    rw [show Xdr.xdrBool xs o.isSome = ((Xdr.xdrBool xs o.isSome).1, o.isSome) from Prod.ext rfl (bool_same hA.hr _)] at hF
    cases o with
    | none =>
      simp only [Option.isSome, Bool.false_eq_true, ↓reduceIte, wp_execs_nil] at hF ⊢
      cases hF
      have hd := Did.side hA hs3
      exact ⟨trivial, w3, v, hd, hd.rep hA hR⟩
    | some y =>
      simp only [Option.isSome, ↓reduceIte] at hF ⊢
      cases hr : F (Xdr.xdrBool xs true).1 y with
      | error => simp only [hr, bind, Except.bind] at hF; cases hF
      | ok r =>
        simp only [hr, bind, Except.bind] at hF
        cases hF
        cases hR with
        | ptr hv hlt hok hy =>
        rename_i T' l v0
        obtain ⟨lid, lpath⟩ := l
        have hA3 := hA.side hs3
        have hcell3 : (st3.heap t).at p = some (.ptr T' ⟨lid, lpath⟩) := hA3.cell
        have hsame : st3.heap lid = st.heap lid :=
          hs3.keeps.heap _ hlt (hA.hok _ hok).1 (hA.hok _ hok).2.1 (hA.hok _ hok).1
        have hlt3 := hs3.keeps.next
        have hAi : At false st3 x a w3 lid lpath (Xdr.xdrBool xs true).1 ok v0 := by
          refine ⟨hs3.hx, hs3.hr, by rw [hsame]; exact hv, ?_, (hA3.hok _ hok).1, ?_, (hA3.hok _ hok).2.1, fun j hj => ?_⟩
          · dsimp only at hlt; omega
          · have := hA.w
            simp only [Bool.false_eq_true, ↓reduceIte] at this
            rw [this]
            exact (hA3.hok _ hok).1
          · obtain ⟨h1, h2, h3, h4⟩ := hA3.hok j hj
            exact ⟨h1, h2, by simp, h4⟩
        have hsc : ∀ y, y ∉ ["i", "opted", "__arraysz"] → List.lookup y ([] : List (String × Nat)) = none := fun _ _ => rfl
        have hp3 := (hp.mono (ρ1 := [] :: [("opted", st1.next)] :: ρ)
          ((Agree.scope u ρ [("opted", st1.next)] rfl fun _ => rfl).trans (Agree.scope _ _ _ rfl fun _ => rfl)) hfx3).deref hcell3
        refine wp_mono (hb (D := fun j => D j ∨ j = t) hAi hp3 ?_ ?_ (hy.side hA hs3) hr) ?_
        · refine EnvOK.scope ?_ _ hsc
          refine (hE2.mono (fun _ h => Or.inl h) fun j hj => ?_)
          rw [hfx3 j hj, hfx2 j hj]
        · rintro j (hj | rfl)
          · obtain ⟨h1, h2, h3, -⟩ := hD3 j hj
            exact ⟨h1, h2, h3, by simp⟩
          · exact ⟨hA3.tlt, hA3.tx, hA3.tw, by simp⟩
        · rintro _ st4 ⟨rfl, w4, v4, hd4, hrep4⟩
          have hd34 := Did.inner hA3 hAi hd4
          have hd := (Did.side hA hs3).trans hA hd34
          have hv4 := hd4.same rfl
          subst hv4
          simp only [wp_execs_nil]
          refine ⟨trivial, w4, _, hd, .ptr (v := v4) hd4.at'.cell hd4.at'.tlt (.inl hok) ?_⟩
          exact hrep4.mono (fun _ _ _ => rfl) (Nat.le_refl _) fun j hj _ => by
            rcases hj with hj | ⟨h, -⟩
            · exact .inl hj
            · cases h

theorem newArg_tyE (t : Ty) : newArg [tyE t] = some t := by
  cases t <;> rfl

/-- The zero values of the type are the same. -/
def ZeroOK (P : Prog) (pkg : String) (t : Ty) (z : Option Gen.GoVal) : Prop :=
  ∀ y, z = some y → ∃ v, P.zero pkg t = some v ∧ ∀ {ω : Type} (st : St ω), Rep st (fun _ => False) v y

theorem wp_ptrDec (hP : PkgOK Ps pkg) {b : List Stmt} {F : XdrState → Gen.GoVal → Gen.Res (XdrState × Gen.GoVal)} {ty : Ty}
    {z : Option Gen.GoVal} (hz : ZeroOK (xdrPkg :: Ps) pkg ty z) (hb : Does 𝕊 pkg u (.un "*" e) b F) :
    Does 𝕊 pkg u e [.ite (xsE "Decoding" [])
      [.var ["opted"] (.name "bool"), xdrE "XdrBool" "bool" (.un "&" (.id "opted")),
        .ite (.id "opted") (.assign [.un "*" e] [.call (.id "new") [tyE ty] false] :: b) []] []]
      (fun xs v => match v with
        | .ptr o => (Gen.codecPtrDec z F xs o >>= fun r => pure (r.1, .ptr r.2))
        | _ => .error .stuck) := by
  intro rd st x a w t p xs ok v ρ D y xs' y' hA hp hE hD hR hF
  cases y <;> try (cases hF; done)
  rename_i o
  dsimp only at hF
  rw [wp_execs_next, wp_s_ite]
  refine wp_decodingE hE hA.hx fun st1 hpost => ?_
  obtain ⟨w1, -, hs1⟩ := (Side.refl hA.hx hA.hr).post hpost rfl (.inr rfl)
  rw [wp_one]
  dsimp only
  cases hen : Xdr.decoding xs with
  | false =>
    rw [Gen.codecPtrDec, if_neg (by simp [hen])] at hF
    cases hF
    simp only [Bool.false_eq_true, ↓reduceIte, wp_execs_nil]
    have hd := Did.side hA hs1
    exact ⟨trivial, w1, v, hd, hd.rep hA hR⟩
  | true =>
    have hrd : rd = true := by
      rw [← hA.hr]
      simp [Xdr.decoding] at hen
      exact hen.2
    subst hrd
    rw [Gen.codecPtrDec, if_pos hen] at hF
    simp only [↓reduceIte]
    have hdef : ∀ Q : Env × Ctl → St ω → Prop, Q ([("opted", st1.next)] :: ρ, .next) (st1.push (.bool false)) →
        wp (exec 𝕊 pkg (.var ["opted"] (.name "bool")) ([] :: ρ)) Q st1 := by
      intro Q hQ
      rw [wp_s_var]
      go_run [zero_bool']
      exact hQ
    rw [wp_execs_next]
    refine hdef _ ?_
    dsimp only
    have hs2 := hs1.push (.bool false)
    generalize hst2 : st1.push (.bool false) = st2 at hs2 ⊢
    have hc2 : st2.heap st1.next = .bool false := by rw [← hst2, heap_push_same]
    have hn2 : st2.next = st1.next + 1 := by rw [← hst2, next_push]
    have hcw : st1.next ≠ w1 := by have := hs1.hx.wlt; omega
    obtain ⟨hfx2, hD2⟩ := hs2.fixed hD
    have hE2 : EnvOK ([("opted", st1.next)] :: ρ) st2 D x :=
      (hE.mono (fun _ h => h) hfx2).scope _ fun y hy => by
        rw [lookup_cons, if_neg (fun e => hy (by rw [e]; decide)), lookup_nil]
    have hc := hs1.keeps.next
    rw [show ([xdrE "XdrBool" "bool" (.un "&" (.id "opted")), .ite (.id "opted") (.assign [.un "*" e] [.call (.id "new") [tyE ty] false] :: b) []] : List Stmt) =
      [xdrE "XdrBool" "bool" (.un "&" (.id "opted"))] ++ [.ite (.id "opted") (.assign [.un "*" e] [.call (.id "new") [tyE ty] false] :: b) []] from rfl,
      wp_execs_append]
    refine wp_mono (wp_boolVar hP hA hs2 hE2 (by rw [find_cons]; rfl) hc (by omega) hcw hc2) ?_
    rintro _ st3 ⟨rfl, w3, hs3, hc3, hcw3, hcl3⟩
    obtain ⟨hfx3, hD3⟩ := hs3.fixed hD
    generalize Xdr.xdrBool xs false = rb at hF hs3 hc3
    obtain ⟨xs3, bb⟩ := rb
    dsimp only at hF hs3 hc3
    have hif : ∀ Q, wp (evalM 𝕊 pkg ([("opted", st1.next)] :: ρ) (.id "opted")) Q st3 = Q [.bool bb] st3 := by
      intro Q
      go_run [hc3]
    rw [wp_execs_next, wp_s_ite, hif, wp_one]
    dsimp only
    cases bb with
    | false =>
      simp only [Bool.false_eq_true, ↓reduceIte, wp_execs_nil] at hF ⊢
      cases hF
      have hd := Did.side hA hs3
      exact ⟨trivial, w3, v, hd, hd.rep hA hR⟩
    | true =>
      simp only [↓reduceIte] at hF ⊢
      cases hzz : z with
      | none => rw [hzz] at hF; cases hF
      | some zy =>
      cases hr : F xs3 zy with
      | error => simp only [hzz, hr, bind, Except.bind, Gen.orStuck] at hF; cases hF
      | ok r =>
        simp only [hzz, hr, bind, Except.bind, Gen.orStuck] at hF
        cases hF
        obtain ⟨zv, hz1, hz2⟩ := hz zy hzz
        have hA3 := hA.side hs3
        have hag := (Agree.scope u ρ [("opted", st1.next)] rfl fun _ => rfl).trans (Agree.scope u _ [] rfl fun _ => rfl)
        have hs4 := hs3.push zv
        obtain ⟨hfx4, hD4⟩ := hs4.fixed hD
        obtain ⟨-, T, hT⟩ := hp ([] :: [("opted", st1.next)] :: ρ) (st3.push zv) hag hfx4
        have hA4 := hA.side hs4
        obtain ⟨W, hW⟩ := put_some hA4.cell (.ptr "" ⟨st3.next, []⟩)
        have hnew := hE.other "new" (by decide)
        have hco : coerce v (.ptr "" ⟨st3.next, []⟩) = .ptr "" ⟨st3.next, []⟩ := by cases v <;> rfl
        have hasg : ∀ Q : Env × Ctl → St ω → Prop, Q ([] :: [("opted", st1.next)] :: ρ, .next) ((st3.push zv).set t W) →
            wp (exec 𝕊 pkg (.assign [.un "*" e] [.call (.id "new") [tyE ty] false]) ([] :: [("opted", st1.next)] :: ρ)) Q st3 := by
          intro Q hQ
          rw [wp_s_assign]
          go_run [hnew, ↓newArg_tyE, hz1, ↓hT, hA4.cell, hco, hW]
          exact hQ
        rw [wp_execs_next]
        refine hasg _ ?_
        dsimp only
        have hd5 := Did.store hA hs4 hW
        have htl := hA3.tlt
        have h3n := hs3.keeps.next
        have hn5 : ((st3.push zv).set t W).next = st3.next + 1 := rfl
        have hc5 : ((st3.push zv).set t W).heap st3.next = zv := by
          rw [heap_set_ne _ _ _ _ (by omega), heap_push_same]
        generalize (st3.push zv).set t W = st5 at hd5 hn5 hc5 ⊢
        obtain ⟨hfx5, hD5⟩ := hd5.fixed hA hD
        have hx5 := hA3.hx.xlt
        have ha5 := hA3.hx.alt
        have hw5 := hA3.hx.wlt
        have hAi : At true st5 x a w3 st3.next [] xs3 (fun _ => False) zv :=
          ⟨hd5.at'.hx, hd5.at'.hr, by rw [hc5, at_nil], by omega, by omega, by omega, by omega, fun j hj => hj.elim⟩
        have hsc : ∀ y, y ∉ ["i", "opted", "__arraysz"] → List.lookup y ([] : List (String × Nat)) = none := fun _ _ => rfl
        have hp5 := (hp.mono (ρ1 := [] :: [("opted", st1.next)] :: ρ) hag hfx5).deref hd5.at'.cell
        refine wp_mono (hb (D := fun j => D j ∨ j = t) hAi hp5 ?_ ?_ (hz2 _) hr) ?_
        · refine EnvOK.scope ?_ _ hsc
          refine (hE2.mono (fun _ h => Or.inl h) fun j hj => ?_)
          rw [hfx5 j hj, hfx2 j hj]
        · rintro j (hj | rfl)
          · obtain ⟨h1, h2, h3, -⟩ := hD5 j hj
            have := (hD3 j hj).1
            exact ⟨h1, h2, h3, fun _ => by omega⟩
          · exact ⟨hd5.at'.tlt, hd5.at'.tx, hd5.at'.tw, fun _ => by omega⟩
        · rintro _ st6 ⟨rfl, w6, v6, hd6, hrep6⟩
          have hd := Did.fresh hA hd5 (by omega) hd6
          simp only [wp_execs_nil]
          refine ⟨trivial, w6, _, hd, .ptr (v := v6) hd6.at'.cell hd6.at'.tlt (.inr ⟨rfl, .inr (by dsimp only; omega)⟩) ?_⟩
          exact hrep6.mono (fun _ _ _ => rfl) (Nat.le_refl _) fun j hj _ => by
            rcases hj with hj | ⟨h, h' | h'⟩
            · exact hj.elim
            · exact .inr ⟨h, .inl h'⟩
            · exact .inr ⟨h, .inr (by omega)⟩

/-- Optional data. -/
theorem does_ptr (hP : PkgOK Ps pkg) {b : List Stmt} {F : XdrState → Gen.GoVal → Gen.Res (XdrState × Gen.GoVal)} {ty : Ty}
    {z : Option Gen.GoVal} (hz : ZeroOK (xdrPkg :: Ps) pkg ty z) (hb : Does 𝕊 pkg u (.un "*" e) b F) :
    Does 𝕊 pkg u e [.ite (xsE "Encoding" [])
        [.define ["opted"] [.bin "!=" (.un "*" e) (.id "nil")], xdrE "XdrBool" "bool" (.un "&" (.id "opted")), .ite (.id "opted") b []] [],
      .ite (xsE "Decoding" [])
        [.var ["opted"] (.name "bool"), xdrE "XdrBool" "bool" (.un "&" (.id "opted")),
          .ite (.id "opted") (.assign [.un "*" e] [.call (.id "new") [tyE ty] false] :: b) []] []]
      (Gen.codecPtr z F) := by
  have h := (wp_ptrEnc hP hb).seq (wp_ptrDec hP hz hb)
  have he : (fun (xs : XdrState) (v : Gen.GoVal) => (match v with
      | .ptr o => (Gen.codecPtrEnc F xs o >>= fun r => pure (r.1, .ptr r.2))
      | _ => .error .stuck : Gen.Res (XdrState × Gen.GoVal)) >>= fun r => (match r.2 with
      | .ptr o => (Gen.codecPtrDec z F r.1 o >>= fun r => pure (r.1, .ptr r.2))
      | _ => .error .stuck : Gen.Res (XdrState × Gen.GoVal))) = Gen.codecPtr z F := by
    funext xs v
    cases v <;> try rfl
    rename_i o
    rw [Gen.codecPtr]
    dsimp only
    cases Gen.codecPtrEnc F xs o <;> rfl
  rw [he] at h
  exact h

end
end Verif.Lang.Text
