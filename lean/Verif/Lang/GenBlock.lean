/-
Pieces of generated code: fields, calls of other `Xdr` methods, optional data.
-/
import Verif.Lang.GenSim

namespace Verif.Lang.Text
open Verif.Xdr (XErr XdrState)
variable {ω : Type} {Ps : Prog}
set_option linter.unusedSimpArgs false

/-! ### Pointer expressions -/

theorem PtrTo.field {S : Sem ω} {pkg : String} {u : Bool} {ρ : Env} {D : Nat → Prop} {st : St ω} {e : Expr} {l : Loc}
    (h : PtrTo S pkg u ρ D st e l) (f : String) : PtrTo S pkg u ρ D st (.un "&" (.sel e f)) (l.field f) := by
  intro ρ' st' ha hd
  obtain ⟨h1, T, hT⟩ := h ρ' st' ha hd
  refine ⟨rfl, "", fun Q => ?_⟩
  rw [wp_ref (h := rfl), wp_addr_sel, hT]
  rfl

theorem PtrTo.deref {S : Sem ω} {pkg : String} {u : Bool} {ρ : Env} {D : Nat → Prop} {st : St ω} {e : Expr} {l l' : Loc} {T : String}
    (h : PtrTo S pkg u ρ D st e l) (hc : (st.heap l.id).at l.path = some (.ptr T l')) :
    PtrTo S pkg u ρ (fun j => D j ∨ j = l.id) st (.un "*" e) l' := by
  intro ρ' st' ha hd
  obtain ⟨h1, T', hT⟩ := h ρ' st' ha fun j hj => hd j (.inl hj)
  refine ⟨rfl, T, fun Q => ?_⟩
  have := hd l.id (.inr rfl)
  rw [wp_star, hT]
  go_run [this, hc]

theorem wp_natV_u64 (x : UInt64) (Q : Nat → St ω → Prop) (st : St ω) : wp (natV (.u64 x)) Q st = Q x.toNat st := rfl

theorem wp_elemV (s : Slice) (k : V) (Q : Loc → St ω → Prop) (st : St ω) :
    wp (elemV (.slice s) k) Q st = wp (natV k) (fun i st =>
      if i < s.len then Q (s.base.field (stroke (s.off + i))) st else False) st := by
  simp only [elemV, wp_bind, wp_ite, wp_pure, wp_stop]

theorem PtrTo.elem {S : Sem ω} {pkg : String} {ρ : Env} {D : Nat → Prop} {st : St ω} {e : Expr} {l : Loc} {s : Slice} {c i : Nat}
    (h : PtrTo S pkg false ρ D st e l) (hc : (st.heap l.id).at l.path = some (.slice s)) (hi : ρ.find "i" = some c)
    (hv : st.heap c = .u64 (UInt64.ofNat i)) (hi64 : i < 2 ^ 64) (hl : i < s.len) :
    PtrTo S pkg true ρ (fun j => (D j ∨ j = l.id) ∨ j = c) st (.un "&" (.idx (.un "*" e) (.id "i")))
      (s.base.field (stroke (s.off + i))) := by
  intro ρ' st' ha hd
  obtain ⟨h1, T', hT⟩ := h ρ' st' ⟨ha.1, by simp⟩ fun j hj => hd j (.inl (.inl hj))
  refine ⟨rfl, "", fun Q => ?_⟩
  have h2 := hd l.id (.inl (.inr rfl))
  have h3 := hd c (.inr rfl)
  have h4 := ha.2 rfl
  rw [hi] at h4
  rw [wp_ref (h := rfl), wp_addr_idx, wp_star, hT]
  go_run [h2, hc, h4, h3, hv, wp_elemV, wp_natV_u64]
  rw [UInt64.toNat_ofNat_of_lt' hi64, if_pos hl]
  rfl

/-! ### Scopes -/

theorem EnvOK.scope {ρ : Env} {st : St ω} {D : Nat → Prop} {x : Nat} (h : EnvOK ρ st D x) (sc : List (String × Nat))
    (hs : ∀ y, y ∉ ["i", "opted", "__arraysz"] → sc.lookup y = none) : EnvOK (sc :: ρ) st D x := by
  refine ⟨?_, fun y hy => ?_⟩
  · rw [find_cons, hs "xs" (by decide)]; exact h.xs
  · rw [find_cons, hs y fun hm => hy (List.mem_of_mem_drop (i := 2) hm), h.other y hy]

theorem EnvOK.mono {ρ : Env} {st st' : St ω} {D D' : Nat → Prop} {x : Nat} (h : EnvOK ρ st D x) (hd : ∀ j, D j → D' j)
    (hh : ∀ j, D j → st'.heap j = st.heap j) : EnvOK ρ st' D' x := by
  obtain ⟨⟨ix, h1, h2, h3⟩, h4⟩ := h
  exact ⟨⟨ix, h1, hd _ h2, (hh _ h2).trans h3⟩, h4⟩

theorem Agree.scope (u : Bool) (ρ : Env) (sc : List (String × Nat)) (h : sc.lookup "v" = none) (h' : u = true → sc.lookup "i" = none) :
    Agree u ρ (sc :: ρ) := by
  refine ⟨?_, fun e => ?_⟩
  · rw [find_cons, h]
  · rw [find_cons, h' e]

theorem Side.fixed {rd : Bool} {st st' : St ω} {x a w w' t : Nat} {xs' : XdrState} {D : Nat → Prop} (hs : Side rd st st' x a w w' xs')
    (hD : Fixed D rd st x w t) : (∀ j, D j → st'.heap j = st.heap j) ∧ Fixed D rd st' x w' t := by
  have := hs.keeps.next
  have := hs.hw
  refine ⟨fun j hj => ?_, fun j hj => ?_⟩
  · obtain ⟨h1, h2, h3, h4⟩ := hD j hj
    exact hs.keeps.heap j h1 h2 h3 h2
  · obtain ⟨h1, h2, h3, h4⟩ := hD j hj
    exact ⟨by omega, h2, by omega, h4⟩

/-! ### Other methods -/

/-- The method `Xdr` of the type does `F`. -/
def CallOK (S : Sem ω) (pkg n : String) (F : XdrState → Gen.GoVal → Gen.Res (XdrState × Gen.GoVal)) : Prop :=
  ∀ ⦃rd : Bool⦄ ⦃st : St ω⦄ ⦃x a w t p xs ok v y xs' y'⦄, At rd st x a w t p xs ok v → Rep st ok v y → F xs y = .ok (xs', y') →
    wp (S.call (.meth (pkg ++ "." ++ n) "Xdr") [.ptr (pkg ++ "." ++ n) ⟨t, p⟩, .ptr "" ⟨x, []⟩]) (fun _ st' => ∃ w' v',
      Did rd st st' x a w w' t p xs' ok v v' ∧ Rep st' (After rd a x st ok) v' y') st

theorem dot_ne (a b : String) : a ++ "." ++ b ≠ "" := by
  intro h
  have := congrArg String.length h
  simp [String.length_append] at this

theorem does_call {S : Sem ω} {pkg n : String} {u : Bool} {e : Expr} {F : XdrState → Gen.GoVal → Gen.Res (XdrState × Gen.GoVal)}
    (hc : CallOK S pkg n F) :
    Does S pkg u e [.expr (.call (.sel (.call (.un "*" (.id n)) [e] false) "Xdr") [.id "xs"] false)] F := by
  intro rd st x a w t p xs ok v ρ D y xs' y' hA hp hE hD hR hF
  obtain ⟨-, T, hT⟩ := hp ρ st (.refl _ _) fun _ _ => rfl
  obtain ⟨ix, h1, h2, h3⟩ := hE.xs
  have h5 := dot_ne pkg n
  go_run [h1, h3, hT]
  refine wp_mono (hc hA hR hF) ?_
  rintro _ st1 h
  exact ⟨rfl, h⟩

/-! ### Fields -/

/-- Running `b`, with `e` pointing to a structure, does `F` to the last of its fields. -/
def DoesF (S : Sem ω) (pkg : String) (u : Bool) (e : Expr) (b : List Stmt)
    (F : XdrState → List (String × Gen.GoVal) → Gen.Res (XdrState × List (String × Gen.GoVal))) : Prop :=
  ∀ ⦃rd : Bool⦄ ⦃st : St ω⦄ ⦃x a w t p xs ok T pre fs ρ D ys xs' ys'⦄, At rd st x a w t p xs ok (.struct T (pre ++ fs)) →
    ((pre ++ fs).map Prod.fst).Nodup → PtrTo S pkg u ρ D st e ⟨t, p⟩ → EnvOK ρ st D x → Fixed D rd st x w t → RepF st ok fs ys →
    F xs ys = .ok (xs', ys') →
    wp (execs S pkg b ρ .next) (fun r st' => r = (ρ, .next) ∧ ∃ w' fs', fs'.map Prod.fst = fs.map Prod.fst ∧
      Did rd st st' x a w w' t p xs' ok (.struct T (pre ++ fs)) (.struct T (pre ++ fs')) ∧
      RepF st' (After rd a x st ok) fs' ys') st

theorem DoesF.struct {S : Sem ω} {pkg : String} {u : Bool} {e : Expr} {b : List Stmt}
    {F : XdrState → List (String × Gen.GoVal) → Gen.Res (XdrState × List (String × Gen.GoVal))} (h : DoesF S pkg u e b F) :
    Does S pkg u e b (fun xs v => match v with
      | .struct fs => (F xs fs >>= fun r => pure (r.1, .struct r.2))
      | _ => .error .stuck) := by
  intro rd st x a w t p xs ok v ρ D y xs' y' hA hp hE hD hR hF
  cases y <;> try (cases hF; done)
  rename_i ys
  dsimp only at hF
  cases hr : F xs ys with
  | error => rw [hr] at hF; cases hF
  | ok r =>
    rw [hr] at hF
    cases hF
    obtain ⟨T, fs, rfl, hfs, nd⟩ := hR.fields
    refine wp_mono (h (pre := []) hA nd hp hE hD hfs hr) ?_
    rintro _ st1 ⟨rfl, w', fs', hn, hd, hrep⟩
    exact ⟨rfl, w', _, hd, hrep.struct (by rw [List.nil_append] at *; rw [hn]; exact nd)⟩

theorem DoesF.nil {S : Sem ω} {pkg : String} {u : Bool} {e : Expr} : DoesF S pkg u e [] (fun xs fs => .ok (xs, fs)) := by
  intro rd st x a w t p xs ok T pre fs ρ D ys xs' ys' hA nd hp hE hD hR hF
  cases hF
  rw [wp_execs_nil]
  exact ⟨rfl, w, fs, rfl, Did.refl hA, hR.mono (fun _ _ _ => rfl) (Nat.le_refl _) fun _ hj _ => .inl hj⟩

/-- A field. -/
theorem Does.field {S : Sem ω} {pkg : String} {u : Bool} {e : Expr} {b : List Stmt} {n : String}
    {F : XdrState → Gen.GoVal → Gen.Res (XdrState × Gen.GoVal)} (h : Does S pkg u (.un "&" (.sel e n)) b F) :
    DoesF S pkg u e b (fun xs fs => match fs with
      | (f, w) :: fs => if f = n then (F xs w >>= fun r => pure (r.1, (f, r.2) :: fs)) else .error .stuck
      | [] => .error .stuck) := by
  intro rd st x a w t p xs ok T pre fs ρ D ys xs' ys' hA nd hp hE hD hR hF
  cases ys with
  | nil => cases hF
  | cons a' ys =>
    obtain ⟨f, y⟩ := a'
    dsimp only at hF
    by_cases e1 : f = n
    · subst e1
      rw [if_pos rfl] at hF
      cases hr : F xs y with
      | error => rw [hr] at hF; cases hF
      | ok r =>
        rw [hr] at hF
        cases hF
        obtain ⟨v, fs, rfl, hv, hfs⟩ := hR.inv
        have hl := lookup_mid nd
        refine wp_mono (h (hA.field hl) (hp.field f) hE hD hv hr) ?_
        rintro _ st1 ⟨rfl, w', v', hd, hrep⟩
        have hd' := Did.field hA hl hd
        rw [setFld_mid nd] at hd'
        exact ⟨rfl, w', (f, v') :: fs, rfl, hd', .cons hrep (hd'.repF hA hfs)⟩
    · rw [if_neg e1] at hF; cases hF

/-- A field, and those after it. -/
theorem DoesF.cons {S : Sem ω} {pkg : String} {u : Bool} {e : Expr} {b b' : List Stmt} {n : String}
    {F : XdrState → Gen.GoVal → Gen.Res (XdrState × Gen.GoVal)}
    {G : XdrState → List (String × Gen.GoVal) → Gen.Res (XdrState × List (String × Gen.GoVal))}
    (h : Does S pkg u (.un "&" (.sel e n)) b F) (h' : DoesF S pkg u e b' G) :
    DoesF S pkg u e (b ++ b') (fun xs fs => match fs with
      | (f, w) :: fs => if f = n then (F xs w >>= fun r => G r.1 fs >>= fun r' => pure (r'.1, (f, r.2) :: r'.2)) else .error .stuck
      | [] => .error .stuck) := by
  intro rd st x a w t p xs ok T pre fs ρ D ys xs' ys' hA nd hp hE hD hR hF
  cases ys with
  | nil => cases hF
  | cons a' ys =>
    obtain ⟨f, y⟩ := a'
    dsimp only at hF
    by_cases e1 : f = n
    · subst e1
      rw [if_pos rfl] at hF
      cases hr : F xs y with
      | error => rw [hr] at hF; cases hF
      | ok r =>
        rw [hr] at hF
        cases hr' : G r.1 ys with
        | error => simp only [bind, Except.bind, hr'] at hF; cases hF
        | ok r' =>
          simp only [bind, Except.bind, hr'] at hF
          cases hF
          obtain ⟨v, fs, rfl, hv, hfs⟩ := hR.inv
          have hl := lookup_mid nd
          rw [wp_execs_append]
          refine wp_mono (h (hA.field hl) (hp.field f) hE hD hv hr) ?_
          rintro _ st1 ⟨rfl, w', v', hd, hrep⟩
          have hd' := Did.field hA hl hd
          rw [setFld_mid nd] at hd'
          obtain ⟨hfx, hD'⟩ := hd'.fixed hA hD
          have e2 : pre ++ (f, v') :: fs = (pre ++ [(f, v')]) ++ fs := by simp
          have hA' := hd'.at'
          rw [e2] at hA'
          have nd' : ((pre ++ [(f, v')]) ++ fs).map Prod.fst |>.Nodup := by simpa using nd
          refine wp_mono (h' hA' nd' (hp.mono (.refl _ _) hfx) (hE.mono (fun _ h => h) hfx) hD' (hd'.repF hA hfs) hr') ?_
          rintro _ st2 ⟨rfl, w2, fs2, hn, hd2, hrep2⟩
          have hrv := hd2.rep hA' hrep
          rw [← e2, show (pre ++ [(f, v')]) ++ fs2 = pre ++ (f, v') :: fs2 by simp] at hd2
          have hn1 := hd'.keeps.next
          refine ⟨rfl, w2, (f, v') :: fs2, by simp [hn], hd'.trans hA hd2, .cons ?_ ?_⟩
          · exact hrv.mono (fun _ _ _ => rfl) (Nat.le_refl _) fun _ hj _ => hj.trans hn1
          · exact hrep2.mono (fun _ _ _ => rfl) (Nat.le_refl _) fun _ hj _ => hj.trans hn1
    · rw [if_neg e1] at hF; cases hF

/-! ### Small methods of the `XdrState` -/

section
variable {E : Ext ω} {k : Nat} {pkg : String} {u : Bool} {e : Expr}
local notation "𝕊" => (Sem.mk (xdrPkg :: Ps) (callN (xdrPkg :: Ps) E (k + 2)) E.ext E.spawn E.grow E.loops : Sem ω)

theorem Encoding_spec {st : St ω} {x a w : Nat} {xs : XdrState} (h : Xs st x a w xs) :
    wp (callN (xdrPkg :: Ps) E (k + 2) (.meth "xdr.XdrState" "Encoding") [.ptr "" ⟨x, []⟩])
      (fun r st' => r = [.bool (Xdr.encoding xs)] ∧ Post st st' x a w x xs) st := by
  have h' := h
  obtain ⟨err, reader, buf⟩ := xs
  obtain ⟨⟨e, b, hx, he, hb, hn⟩, xlt, alt, wlt, ho⟩ := h
  dsimp only at *
  rw [wp_callN _ _ _ _ _ _ _ _ _ find_lib_XdrState_Encoding, wp_callFunc, lib_XdrState_Encoding]
  cases err with
  | some r =>
    obtain ⟨m, vs, rfl⟩ := he.some'
    go_run [hx]
    exact ⟨by cases reader <;> rfl, Post.via (.inl rfl) h' (by go_run) (by go_run) (by go_run) (by go_lt) (by go_keeps)⟩
  | none =>
    obtain rfl := he.nil
    go_run [hx]
    exact ⟨by cases reader <;> rfl, Post.via (.inl rfl) h' (by go_run) (by go_run) (by go_run) (by go_lt) (by go_keeps)⟩

theorem Decoding_spec {st : St ω} {x a w : Nat} {xs : XdrState} (h : Xs st x a w xs) :
    wp (callN (xdrPkg :: Ps) E (k + 2) (.meth "xdr.XdrState" "Decoding") [.ptr "" ⟨x, []⟩])
      (fun r st' => r = [.bool (Xdr.decoding xs)] ∧ Post st st' x a w x xs) st := by
  have h' := h
  obtain ⟨err, reader, buf⟩ := xs
  obtain ⟨⟨e, b, hx, he, hb, hn⟩, xlt, alt, wlt, ho⟩ := h
  dsimp only at *
  rw [wp_callN _ _ _ _ _ _ _ _ _ find_lib_XdrState_Decoding, wp_callFunc, lib_XdrState_Decoding]
  cases err with
  | some r =>
    obtain ⟨m, vs, rfl⟩ := he.some'
    go_run [hx]
    exact ⟨by cases reader <;> rfl, Post.via (.inl rfl) h' (by go_run) (by go_run) (by go_run) (by go_lt) (by go_keeps)⟩
  | none =>
    obtain rfl := he.nil
    go_run [hx]
    exact ⟨by cases reader <;> rfl, Post.via (.inl rfl) h' (by go_run) (by go_run) (by go_run) (by go_lt) (by go_keeps)⟩

end
end Verif.Lang.Text
