/-
Generated code for unions (out.go:303-335).
-/
import Verif.Lang.GenArr
import Verif.Gen.Shape

namespace Verif.Lang.Text
open Verif.Xdr (XErr XdrState)
variable {ω : Type} {Ps : Prog}
set_option linter.unusedSimpArgs false

/-! ### Labels -/

/-- What a label is. -/
def labV (P : Prog) (pkg : String) : Gen.Val → Option V
  | .lit n => some (.const n)
  | .ident s =>
    if s ∈ locals then none
    else match P.const pkg s with
      | some v => some v
      | none => if s = "true" then some (.bool true) else if s = "false" then some (.bool false) else none

theorem wp_labE {S : Sem ω} {pkg : String} {ρ : Env} {D : Nat → Prop} {st : St ω} {x : Nat} {c : Gen.Val} {z : V} (hE : EnvOK ρ st D x)
    (h : labV S.prog pkg c = some z) (Q : List V → St ω → Prop) (st' : St ω) : wp (evalM S pkg ρ (valE c)) Q st' = Q [z] st' := by
  cases c with
  | lit n => cases h; rw [valE, wp_int]
  | ident s =>
    rw [labV] at h
    split at h
    · cases h
    · rename_i hs
      rw [valE, wp_id, wp_evalId, hE.other s hs]
      cases hc : S.prog.const pkg s with
      | some v => rw [hc] at h; cases h; rfl
      | none =>
        rw [hc] at h
        dsimp only at h ⊢
        by_cases h1 : s = "true"
        · subst h1; cases h; rfl
        · rw [if_neg h1] at h
          by_cases h2 : s = "false"
          · subst h2; cases h; rfl
          · rw [if_neg h2] at h; cases h

/-- A value of a discriminant kind, in memory. -/
inductive DV : Gen.Kind → Gen.GoVal → V → Prop
  | u32 (x) : DV .u32 (.u32 x) (.u32 x)
  | i32 (x) : DV .i32 (.i32 x) (.i32 x)
  | u64 (x) : DV .u64 (.u64 x) (.u64 x)
  | i64 (x) : DV .i64 (.i64 x) (.i64 x)
  | bool (x) : DV .bool (.bool x) (.bool x)

theorem DV.of {st : St ω} {ok : Nat → Prop} {κ : Gen.Kind} {v : V} {y : Gen.GoVal} (hk : Gen.ofKind κ y) (h : Rep st ok v y) : DV κ y v := by
  cases κ <;> obtain ⟨x, rfl⟩ := hk <;> cases h <;> constructor

/-- The label is the same value in both descriptions, one that the discriminant can have. -/
def labMatch : Gen.Kind → Gen.Label → V → Bool
  | .u32, .int n, .const m => m == n && decide (n < 2 ^ 32)
  | .u32, .int n, .u32 y => y.toNat == n
  | .i32, .int n, .const m => m == n && decide (n < 2 ^ 31)
  | .i32, .int n, .i32 y => y.toInt == n
  | .u64, .int n, .const m => m == n && decide (n < 2 ^ 64)
  | .u64, .int n, .u64 y => y.toNat == n
  | .i64, .int n, .const m => m == n && decide (n < 2 ^ 63)
  | .i64, .int n, .i64 y => y.toInt == n
  | .bool, .bool b, .bool c => b == c
  | _, _, _ => false

theorem ofInt64_nat (n : Nat) : UInt64.ofInt (n : Int) = UInt64.ofNat n := by
  apply UInt64.toNat_inj.1
  simp only [UInt64.ofInt, UInt64.toNat_ofNat']
  omega

theorem labMatch_ok {κ : Gen.Kind} {lab : Gen.Label} {w : V} (h : labMatch κ lab w = true) {d : Gen.GoVal} {dv : V} (hd : DV κ d dv) :
    ∃ m, Gen.matchLabel d lab = some m ∧ binop "==" dv w = some (.bool m) := by
  cases hd <;> cases lab <;> cases w <;> simp only [labMatch, Bool.false_eq_true, Bool.and_eq_true, beq_iff_eq, decide_eq_true_eq] at h
  case u32.int.const x n m =>
    obtain ⟨rfl, hn⟩ := h
    refine ⟨_, rfl, ?_⟩
    simp only [binop, unify, coerce, ↓reduceIte, eqV, Option.map, ofInt32_nat, Option.some.injEq, V.bool.injEq]
    rw [Bool.eq_iff_iff, beq_iff_eq, beq_iff_eq, ← UInt32.toNat_inj, UInt32.toNat_ofNat_of_lt' hn]
  case u32.int.u32 x n y =>
    subst h
    refine ⟨_, rfl, ?_⟩
    simp only [binop, unify, coerce, ↓reduceIte, eqV, Option.map, Option.some.injEq, V.bool.injEq]
    rw [Bool.eq_iff_iff, beq_iff_eq, beq_iff_eq, ← UInt32.toNat_inj]
  case i32.int.const x n m =>
    obtain ⟨rfl, hn⟩ := h
    refine ⟨_, rfl, ?_⟩
    simp only [binop, unify, coerce, ↓reduceIte, eqV, Option.map, Option.some.injEq, V.bool.injEq]
    rw [Bool.eq_iff_iff, beq_iff_eq, beq_iff_eq, ← Int32.toInt_inj, Int32.toInt_ofInt_of_le (by omega) (by omega)]
  case i32.int.i32 x n y =>
    refine ⟨_, rfl, ?_⟩
    simp only [binop, unify, coerce, ↓reduceIte, eqV, Option.map, Option.some.injEq, V.bool.injEq]
    rw [Bool.eq_iff_iff, beq_iff_eq, beq_iff_eq, ← Int32.toInt_inj, h]
  case u64.int.const x n m =>
    obtain ⟨rfl, hn⟩ := h
    refine ⟨_, rfl, ?_⟩
    simp only [binop, unify, coerce, ↓reduceIte, eqV, Option.map, ofInt64_nat, Option.some.injEq, V.bool.injEq]
    rw [Bool.eq_iff_iff, beq_iff_eq, beq_iff_eq, ← UInt64.toNat_inj, UInt64.toNat_ofNat_of_lt' hn]
  case u64.int.u64 x n y =>
    subst h
    refine ⟨_, rfl, ?_⟩
    simp only [binop, unify, coerce, ↓reduceIte, eqV, Option.map, Option.some.injEq, V.bool.injEq]
    rw [Bool.eq_iff_iff, beq_iff_eq, beq_iff_eq, ← UInt64.toNat_inj]
  case i64.int.const x n m =>
    obtain ⟨rfl, hn⟩ := h
    refine ⟨_, rfl, ?_⟩
    simp only [binop, unify, coerce, ↓reduceIte, eqV, Option.map, Option.some.injEq, V.bool.injEq]
    rw [Bool.eq_iff_iff, beq_iff_eq, beq_iff_eq, ← Int64.toInt_inj, Int64.toInt_ofInt_of_le (by omega) (by omega)]
  case i64.int.i64 x n y =>
    refine ⟨_, rfl, ?_⟩
    simp only [binop, unify, coerce, ↓reduceIte, eqV, Option.map, Option.some.injEq, V.bool.injEq]
    rw [Bool.eq_iff_iff, beq_iff_eq, beq_iff_eq, ← Int64.toInt_inj, h]
  case bool.bool.bool x n y =>
    subst h
    exact ⟨_, rfl, rfl⟩

def labelOk (P : Prog) (pkg : String) (g : Gen.GoProg) (κ : Gen.Kind) (l : Gen.Val) : Bool :=
  match labV P pkg (Gen.iVal l), g.label (Gen.iVal l) with
  | some w, some lab => labMatch κ lab w
  | _, _ => false

theorem wp_labels {S : Sem ω} {pkg : String} {g : Gen.GoProg} {κ : Gen.Kind} {d : Gen.GoVal} {dv : V} (hd : DV κ d dv) {ρ : Env} {D : Nat → Prop}
    {st : St ω} {x : Nat} (hE : EnvOK ρ st D x) (Q : Bool → St ω → Prop) (st' : St ω) : ∀ {ls : List Gen.Val} {m : Bool},
    (ls.all (labelOk S.prog pkg g κ)) = true → Gen.matchLabels g d ls = .ok m →
    wp (anyCase S pkg ρ dv (ls.map fun l => valE (Gen.iVal l))) Q st' = Q m st'
  | [], m, _, hm => by
    rw [Gen.matchLabels] at hm
    cases hm
    rfl
  | l :: ls, m, h, hm => by
    rw [List.all_cons, Bool.and_eq_true] at h
    obtain ⟨h1, h2⟩ := h
    rw [labelOk] at h1
    split at h1
    · rename_i w lab hw hl
      obtain ⟨m1, e1, e2⟩ := labMatch_ok h1 hd
      rw [Gen.matchLabels, hl] at hm
      simp only [Gen.orStuck, e1, bind, Except.bind] at hm
      rw [List.map_cons, anyCase, wp_bind, wp_bind, wp_labE hE hw, wp_one, wp_bind, e2]
      cases m1 with
      | true => simp only [↓reduceIte] at hm; cases hm; rfl
      | false =>
        simp only [Bool.false_eq_true, ↓reduceIte] at hm
        exact wp_labels hd hE Q st' h2 hm
    · cases h1

/-! ### Clauses -/

/-- What became of the last of the fields. -/
def DidF (rd : Bool) (st st' : St ω) (x a w t : Nat) (p : List String) (xs' : XdrState) (ok : Nat → Prop) (T : String)
    (pre fs : List (String × V)) (ys' : List (String × Gen.GoVal)) : Prop :=
  ∃ w' fs', fs'.map Prod.fst = fs.map Prod.fst ∧ Did rd st st' x a w w' t p xs' ok (.struct T (pre ++ fs)) (.struct T (pre ++ fs')) ∧
    RepF st' (After rd a x st ok) fs' ys'

/-- The clauses of the switch do `F`, for a discriminant of the kind. -/
def DoesC (S : Sem ω) (pkg : String) (u : Bool) (e : Expr) (c : List (List Expr) × List (List Stmt)) (κ : Gen.Kind)
    (F : Gen.GoVal → XdrState → List (String × Gen.GoVal) → Gen.Res (XdrState × List (String × Gen.GoVal))) : Prop :=
  ∀ ⦃rd : Bool⦄ ⦃st : St ω⦄ ⦃x a w t p xs ok T pre fs ρ D ys xs' ys' d dv⦄ (i0 : Nat), At rd st x a w t p xs ok (.struct T (pre ++ fs)) →
    ((pre ++ fs).map Prod.fst).Nodup → PtrTo S pkg u ρ D st e ⟨t, p⟩ → EnvOK ρ st D x → Fixed D rd st x w t → RepF st ok fs ys →
    DV κ d dv → F d xs ys = .ok (xs', ys') →
    wp (choose S pkg ρ dv i0 none c.1) (fun o s => s = st ∧
      match o with
      | none => DidF rd st st x a w t p xs' ok T pre fs ys'
      | some j => ∃ k, j = i0 + k ∧ wp (execNth S pkg c.2 k ρ) (fun r st' => r = .next ∧ DidF rd st st' x a w t p xs' ok T pre fs ys') st) st

theorem DoesC.nil {S : Sem ω} {pkg : String} {u : Bool} {e : Expr} {κ : Gen.Kind} :
    DoesC S pkg u e (casesG .nil) κ (fun _ xs fs => .ok (xs, fs)) := by
  intro rd st x a w t p xs ok T pre fs ρ D ys xs' ys' d dv i0 hA nd hp hE hD hR hd hF
  cases hF
  rw [casesG, wp_choose_nil]
  exact ⟨rfl, w, fs, rfl, Did.refl hA, hR.mono (fun _ _ _ => rfl) (Nat.le_refl _) fun _ hj _ => .inl hj⟩

theorem DoesF.scope {S : Sem ω} {pkg : String} {u : Bool} {e : Expr} {b : List Stmt}
    {F : XdrState → List (String × Gen.GoVal) → Gen.Res (XdrState × List (String × Gen.GoVal))} (h : DoesF S pkg u e b F) (bs : List (List Stmt))
    {rd : Bool} {st : St ω} {x a w t : Nat} {p : List String} {xs xs' : XdrState} {ok : Nat → Prop} {T : String} {pre fs : List (String × V)}
    {ρ : Env} {D : Nat → Prop} {ys ys' : List (String × Gen.GoVal)} (hA : At rd st x a w t p xs ok (.struct T (pre ++ fs)))
    (nd : ((pre ++ fs).map Prod.fst).Nodup) (hp : PtrTo S pkg u ρ D st e ⟨t, p⟩) (hE : EnvOK ρ st D x) (hD : Fixed D rd st x w t)
    (hR : RepF st ok fs ys) (hF : F xs ys = .ok (xs', ys')) :
    wp (execNth S pkg (b :: bs) 0 ρ) (fun r st' => r = .next ∧ DidF rd st st' x a w t p xs' ok T pre fs ys') st := by
  rw [wp_nth_zero]
  refine wp_mono (h hA nd (hp.mono (.scope _ _ [] rfl fun _ => rfl) fun _ _ => rfl) (hE.scope [] fun _ _ => rfl) hD hR hF) ?_
  rintro _ st1 ⟨rfl, h⟩
  exact ⟨rfl, h⟩

theorem DoesC.dflt {S : Sem ω} {pkg : String} {u : Bool} {e : Expr} {κ : Gen.Kind} {b : Gen.Stmts}
    {F : XdrState → List (String × Gen.GoVal) → Gen.Res (XdrState × List (String × Gen.GoVal))} (h : DoesF S pkg u e (stmtsG b) F) :
    DoesC S pkg u e (casesG (.dflt b)) κ (fun _ => F) := by
  intro rd st x a w t p xs ok T pre fs ρ D ys xs' ys' d dv i0 hA nd hp hE hD hR hd hF
  rw [casesG, wp_choose_default, wp_choose_nil]
  exact ⟨rfl, 0, rfl, h.scope [] hA nd hp hE hD hR hF⟩

theorem casesG_labels (b : Gen.Stmts) (c : Gen.GoCases) : ∀ (l : Gen.Val) (more : List Gen.Val),
    casesG (Gen.goLabels l more b c) =
      (((l :: more).map fun l => valE (Gen.iVal l)) :: (casesG c).1, stmtsG b :: (casesG c).2)
  | l, [] => by rw [Gen.goLabels, casesG, if_neg (by simp)]; rfl
  | l, l' :: more => by
    rw [Gen.goLabels, casesG, if_pos rfl, casesG_labels b c l' more]
    rfl

theorem DoesC.cons {S : Sem ω} {pkg : String} {u : Bool} {e : Expr} {κ : Gen.Kind} {g : Gen.GoProg} {call : Gen.Call} {l : Gen.Val} {more : List Gen.Val}
    {b : Gen.Decl} {cs : Gen.Cases} {s : Gen.Stmts} {c : Gen.GoCases} (hl : (l :: more).all (labelOk S.prog pkg g κ) = true)
    (hb : DoesF S pkg u e (stmtsG s) (fun xs fs => b.codec g call xs fs))
    (hc : DoesC S pkg u e (casesG c) κ (fun d xs fs => cs.codec g call d xs fs)) :
    DoesC S pkg u e (casesG (Gen.goLabels l more s c)) κ (fun d xs fs => (Gen.Cases.cons l more b cs).codec g call d xs fs) := by
  intro rd st x a w t p xs ok T pre fs ρ D ys xs' ys' d dv i0 hA nd hp hE hD hR hd hF
  rw [casesG_labels]
  dsimp only
  rw [List.map_cons, wp_choose_cons, ← List.map_cons (f := fun l => valE (Gen.iVal l))]
  unfold Gen.Cases.codec at hF
  cases hm : Gen.matchLabels g d (l :: more) with
  | error => simp only [hm, bind, Except.bind] at hF; cases hF
  | ok m =>
    simp only [hm, bind, Except.bind] at hF
    rw [wp_labels hd hE _ st hl hm]
    cases m with
    | true =>
      simp only [↓reduceIte] at hF ⊢
      exact ⟨trivial, 0, rfl, hb.scope _ hA nd hp hE hD hR hF⟩
    | false =>
      simp only [Bool.false_eq_true, ↓reduceIte] at hF ⊢
      cases b with
      | void =>
        simp only at hF
        refine wp_mono (hc (i0 + 1) hA nd hp hE hD hR hd hF) ?_
        rintro o s ⟨rfl, h⟩
        refine ⟨rfl, ?_⟩
        cases o with
        | none => exact h
        | some j =>
          obtain ⟨k, rfl, h⟩ := h
          exact ⟨k + 1, by omega, by rw [wp_nth_succ]; exact h⟩
      | name ty n =>
        cases ys with
        | nil => cases hF
        | cons q ys =>
          obtain ⟨f, y⟩ := q
          simp only at hF
          by_cases e1 : f = Gen.i n
          · rw [if_pos e1] at hF
            cases hr : cs.codec g call d xs ys with
            | error => simp only [hr] at hF; cases hF
            | ok r =>
              obtain ⟨xs2, ys2⟩ := r
              simp only [hr] at hF
              obtain ⟨rfl, rfl⟩ := Prod.mk.inj (Except.ok.inj hF)
              obtain ⟨v, fs, rfl, hv, hfs⟩ := hR.inv
              have e2 : ∀ l, pre ++ (f, v) :: l = (pre ++ [(f, v)]) ++ l := by simp
              rw [e2] at hA nd
              have hput : ∀ {st'}, DidF rd st st' x a w t p xs2 ok T (pre ++ [(f, v)]) fs ys2 → DidF rd st st' x a w t p xs2 ok T pre ((f, v) :: fs) ((f, y) :: ys2) := by
                rintro st' ⟨w', fs', hn, hdid, hrep⟩
                refine ⟨w', (f, v) :: fs', by simp [hn], ?_, .cons (hdid.rep hA hv) hrep⟩
                rw [e2 fs, e2 fs']
                exact hdid
              refine wp_mono (hc (i0 + 1) hA nd hp hE hD hfs hd hr) ?_
              rintro o s ⟨rfl, h⟩
              refine ⟨rfl, ?_⟩
              cases o with
              | none => exact hput h
              | some j =>
                obtain ⟨k, rfl, h⟩ := h
                refine ⟨k + 1, by omega, ?_⟩
                rw [wp_nth_succ]
                refine wp_mono h ?_
                rintro _ st' ⟨rfl, h⟩
                exact ⟨rfl, hput h⟩
          · rw [if_neg e1] at hF; cases hF

/-- A union. -/
theorem does_union {S : Sem ω} {pkg : String} {u : Bool} {e : Expr} {κ : Gen.Kind} {n : String} {b : List Stmt} {c : List (List Expr) × List (List Stmt)}
    {G : XdrState → Gen.GoVal → Gen.Res (XdrState × Gen.GoVal)}
    {F : Gen.GoVal → XdrState → List (String × Gen.GoVal) → Gen.Res (XdrState × List (String × Gen.GoVal))}
    (h : Does S pkg u (.un "&" (.sel e n)) b G) (hk : ∀ {xs v xs' v'}, G xs v = .ok (xs', v') → Gen.ofKind κ v') (hc : DoesC S pkg u e c κ F) :
    Does S pkg u e (b ++ [.switch (.sel e n) c.1 c.2]) (fun xs v => match v with
      | .struct ((f, d) :: arms) => if f = n then
          (G xs d >>= fun r => F r.2 r.1 arms >>= fun r' => pure (r'.1, .struct ((f, r.2) :: r'.2))) else .error .stuck
      | _ => .error .stuck) := by
  intro rd st x a w t p xs ok v ρ D y xs' y' hA hp hE hD hR hF
  cases y <;> try (cases hF; done)
  rename_i ys
  cases ys with
  | nil => cases hF
  | cons q ys =>
    obtain ⟨f, y⟩ := q
    dsimp only at hF
    by_cases e1 : f = n
    · subst e1
      rw [if_pos rfl] at hF
      cases hr : G xs y with
      | error => simp only [hr, bind, Except.bind] at hF; cases hF
      | ok r =>
        obtain ⟨xs1, y1⟩ := r
        simp only [hr, bind, Except.bind] at hF
        cases hr' : F y1 xs1 ys with
        | error => simp only [hr'] at hF; cases hF
        | ok r' =>
          obtain ⟨xs2, ys2⟩ := r'
          simp only [hr'] at hF
          obtain ⟨rfl, rfl⟩ := Prod.mk.inj (Except.ok.inj hF)
          obtain ⟨T, fs, rfl, hfs, nd⟩ := hR.fields
          obtain ⟨v, fs, rfl, hv, hfs⟩ := hfs.inv
          have hl := lookup_mid (pre := []) nd
          rw [wp_execs_append]
          refine wp_mono (h (hA.field hl) (hp.field f) hE hD hv hr) ?_
          rintro _ st1 ⟨rfl, w1, v1, hd, hrep⟩
          have hd' := Did.field hA hl hd
          have hset := setFld_mid (pre := []) (u' := v1) nd
          rw [List.nil_append, List.nil_append] at hset
          rw [hset] at hd'
          obtain ⟨hfx, hD'⟩ := hd'.fixed hA hD
          obtain ⟨hpk, Tp, hT⟩ := hp ρ st1 (.refl _ _) hfx
          have hcell := hd'.at'.cell
          have hsel : ∀ Q, wp (evalM S pkg ρ (.sel e f)) Q st1 = Q [v1] st1 := by
            intro Q
            rw [wp_sel, hpk]
            dsimp only
            rw [hT]
            have hcell' := hd.at'.cell
            go_run [hcell, hcell']
          rw [wp_execs_next, wp_s_switch, hsel, wp_one]
          have nd1 : (([(f, v1)] ++ fs).map Prod.fst).Nodup := by simpa using nd
          refine wp_mono (hc (pre := [(f, v1)]) 0 hd'.at' nd1 (hp.mono (.refl _ _) hfx) (hE.mono (fun _ h => h) hfx) hD' (hd'.repF hA hfs)
            (.of (hk hr) hrep) hr') ?_
          have hn1 := hd'.keeps.next
          have hfin : ∀ {st2}, DidF rd st1 st2 x a w1 t p xs2 (After rd a x st ok) T [(f, v1)] fs ys2 →
              ∃ w' v', Did rd st st2 x a w w' t p xs2 ok (.struct T ((f, v) :: fs)) v' ∧ Rep st2 (After rd a x st ok) v' (.struct ((f, y1) :: ys2)) := by
            rintro st2 ⟨w2, fs2, hn2, hd2, hrep2⟩
            refine ⟨w2, .struct T ((f, v1) :: fs2), hd'.trans hA hd2, ?_⟩
            have hv1 := hd2.rep hd'.at' hrep
            refine RepF.struct (.cons ?_ ?_) (by simpa [hn2] using nd)
            · exact hv1.mono (fun _ _ _ => rfl) (Nat.le_refl _) fun _ hj _ => hj.trans hn1
            · exact hrep2.mono (fun _ _ _ => rfl) (Nat.le_refl _) fun _ hj _ => hj.trans hn1
          rintro o s ⟨rfl, h⟩
          cases o with
          | none =>
            dsimp only
            rw [wp_execs_nil]
            exact ⟨rfl, hfin h⟩
          | some j =>
            obtain ⟨k, rfl, h⟩ := h
            dsimp only
            rw [Nat.zero_add]
            refine wp_mono h ?_
            rintro _ st2 ⟨rfl, h⟩
            rw [wp_execs_nil]
            exact ⟨rfl, hfin h⟩
    · rw [if_neg e1] at hF; cases hF

end Verif.Lang.Text
