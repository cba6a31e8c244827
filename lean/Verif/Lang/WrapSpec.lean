/-
What the text of the generated wrappers (out.go:399-429) does, with the conversions of Verif.Lang.Static written.
-/
import Verif.Lang.WrapCode
import Verif.Lang.Static
import Verif.Lang.GenBuf

namespace Verif.Lang.Text
open Verif.Xdr (XErr XdrState)
variable {ω : Type}
set_option linter.unusedSimpArgs false

/-! ### The text -/

/-- The argument is decoded (out.go:404-409). -/
def inB : Option String → List Stmt
  | some T => [.var ["in"] (.name T), .expr (.call (.sel (addrE T "in") "Xdr") [.id "args"] false), wstmtG .setErr, wstmtG .retIfErr]
  | none => []

/-- The type of the result. -/
def outT : Option String → Ty
  | some U => .name U
  | none => .qual "xdr" "Void"

/-- `&out` -/
def outE : Option String → Expr
  | some U => addrE U "out"
  | none => .un "&" (.id "out")

/-- The handler is called, and the result returned (out.go:410-427). -/
def callB (m : String) (T U : Option String) : List Stmt :=
  [.var ["out"] (outT U), wstmtG (.callH m U.isSome T.isSome), .ret [outE U, .id "nil"]]

theorem typed_wrap {q : Pkg} {T U : Option String} {m : String} (hT : ∀ t ∈ T, declared q t = true ∧ ptrMeth q t "Xdr" = true)
    (hU : ∀ t ∈ U, declared q t = true) :
    typedB q [] ((match T with | some t => [wstmtG (.varIn (.named t)), wstmtG .inXdr, wstmtG .setErr, wstmtG .retIfErr] | none => []) ++
      (match U with | some t => [wstmtG (.varOut (.named t))] | none => [wstmtG .varOutVoid]) ++
      [wstmtG (.callH m U.isSome T.isSome), wstmtG .retOut]) = inB T ++ callB m T U := by
  cases T with
  | none =>
    cases U with
    | none => simp [typedB, wstmtG, tyG, typedS, typedC, typedE, inB, callB, outT, outE]
    | some u =>
      have := hU u rfl
      simp [typedB, wstmtG, tyG, typedS, typedC, typedE, inB, callB, outT, outE, this]
  | some t =>
    obtain ⟨h1, h2⟩ := hT t rfl
    cases U with
    | none => simp [typedB, wstmtG, tyG, typedS, typedC, typedE, inB, callB, outT, outE, h1, h2, List.lookup_cons]
    | some u =>
      have := hU u rfl
      simp [typedB, wstmtG, tyG, typedS, typedC, typedE, inB, callB, outT, outE, h1, h2, this, List.lookup_cons]

/-! ### Zero values -/

theorem zero_q_error {P : Prog} (p : String) : P.zero p (.name "error") = some .nil := rfl
theorem zero_q_Xdrable {Ps : Prog} (p : String) : Prog.zero (xdrPkg :: Ps) p (.qual "xdr" "Xdrable") = some .nil := by
  rw [Prog.zero, Prog.fuel]
  rfl
theorem zero_q_Void {Ps : Prog} (p : String) : Prog.zero (xdrPkg :: Ps) p (.qual "xdr" "Void") = some (.struct "xdr.Void" []) := by
  rw [Prog.zero, Prog.fuel]
  rfl

/-! ### Calling the handler -/

/-- The pointer that is returned. -/
def outV (pkg : String) (c : Nat) : Option String → V
  | some U => .ptr (pkg ++ "." ++ U) ⟨c, []⟩
  | none => .ptr "" ⟨c, []⟩

section
variable {Ps : Prog} {E : Ext ω} {K : FKey → List V → M ω (List V)} {pkg : String} (ok : PkgOK Ps pkg)
include ok

theorem callB_some {st : St ω} {s : List (String × Nat)} {iw o h ii : Nat} {Tn Tw m U : String} {z : V} {T : Option String}
    {R : V → St ω → Prop}
    (hz : Prog.zero (xdrPkg :: Ps) pkg (.name U) = some z)
    (hw : s.lookup "w" = some iw) (hn : s.lookup "nil" = none) (hi : T.isSome = true → s.lookup "in" = some ii)
    (hiw : st.heap iw = .ptr Tn ⟨o, []⟩) (ho : st.heap o = .struct Tw [("h", .obj h)]) (hlw : iw < st.next) (hlo : o < st.next)
    (hli : T.isSome = true → ii < st.next)
    (hcall : wp (E.ext m (.obj h :: if T.isSome then [st.heap ii] else []))
      (fun r st2 => ∃ u, r = [u] ∧ (∀ v, coerce v u = u) ∧ st2.heap st.next = z ∧ st.next < st2.next ∧ R u st2) (st.push z)) :
    wp (execs (Sem.mk (xdrPkg :: Ps) K E.ext E.spawn E.grow E.loops : Sem ω) pkg (callB m T (some U)) [s] .next)
      (fun r st' => ∃ st2 u, R u st2 ∧ st.next < st2.next ∧ r.2 = .ret [outV pkg st.next (some U), .nil] ∧ st' = st2.set st.next u) st := by
  have hcn := ok.cnil
  cases T with
  | none =>
    go_run [callB, outT, outE, addrE, wstmtG, hz, hw, hn, hiw, ho, Option.isSome_none, Option.isSome_some]
    refine wp_mono hcall ?_
    rintro _ st2 ⟨u, rfl, hu, h1, h2, h3⟩
    go_run [hcn, hn, hu, h1]
    exact ⟨st2, u, h3, h2, rfl, rfl⟩
  | some t =>
    have hi := hi rfl
    have hli := hli rfl
    go_run [callB, outT, outE, addrE, wstmtG, hz, hw, hn, hi, hiw, ho, Option.isSome_none, Option.isSome_some]
    refine wp_mono hcall ?_
    rintro _ st2 ⟨u, rfl, hu, h1, h2, h3⟩
    go_run [hcn, hn, hu, h1]
    exact ⟨st2, u, h3, h2, rfl, rfl⟩

theorem callB_none {st : St ω} {s : List (String × Nat)} {iw o h ii : Nat} {Tn Tw m : String} {T : Option String}
    {R : List V → St ω → Prop}
    (hw : s.lookup "w" = some iw) (hn : s.lookup "nil" = none) (hi : T.isSome = true → s.lookup "in" = some ii)
    (hiw : st.heap iw = .ptr Tn ⟨o, []⟩) (ho : st.heap o = .struct Tw [("h", .obj h)]) (hlw : iw < st.next) (hlo : o < st.next)
    (hli : T.isSome = true → ii < st.next)
    (hcall : wp (E.ext m (.obj h :: if T.isSome then [st.heap ii] else [])) R (st.push (.struct "xdr.Void" []))) :
    wp (execs (Sem.mk (xdrPkg :: Ps) K E.ext E.spawn E.grow E.loops : Sem ω) pkg (callB m T none) [s] .next)
      (fun r st' => (∃ rs, R rs st') ∧ r.2 = .ret [outV pkg st.next none, .nil]) st := by
  have hcn := ok.cnil
  cases T with
  | none =>
    go_run [callB, outT, outE, addrE, wstmtG, zero_q_Void, hw, hn, hiw, ho, Option.isSome_none, Option.isSome_some]
    refine wp_mono hcall ?_
    rintro rs st2 h3
    go_run [hcn, hn]
    exact ⟨⟨rs, h3⟩, rfl⟩
  | some t =>
    have hi := hi rfl
    have hli := hli rfl
    go_run [callB, outT, outE, addrE, wstmtG, zero_q_Void, hw, hn, hi, hiw, ho, Option.isSome_none, Option.isSome_some]
    refine wp_mono hcall ?_
    rintro rs st2 h3
    go_run [hcn, hn]
    exact ⟨⟨rs, h3⟩, rfl⟩

end

/-! ### Decoding the argument -/

section
variable {Ps : Prog} {E : Ext ω} {k : Nat} {pkg T : String} {F : XdrState → Gen.GoVal → Gen.Res (XdrState × Gen.GoVal)} (ok : PkgOK Ps pkg)
  (hc : CallOK (Sem.mk (xdrPkg :: Ps) (callN (xdrPkg :: Ps) E (k + 1)) E.ext E.spawn E.grow E.loops : Sem ω) pkg T F)
include ok hc

theorem inB_spec {st : St ω} {s : List (String × Nat)} {ia ie b x a w : Nat} {z : V} {y y' : Gen.GoVal} {xs xs' : XdrState}
    (hz : Prog.zero (xdrPkg :: Ps) pkg (.name T) = some z) (hzr : RepZ z y)
    (hsa : s.lookup "args" = some ia) (hse : s.lookup "err" = some ie) (hn : s.lookup "nil" = none)
    (hia : st.heap ia = .ptr "" ⟨x, []⟩) (hie : st.heap ie = .nil) (hne : ia ≠ ie) (hla : ia < st.next) (hle : ie < st.next)
    (hba : b ≤ ia) (hbe : b ≤ ie) (hxb : x < b) (hab : a < b)
    (hX : Xs st x a w xs) (hr : xs.reader = true) (hF : F xs y = .ok (xs', y')) :
    wp (execs (Sem.mk (xdrPkg :: Ps) (callN (xdrPkg :: Ps) E (k + 1)) E.ext E.spawn E.grow E.loops : Sem ω) pkg (inB (some T)) [s] .next)
      (fun r st' => r.1 = [("in", st.next) :: s] ∧
        (xs'.err = none → r.2 = .next ∧ Rep st' (fun j => j = a ∨ st.next < j) (st'.heap st.next) y') ∧
        (xs'.err ≠ none → r.2 = .ret [] ∧ ∃ m vs, st'.heap ie = .err m vs) ∧
        (∀ j, j < st.next → j ≠ x → j ≠ ie → st'.heap j = st.heap j) ∧ st.next < st'.next ∧ st'.world = st.world ∧ st'.defers = st.defers) st := by
  have hcn := ok.cnil
  have h5 := dot_ne pkg T
  have hwx : w = x := by have := hX.other; rwa [hr] at this
  subst hwx
  go_run [inB, addrE, wstmtG, hz, hsa, hse, hn, hia]
  refine wp_mono (hc (rd := true) (x := w) (a := a) (w := w) (t := st.next) (p := []) (ok := fun _ => False) (v := z) (y := y)
    ⟨hX.mono (by go_run) (by go_run) (by go_run) (by go_lt), hr, ?_, by go_lt, by omega, by omega, by omega, fun j h => h.elim⟩
    (hzr _) hF) ?_
  · go_run
  rintro _ st1 ⟨w1, v1, hD, hR⟩
  have hkp := hD.keeps
  have hxs1 := hD.at'.hx
  have ht1 := put_nil hD.put
  go_kept hkp n1 k1 o1 d1
  have k1' : ∀ j, j < st.next → j ≠ w → st1.heap j = (st.push z).heap j := fun j h1 h2 => k1 j (by omega) h2 h2 (by omega)
  obtain ⟨e1, b1, hex, he, _⟩ := hxs1.cell
  have hR' : ∀ {st2 : St ω}, (∀ j, j < st1.next → j ≠ ie → st2.heap j = st1.heap j) → st1.next ≤ st2.next →
      Rep st2 (fun j => j = a ∨ st.next < j) v1 y' := by
    intro st2 hh hl
    refine hR.mono (fun j h hj => hh j hj ?_) hl fun j h hj => ?_
    · rcases h with h | ⟨-, h | h⟩
      · exact h.elim
      · omega
      · simp only [next_push] at h; omega
    · rcases h with h | ⟨-, h | h⟩
      · exact h.elim
      · exact .inl h.1
      · simp only [next_push] at h; exact .inr (by omega)
  cases he' : xs'.err with
  | none =>
    rw [he'] at he
    cases he
    go_run [k1', hsa, hse, hn, hia, hie, hex, hcn, d1]
    refine ⟨fun _ => hR' (fun j h1 h2 => by go_run) (by go_lt) |> (ht1 ▸ ·), fun h => h.elim, fun j h1 h2 h3 => by go_run [k1'], by omega, o1⟩
  | some r =>
    rw [he'] at he
    obtain ⟨m, vs, rfl⟩ := he.some'
    go_run [k1', hsa, hse, hn, hia, hie, hex, hcn, d1]
    exact ⟨fun h => h.elim, fun _ => ⟨_, _, rfl⟩, fun j h1 h2 h3 => by go_run [k1'], by omega, o1⟩
end

/-! ### The wrapper -/

theorem Rep.coerce {st : St ω} {ok : Nat → Prop} {u : V} {y : Gen.GoVal} (h : Rep st ok u y) (v : V) : coerce v u = u := by
  cases h with
  | bytes h hs => cases h <;> cases v <;> rfl
  | _ => cases v <;> rfl

/-- The arguments of the handler's method, where the argument has the value `y`: they refer to cells that are `ok`. -/
def ArgOK (T : Option String) (ok : Nat → Prop) (y : Gen.GoVal) (as : List V) (st : St ω) : Prop :=
  match T with
  | none => as = []
  | some _ => ∃ u, as = [u] ∧ Rep st ok u y

/-- The results of the handler's method: they refer to no cell of `L` either. -/
def ResOK (U : Option String) (L : Nat → Prop) (r : Option Gen.GoVal) (rs : List V) (st : St ω) : Prop :=
  match U with
  | none => r = none
  | some _ => ∃ u y, rs = [u] ∧ r = some y ∧ Rep st (fun j => ¬ L j) u y

/-- What is returned, and where it is. -/
def OutOK (U : Option String) (c : Nat) (r : Option Gen.GoVal) (st : St ω) : Prop :=
  match U with
  | none => st.heap c = .struct "xdr.Void" []
  | some _ => ∃ y, r = some y ∧ Rep st (fun j => j ≠ c) (st.heap c) y

section
variable {Ps : Prog} {E : Ext ω} {k : Nat} {pkg recv name key : String} {T U : Option String} {m : String} (ok : PkgOK Ps pkg)
  (hf : Prog.find (xdrPkg :: Ps) (.meth key name) = some (pkg, wrapF recv name (inB T ++ callB m T U)))

/-- Cells of the wrapper: its receiver, its parameter, its results. -/
structure Entered (st st0 : St ω) (Tn : String) (o x : Nat) : Prop where
  old : ∀ j, j < st.next → st0.heap j = st.heap j
  w : st0.heap st.next = .ptr Tn ⟨o, []⟩
  args : st0.heap (st.next + 1) = .ptr "" ⟨x, []⟩
  res : st0.heap (st.next + 2) = .nil
  err : st0.heap (st.next + 3) = .nil
  next : st0.next = st.next + 4
  world : st0.world = st.world
  defers : st0.defers = []

include hf in
theorem wrap_enter {st : St ω} {Tn : String} {o x : Nat} {Q : List V → St ω → Prop}
    (h : ∀ st0, Entered st st0 Tn o x →
      wp (execs (Sem.mk (xdrPkg :: Ps) (callN (xdrPkg :: Ps) E k) E.ext E.spawn E.grow E.loops : Sem ω) pkg (inB T ++ callB m T U)
        [[("err", st.next + 3), ("res", st.next + 2), ("args", st.next + 1), ("w", st.next)]] .next)
        (fun r s => s.defers = [] ∧ ((∃ a b, r.2 = .ret [a, b] ∧ Q [a, b] (s.deferring st.defers)) ∨
          (r.2 = .ret [] ∧ Q [s.heap (st.next + 2), s.heap (st.next + 3)] (s.deferring st.defers)))) st0) :
    wp (callN (xdrPkg :: Ps) E (k + 1) (.meth key name) [.ptr Tn ⟨o, []⟩, .ptr "" ⟨x, []⟩]) Q st := by
  rw [wp_callN _ _ _ _ _ _ _ _ _ hf, wp_callFunc]
  go_run [wrapF, zero_q_error, zero_q_Xdrable]
  refine wp_mono (h _ ⟨fun j hj => by go_run, by go_run, by go_run, by go_run, by go_run, by go_run, rfl, rfl⟩) ?_
  rintro ⟨ρ, c⟩ s ⟨hd, ⟨a, b, hc, hq⟩ | ⟨hc, hq⟩⟩
  · dsimp only at hc
    subst hc
    go_run [wrapF, zero_q_error, zero_q_Xdrable, hd]
    exact hq
  · dsimp only at hc
    subst hc
    go_run [wrapF, zero_q_error, zero_q_Xdrable, hd]
    exact hq

/-- What the handler's method does when it is called, for any cells `L` of the wrapper's own: it cannot change them. The argument refers to
the cell `a` of the request and to new cells. -/
def Calls (E : Ext ω) (h : Nat) (m : String) (T U : Option String) (x a : Nat) (st : St ω) (y : Gen.GoVal)
    (R : Option Gen.GoVal → List V → (Nat → Prop) → St ω → Prop) : Prop :=
  ∀ (st1 : St ω) (as : List V) (L : Nat → Prop), (∀ j, L j → st.next ≤ j ∧ j < st1.next) → ArgOK T (fun j => (j = a ∨ st.next ≤ j) ∧ ¬ L j) y as st1 →
    (∀ j, j < st.next → j ≠ x → st1.heap j = st.heap j) → st.next ≤ st1.next → st1.world = st.world →
    wp (E.ext m (.obj h :: as)) (fun rs st2 => ∃ r, ResOK U L r rs st2 ∧ R r rs L st2 ∧
      (∀ j, L j → st2.heap j = st1.heap j) ∧ st1.next ≤ st2.next ∧ st2.defers = st1.defers) st1

/-- What the wrapper does after that. -/
def Gives (pkg : String) (U : Option String) (st : St ω) (R : Option Gen.GoVal → List V → (Nat → Prop) → St ω → Prop) (rs : List V) (st' : St ω) : Prop :=
  ∃ c r st2, rs = [outV pkg c U, .nil] ∧ st.next ≤ c ∧ c < st'.next ∧ OutOK U c r st' ∧
    (∃ L rs2, R r rs2 L st2 ∧ L c ∧ (∀ j, L j → st.next ≤ j) ∧ (U.isSome = true → rs2 = [st'.heap c])) ∧
    (∀ j, j ≠ c → st'.heap j = st2.heap j) ∧ st'.next = st2.next ∧ st'.world = st2.world ∧ st'.defers = st.defers

include ok in
/-- The second half, from a state `st1` of the wrapper. -/
theorem callB_spec {K : FKey → List V → M ω (List V)} {st st0 st1 : St ω} {s : List (String × Nat)} {o h x ii : Nat} {Tn Tw : String} {z : V} {y : Gen.GoVal}
    {R : Option Gen.GoVal → List V → (Nat → Prop) → St ω → Prop} {a : Nat} (hal : a < st.next) (he : Entered st st0 Tn o x)
    (hz : ∀ u ∈ U, Prog.zero (xdrPkg :: Ps) pkg (.name u) = some z)
    (hw : s.lookup "w" = some st.next) (hn : s.lookup "nil" = none) (hi : T.isSome = true → s.lookup "in" = some ii ∧ st.next ≤ ii ∧ ii < st1.next)
    (ho : st.heap o = .struct Tw [("h", .obj h)]) (hlo : o < st.next) (hox : o ≠ x) (hxl : x < st.next)
    (hh : ∀ j, j < st.next + 3 → j ≠ x → st1.heap j = st0.heap j) (hnx : st.next + 4 ≤ st1.next) (hwd : st1.world = st.world) (hdf : st1.defers = [])
    (hy : T.isSome = true → Rep st1 (fun j => j = a ∨ ii < j) (st1.heap ii) y ∧ st.next + 4 ≤ ii)
    (hcall : Calls E h m T U x a st y R) :
    wp (execs (Sem.mk (xdrPkg :: Ps) K E.ext E.spawn E.grow E.loops : Sem ω) pkg (callB m T U) [s] .next)
      (fun r s => s.defers = [] ∧ ∃ a b, r.2 = .ret [a, b] ∧ Gives pkg U st R [a, b] (s.deferring st.defers)) st1 := by
  have hiw : st1.heap st.next = .ptr Tn ⟨o, []⟩ := by rw [hh _ (by omega) (by omega), he.w]
  have ho1 : st1.heap o = .struct Tw [("h", .obj h)] := by rw [hh _ (by omega) hox, he.old _ hlo, ho]
  have hold : ∀ z, ∀ j, j < st.next → j ≠ x → (st1.push z).heap j = st.heap j := fun z j h1 h2 => by
    rw [heap_push_ne _ _ _ (by omega), hh _ (by omega) h2, he.old _ h1]
  -- the wrapper's own cells
  have hL : ∀ j, (st.next ≤ j ∧ j < st.next + 4 ∨ T.isSome = true ∧ j = ii ∨ j = st1.next) → st.next ≤ j ∧ j < st1.next + 1 := by
    rintro j (h | ⟨h, rfl⟩ | h)
    · omega
    · have := hi h; omega
    · omega
  have harg : ∀ z, ArgOK T (fun j => (j = a ∨ st.next ≤ j) ∧ ¬ (st.next ≤ j ∧ j < st.next + 4 ∨ T.isSome = true ∧ j = ii ∨ j = st1.next)) y
      (if T.isSome then [st1.heap ii] else []) (st1.push z) := by
    intro z
    cases hT : T with
    | none => rfl
    | some t =>
      rw [hT] at hy hi
      obtain ⟨hr, hl⟩ := hy rfl
      refine ⟨st1.heap ii, rfl, hr.mono (fun j _ h => heap_push_ne _ _ _ (by omega)) (by go_lt) fun j h h' => ?_⟩
      simp only [Option.isSome_some]
      omega
  obtain ⟨L, hL, harg, hLc⟩ : ∃ L : Nat → Prop, (∀ j, L j → st.next ≤ j ∧ j < st1.next + 1) ∧
      (∀ z, ArgOK T (fun j => (j = a ∨ st.next ≤ j) ∧ ¬ L j) y (if T.isSome then [st1.heap ii] else []) (st1.push z)) ∧ L st1.next :=
    ⟨_, hL, harg, .inr (.inr rfl)⟩
  cases hU : U with
  | none =>
    rw [hU] at hcall
    refine wp_mono (callB_none ok (R := fun rs st2 => ∃ r, R r rs L st2 ∧ st2.heap st1.next = .struct "xdr.Void" [] ∧ st1.next < st2.next ∧ st2.defers = []) hw hn
      (fun h => (hi h).1) hiw ho1 (by omega) (by omega) (fun h => (hi h).2.2) ?_) ?_
    · refine wp_mono (hcall _ _ _ hL (harg _) (hold _) (by go_lt) (by go_run [hwd])) ?_
      rintro rs st2 ⟨r, h1, h2, h3, h4, h5⟩
      rw [next_push] at h4
      refine ⟨r, h2, ?_, by omega, by rw [h5]; go_run [hdf]⟩
      rw [h3 _ hLc]
      go_run
    · rintro r st2 ⟨⟨rs, r', h1, h2, h3, h4⟩, hr⟩
      exact ⟨h4, _, _, hr, st1.next, r', st2, rfl, by omega, h3, h2, ⟨_, _, h1, hLc, fun j h => (hL j h).1, fun h => absurd h Bool.false_ne_true⟩, fun _ _ => rfl, rfl, rfl, rfl⟩
  | some u =>
    rw [hU] at hcall hz
    refine wp_mono (callB_some ok (hz u rfl) (R := fun u st2 => ∃ y, R (some y) [u] L st2 ∧ st2.defers = [] ∧ Rep st2 (fun j => j ≠ st1.next) u y) hw hn
      (fun h => (hi h).1) hiw ho1 (by omega) (by omega) (fun h => (hi h).2.2) ?_) ?_
    · refine wp_mono (hcall _ _ _ hL (harg _) (hold _) (by go_lt) (by go_run [hwd])) ?_
      rintro rs st2 ⟨_, ⟨u, y, rfl, rfl, h1⟩, h2, h3, h4, h5⟩
      rw [next_push] at h4
      refine ⟨u, rfl, h1.coerce, ?_, by omega, y, h2, by rw [h5]; go_run [hdf], ?_⟩
      · rw [h3 _ hLc]
        go_run
      · refine h1.mono (fun _ _ _ => rfl) (Nat.le_refl _) fun j h _ e => h (e ▸ hLc)
    · rintro r _ ⟨st2, u, ⟨y, h1, h2, h3⟩, hlt, hr, rfl⟩
      refine ⟨by go_run [h2], _, _, hr, st1.next, some y, st2, rfl, by omega, by go_run [hlt], ⟨y, rfl, ?_⟩,
        ⟨_, _, h1, hLc, fun j h => (hL j h).1, fun _ => by go_run⟩, fun j hj => by go_run, rfl, rfl, rfl⟩
      go_run
      refine h3.mono (fun j hj _ => by go_run) (by go_lt) fun _ h _ => h

include ok hf in
/-- A wrapper without an argument. -/
theorem wrap_void (hT : T = none) {st : St ω} {o h x : Nat} {Tn Tw : String} {z : V} {y : Gen.GoVal} {a : Nat} (hal : a < st.next)
    {R : Option Gen.GoVal → List V → (Nat → Prop) → St ω → Prop}
    (hz : ∀ u ∈ U, Prog.zero (xdrPkg :: Ps) pkg (.name u) = some z)
    (ho : st.heap o = .struct Tw [("h", .obj h)]) (hlo : o < st.next) (hox : o ≠ x) (hxl : x < st.next)
    (hcall : Calls E h m T U x a st y R) :
    wp (callN (xdrPkg :: Ps) E (k + 1) (.meth key name) [.ptr Tn ⟨o, []⟩, .ptr "" ⟨x, []⟩]) (Gives pkg U st R) st := by
  subst hT
  refine wrap_enter hf fun st0 he => ?_
  have n0 := he.next
  rw [wp_execs_append]
  show wp (execs _ _ [] _ _) _ _
  rw [wp_execs_nil]
  refine wp_mono (callB_spec ok hal he hz rfl rfl (ii := 0) (fun h => absurd h Bool.false_ne_true) ho hlo hox hxl (fun _ _ _ => rfl)
    (by omega) he.world he.defers (fun h => absurd h Bool.false_ne_true) hcall) ?_
  rintro r s ⟨h1, a, b, h2, h3⟩
  exact ⟨h1, .inl ⟨a, b, h2, h3⟩⟩

include ok hf in
/-- A wrapper with an argument. -/
theorem wrap_arg {t : String} (hT : T = some t) {F : XdrState → Gen.GoVal → Gen.Res (XdrState × Gen.GoVal)} {k' : Nat} (hk : k = k' + 1)
    (hc : CallOK (Sem.mk (xdrPkg :: Ps) (callN (xdrPkg :: Ps) E (k' + 1)) E.ext E.spawn E.grow E.loops : Sem ω) pkg t F)
    {st : St ω} {o h x a w : Nat} {Tn Tw : String} {z zin : V} {y0 y : Gen.GoVal} {xs xs' : XdrState}
    {R : Option Gen.GoVal → List V → (Nat → Prop) → St ω → Prop}
    (hz : ∀ u ∈ U, Prog.zero (xdrPkg :: Ps) pkg (.name u) = some z)
    (hzi : Prog.zero (xdrPkg :: Ps) pkg (.name t) = some zin) (hzr : RepZ zin y0)
    (ho : st.heap o = .struct Tw [("h", .obj h)]) (hlo : o < st.next) (hox : o ≠ x)
    (hX : Xs st x a w xs) (hr : xs.reader = true) (hF : F xs y0 = .ok (xs', y)) :
    (xs'.err = none → Calls E h m T U x a st y R →
      wp (callN (xdrPkg :: Ps) E (k + 1) (.meth key name) [.ptr Tn ⟨o, []⟩, .ptr "" ⟨x, []⟩]) (Gives pkg U st R) st) ∧
    (xs'.err ≠ none → wp (callN (xdrPkg :: Ps) E (k + 1) (.meth key name) [.ptr Tn ⟨o, []⟩, .ptr "" ⟨x, []⟩])
      (fun rs st' => (∃ e vs, rs = [.nil, .err e vs]) ∧ (∀ j, j < st.next → j ≠ x → st'.heap j = st.heap j) ∧ st.next ≤ st'.next ∧
        st'.world = st.world ∧ st'.defers = st.defers) st) := by
  subst hT hk
  have hxl := hX.xlt
  have hal := hX.alt
  have hwl := hX.wlt
  have key : ∀ st0, Entered st st0 Tn o x → _ := fun st0 (he : Entered st st0 Tn o x) =>
    inB_spec ok hc (s := [("err", st.next + 3), ("res", st.next + 2), ("args", st.next + 1), ("w", st.next)]) hzi hzr rfl rfl rfl he.args he.err (by omega)
      (by have := he.next; omega) (by have := he.next; omega) (b := st.next) (by omega) (by omega) hxl hal
      (hX.mono (he.old _ hxl) (he.old _ hal) (he.old _ hwl) (by have := he.next; omega)) hr hF
  constructor
  · intro hn hcall
    refine wrap_enter hf fun st0 he => ?_
    have n0 := he.next
    rw [wp_execs_append]
    refine wp_mono (key st0 he) ?_
    rintro ⟨ρ, c⟩ st1 ⟨rfl, h1, -, h3, h4, h5, h6⟩
    obtain ⟨h1, h2⟩ := h1 hn
    dsimp only at h1
    subst h1
    dsimp only
    refine wp_mono (callB_spec ok hal he hz rfl rfl (ii := st0.next) (st1 := st1) (fun _ => ⟨rfl, by omega, h4⟩) ho hlo hox hxl
      (fun j hj hx => h3 j (by omega) hx (by omega)) (by omega) (h5.trans he.world) (h6.trans he.defers) (fun _ => ⟨?_, by omega⟩) hcall) ?_
    · refine h2.mono (fun _ _ _ => rfl) (Nat.le_refl _) fun j h _ => ?_
      exact h
    · rintro r s ⟨h1, a, b, h2, h3⟩
      exact ⟨h1, .inl ⟨a, b, h2, h3⟩⟩
  · intro hn
    refine wrap_enter hf fun st0 he => ?_
    have n0 := he.next
    rw [wp_execs_append]
    refine wp_mono (key st0 he) ?_
    rintro ⟨ρ, c⟩ st1 ⟨rfl, -, h2, h3, h4, h5, h6⟩
    obtain ⟨h1, e, vs, h7⟩ := h2 hn
    dsimp only at h1
    subst h1
    dsimp only
    have hres : st1.heap (st.next + 2) = .nil := by rw [h3 _ (by omega) (by omega) (by omega), he.res]
    rw [callB]
    go_run
    refine ⟨h6.trans he.defers, .inr ⟨⟨e, vs, by rw [hres, h7]⟩, fun j h1 h2 => ?_, by omega, h5.trans he.world⟩⟩
    rw [h3 _ (by omega) h2 (by omega), he.old _ h1]
end

end Verif.Lang.Text
