/-
The compiler-correctness theorem: mutual induction over the syntax.
-/
import Verif.Gen.Compile

namespace Verif.Gen
open Verif.Xdr

theorem execs_nil (g : GoProg) (call : Call) (st : St) : execs g call .nil st = .ok st := by
  unfold execs; rfl

theorem popTo_bind {st : St} {e : Res St} {F : St → Res St} :
    (e >>= fun st' => F (st'.popTo st.locals.length)) =
      ((e >>= fun st' => .ok (st'.popTo st.locals.length)) >>= F) := by
  cases e <;> rfl

theorem execFall_goLabels (g : GoProg) (call : Call) (s : Stmts) (c : GoCases) (more : List Val) :
    ∀ (l : Val) (st : St), execFall g call (goLabels l more s c) st =
      (execs g call s st >>= fun st' => .ok (st'.popTo st.locals.length)) := by
  induction more with
  | nil => intro l st; simp [goLabels, execFall, Pure.pure, Except.pure]
  | cons l' ls ih =>
    intro l st
    simp only [goLabels, execFall, execs_nil]
    simp only [bind, Except.bind, if_true, popTo_self]
    exact ih l' st

theorem execSwitch_goLabels (g : GoProg) (call : Call) (d : GoVal) (s : Stmts) (c : GoCases)
    (more : List Val) : ∀ (l : Val) (st : St), execSwitch g call d (goLabels l more s c) st =
      (matchLabels g d (l :: more) >>= fun m =>
        if m then (execs g call s st >>= fun st' => .ok (st'.popTo st.locals.length))
        else execSwitch g call d c st) := by
  induction more with
  | nil =>
    intro l st
    simp only [goLabels, execSwitch, matchLabels]
    cases orStuck (g.label (iVal l)) with
    | error e => rfl
    | ok lab =>
      simp only [bind, Except.bind]
      cases orStuck (matchLabel d lab) with
      | error e => rfl
      | ok m => cases m <;> simp [Pure.pure, Except.pure]
  | cons l' ls ih =>
    intro l st
    rw [matchLabels]
    simp only [goLabels, execSwitch, execs_nil]
    cases orStuck (g.label (iVal l)) with
    | error e => rfl
    | ok lab =>
      simp only [bind, Except.bind]
      cases orStuck (matchLabel d lab) with
      | error e => rfl
      | ok m =>
        cases m with
        | true =>
          simp only [if_true, Pure.pure, Except.pure, popTo_self]
          exact execFall_goLabels g call s c ls l' st
        | false =>
          simp only [Bool.false_eq_true, if_false]
          exact ih l' st

/-- A field access inside a struct value. -/
theorem load_field {v w : GoVal} {path : List Step} {pre fs : List (Ident × GoVal)} {f : Ident}
    (hl : loadPath v path = .ok (.struct (pre ++ (f, w) :: fs))) (hf : f ∉ pre.map Prod.fst) :
    loadPath v (path ++ [.field f]) = .ok w := by
  rw [loadPath_append _ hl]
  simp [loadPath, child, getField_append hf, getField_head, bind, Except.bind]

theorem store_field {w : GoVal} {pre fs : List (Ident × GoVal)} {f : Ident}
    (hf : f ∉ pre.map Prod.fst) (x : GoVal) :
    storePath (.struct (pre ++ (f, w) :: fs)) [.field f] x = .ok (.struct (pre ++ (f, x) :: fs)) := by
  simp [storePath, child, setChild, getField_append hf, getField_head, setField_append _ hf,
    setField_head, bind, Except.bind, Pure.pure, Except.pure]

theorem Option.bind_inv {α β} {o : Option α} {f : α → Option β} {b : β}
    (h : (o >>= f) = some b) : ∃ a, o = some a ∧ f a = some b := by
  cases o with
  | none => cases h
  | some a => exact ⟨a, rfl, h⟩

theorem Sim.congr {r r' : Res (XdrState × GoVal)} {st : St} {path : List Step} {e : Res St}
    (h : Sim r st path e) (hr : r' = r) : Sim r' st path e := hr ▸ h

mutual
theorem Typespec.sim (g : GoProg) (call : Call) (t : Typespec) (inArr : Bool) (vi : Option Nat)
    (p : Ex) (path : List Step) (s : Stmts) (hg : t.goXdr p = some s) (hok : t.ok inArr = true)
    (hvi : vi ≠ none → inArr = true) (hp : PtrAt vi p path) (st : St) (w : GoVal)
    (hv : ViOK vi st.locals) (hl : loadPath st.v path = .ok w) :
    Sim (t.codec g call st.xs w) st path (execs g call s st) := by
  cases t with
  | int u =>
    cases u <;> simp only [Typespec.goXdr] at hg <;> cases hg <;> rw [execs_one] <;>
      simp only [Typespec.codec, exec] <;> exact withPtr_sim hp hv hl
  | hyper u =>
    cases u <;> simp only [Typespec.goXdr] at hg <;> cases hg <;> rw [execs_one] <;>
      simp only [Typespec.codec, exec] <;> exact withPtr_sim hp hv hl
  | float => simp only [Typespec.codec]; exact Sim.of_stuck
  | double => simp only [Typespec.codec]; exact Sim.of_stuck
  | quadruple => simp only [Typespec.codec]; exact Sim.of_stuck
  | bool =>
    simp only [Typespec.goXdr] at hg; cases hg; rw [execs_one]
    simp only [Typespec.codec, exec]; exact withPtr_sim hp hv hl
  | enum items => simp only [Typespec.codec]; exact Sim.of_stuck
  | ident n =>
    simp only [Typespec.goXdr] at hg; cases hg; rw [execs_one]
    simp only [Typespec.codec, exec]; exact withPtr_sim hp hv hl
  | struct ds =>
    simp only [Typespec.goXdr] at hg
    simp only [Typespec.ok, Bool.and_eq_true, decide_eq_true_eq] at hok
    cases w with
    | struct fs =>
      have := Decls.sim g call ds inArr vi p path s hg hok.2 hvi hp st [] fs hv (by simpa using hl)
        (by simp) hok.1
      exact this.congr (by simp only [Typespec.codec]; rfl)
    | _ => simp only [Typespec.codec]; exact Sim.of_stuck
  | union sw cs =>
    cases sw with
    | void => simp only [Typespec.codec]; exact Sim.of_stuck
    | name t n =>
      simp only [Typespec.goXdr] at hg
      obtain ⟨s1, hs1, hg⟩ := Option.bind_inv hg
      obtain ⟨c, hc, hg⟩ := Option.bind_inv hg
      cases hg
      simp only [Typespec.ok, Bool.and_eq_true, decide_eq_true_eq, Decl.names, Decl.ok] at hok
      obtain ⟨⟨hnd, hok1⟩, hok2⟩ := hok
      have hnd' : i n ∉ cs.names ∧ cs.names.Nodup := by simpa using hnd
      cases w with
      | struct fs =>
        cases fs with
        | nil => simp only [Typespec.codec]; exact Sim.of_stuck
        | cons a arms =>
          obtain ⟨f, d⟩ := a
          by_cases hf : f = i n
          · subst hf
            have h1 := DeclType.sim g call t inArr vi _ (path ++ [.field (i n)]) s1 hs1 hok1 hvi
              (hp.field (i n)) st d hv (load_field (pre := []) hl (by simp))
            have h2 := h1.sub (w := .struct ((i n, d) :: arms))
              (h := fun x => .struct ((i n, x) :: arms)) hl
              (fun x => store_field (pre := []) (by simp) x)
            rw [execs_append]
            have h3 := h2.seq (r2 := fun a => match a.2 with
                | .struct ((_, d) :: arms) => (cs.codec g call d a.1 arms >>= fun b =>
                    .ok (b.1, .struct ((i n, d) :: b.2)))
                | _ => .error .stuck)
              (e2 := fun st => execs g call (.cons (.switch (.field p (i n)) c) .nil) st) hl (by
                intro xs' w' v' hr hl'
                cases hcd : t.codec g call st.xs d with
                | error e => rw [hcd] at hr; cases hr
                | ok a =>
                  rw [hcd] at hr; cases hr
                  rw [execs_one]
                  unfold exec
                  have hp' := hp ⟨a.1, v', st.locals⟩ _ hv hl'
                  rw [evalEx_field (i n) hp']
                  simp only [bind, Except.bind, load_root]
                  rw [load_field (pre := []) hl' (by simp)]
                  have := Cases.sim g call cs inArr vi p path c hc hok2 hvi hp a.2
                    ⟨a.1, v', st.locals⟩ [(i n, a.2)] arms hv (by simpa using hl')
                    (by simpa using fun x hx (h : x = i n) => hnd'.1 (h ▸ hx)) hnd'.2
                  exact this)
            exact h3.congr (by
              simp only [Typespec.codec, if_true]
              cases t.codec g call st.xs d <;> rfl)
          · simp only [Typespec.codec, hf, if_false]; exact Sim.of_stuck
      | _ => simp only [Typespec.codec]; exact Sim.of_stuck
theorem DeclType.sim (g : GoProg) (call : Call) (t : DeclType) (inArr : Bool) (vi : Option Nat)
    (p : Ex) (path : List Step) (s : Stmts) (hg : t.goXdr p = some s) (hok : t.ok inArr = true)
    (hvi : vi ≠ none → inArr = true) (hp : PtrAt vi p path) (st : St) (w : GoVal)
    (hv : ViOK vi st.locals) (hl : loadPath st.v path = .ok w) :
    Sim (t.codec g call st.xs w) st path (execs g call s st) := by
  cases t with
  | typespec t =>
    simp only [DeclType.goXdr, DeclType.ok, DeclType.codec] at *
    exact Typespec.sim g call t inArr vi p path s hg hok hvi hp st w hv hl
  | array t sz => simp [DeclType.ok] at hok
  | varArray t sz =>
    simp only [DeclType.goXdr] at hg
    obtain ⟨b, hb, hg⟩ := Option.bind_inv hg
    obtain ⟨gt, hgt, hg⟩ := Option.bind_inv hg
    cases hg
    simp only [DeclType.ok, Bool.and_eq_true, Bool.not_eq_true'] at hok
    have hvn : vi = none := by
      cases vi with
      | none => rfl
      | some n => have := hvi (by simp); simp [this] at hok
    subst hvn
    have hbody : ∀ (st : St) (w : GoVal) (j : Nat), ViOK (some j) st.locals →
        loadPath st.v (path ++ [.idx j]) = .ok w →
        Sim ((fun xs v => t.codec g call xs v) st.xs w) st (path ++ [.idx j]) (execs g call b st) := by
      intro st w j hv hl
      exact Typespec.sim g call t true (some j) _ _ b hb hok.2 (fun _ => rfl) (hp.elem j) st w hv hl
    rw [execs_one]
    cases sz with
    | none =>
      simp only [DeclType.codec, hgt]
      exact var_sim hbody hp (by simp) (by simp) st w hl
    | some m =>
      simp only [DeclType.codec, hgt]
      cases hm : g.const m with
      | none => exact Sim.of_stuck
      | some k =>
        exact var_sim (mx := some k) hbody hp (by intro m' h'; cases h'; exact ⟨k, hm, rfl⟩)
          (by simp) st w hl
  | opaqueArray sz =>
    simp only [DeclType.goXdr] at hg; cases hg; rw [execs_one]
    simp only [DeclType.codec, exec]; exact withPtr_sim hp hv hl
  | opaqueVarArray sz =>
    simp only [DeclType.goXdr] at hg; cases hg; rw [execs_one]
    simp only [DeclType.codec, exec]
    cases maxOf g.const sz with
    | none => exact Sim.of_stuck
    | some m => exact withPtr_sim (f := libVarArray m) hp hv hl
  | string sz =>
    simp only [DeclType.goXdr] at hg; cases hg; rw [execs_one]
    simp only [DeclType.codec, exec]
    cases maxOf g.const sz with
    | none => exact Sim.of_stuck
    | some m => exact withPtr_sim (f := libString m) hp hv hl
  | ptr t =>
    simp only [DeclType.goXdr] at hg
    obtain ⟨b, hb, hg⟩ := Option.bind_inv hg
    obtain ⟨gt, hgt, hg⟩ := Option.bind_inv hg
    cases hg
    simp only [DeclType.ok] at hok
    simp only [DeclType.codec, hgt]
    refine ptr_sim ?_ hp st w hv hl
    intro st w hv hl
    exact Typespec.sim g call t inArr vi _ _ b hb hok hvi hp.deref st w hv hl
theorem Decl.sim (g : GoProg) (call : Call) (d : Decl) (inArr : Bool) (vi : Option Nat)
    (p : Ex) (path : List Step) (s : Stmts) (hg : d.goXdr p = some s) (hok : d.ok inArr = true)
    (hvi : vi ≠ none → inArr = true) (hp : PtrAt vi p path) (st : St)
    (pre fs : List (Ident × GoVal)) (hv : ViOK vi st.locals)
    (hl : loadPath st.v path = .ok (.struct (pre ++ fs)))
    (hpre : ∀ n ∈ d.names, n ∉ pre.map Prod.fst) :
    Sim (d.codec g call st.xs fs >>= fun a => .ok (a.1, .struct (pre ++ a.2))) st path
      (execs g call s st) := by
  cases d with
  | void =>
    simp only [Decl.goXdr] at hg; cases hg
    simp only [Decl.codec]
    rw [execs_nil]
    exact Sim.pure hl rfl
  | name t n =>
    simp only [Decl.goXdr] at hg
    simp only [Decl.ok] at hok
    simp only [Decl.names] at hpre
    cases fs with
    | nil => simp only [Decl.codec]; exact Sim.of_stuck
    | cons a fs =>
      obtain ⟨f, w⟩ := a
      by_cases hf : f = i n
      · subst hf
        have hnp := hpre (i n) (by simp)
        have h1 := DeclType.sim g call t inArr vi _ (path ++ [.field (i n)]) s hg hok hvi
          (hp.field (i n)) st w hv (load_field hl hnp)
        have h2 := h1.sub (h := fun x => .struct (pre ++ (i n, x) :: fs)) hl
          (fun x => store_field hnp x)
        exact h2.congr (by
          simp only [Decl.codec, if_true]
          cases t.codec g call st.xs w <;> rfl)
      · simp only [Decl.codec, hf, if_false]; exact Sim.of_stuck
theorem Decls.sim (g : GoProg) (call : Call) (ds : Decls) (inArr : Bool) (vi : Option Nat)
    (p : Ex) (path : List Step) (s : Stmts) (hg : ds.goXdr p = some s) (hok : ds.ok inArr = true)
    (hvi : vi ≠ none → inArr = true) (hp : PtrAt vi p path) (st : St)
    (pre fs : List (Ident × GoVal)) (hv : ViOK vi st.locals)
    (hl : loadPath st.v path = .ok (.struct (pre ++ fs)))
    (hpre : ∀ n ∈ ds.names, n ∉ pre.map Prod.fst) (hnd : ds.names.Nodup) :
    Sim (ds.codec g call st.xs fs >>= fun a => .ok (a.1, .struct (pre ++ a.2))) st path
      (execs g call s st) := by
  cases ds with
  | nil =>
    simp only [Decls.goXdr] at hg; cases hg
    simp only [Decls.codec]
    rw [execs_nil]
    exact Sim.pure hl rfl
  | cons d ds =>
    simp only [Decls.goXdr] at hg
    obtain ⟨s1, hs1, hg⟩ := Option.bind_inv hg
    obtain ⟨s2, hs2, hg⟩ := Option.bind_inv hg
    cases hg
    simp only [Decls.ok, Bool.and_eq_true] at hok
    cases d with
    | void =>
      simp only [Decl.goXdr] at hs1; cases hs1
      simp only [Decls.names, Decl.names, List.nil_append] at hpre hnd
      rw [execs_append, execs_nil]
      simp only [Decls.codec]
      exact Decls.sim g call ds inArr vi p path s2 hs2 hok.2 hvi hp st pre fs hv hl hpre hnd
    | name t n =>
      simp only [Decl.goXdr] at hs1
      simp only [Decl.ok] at hok
      simp only [Decls.names, Decl.names, List.singleton_append, List.mem_cons, forall_eq_or_imp,
        List.nodup_cons] at hpre hnd
      cases fs with
      | nil => simp only [Decls.codec]; exact Sim.of_stuck
      | cons a fs =>
        obtain ⟨f, w⟩ := a
        by_cases hf : f = i n
        · subst hf
          have h1 := DeclType.sim g call t inArr vi _ (path ++ [.field (i n)]) s1 hs1 hok.1 hvi
            (hp.field (i n)) st w hv (load_field hl hpre.1)
          have h2 := h1.sub (h := fun x => .struct (pre ++ (i n, x) :: fs)) hl
            (fun x => store_field hpre.1 x)
          rw [execs_append]
          have h3 := h2.seq (r2 := fun a => match loadPath a.2 [.field (i n)] with
              | .ok x => (ds.codec g call a.1 fs >>= fun b => .ok (b.1, .struct (pre ++ (i n, x) :: b.2)))
              | .error _ => .error .stuck)
            (e2 := fun st => execs g call s2 st) hl (by
              intro xs' w' v' hr hl'
              cases hcd : t.codec g call st.xs w with
              | error e => rw [hcd] at hr; cases hr
              | ok a =>
                rw [hcd] at hr; cases hr
                have hlf : loadPath (GoVal.struct (pre ++ (i n, a.2) :: fs)) [.field (i n)] = .ok a.2 :=
                  load_field (path := []) rfl hpre.1
                simp only [hlf]
                have := Decls.sim g call ds inArr vi p path s2 hs2 hok.2 hvi hp
                  ⟨a.1, v', st.locals⟩ (pre ++ [(i n, a.2)]) fs hv (by simpa using hl')
                  (by
                    intro x hx
                    have h1 := hpre.2 x hx
                    have h2 : x ≠ i n := fun e => hnd.1 (e ▸ hx)
                    simp at h1 ⊢
                    exact ⟨fun y hy => h1 y hy, h2⟩) hnd.2
                simpa using this)
          exact h3.congr (by
            simp only [Decls.codec, if_true]
            cases t.codec g call st.xs w with
            | error e => rfl
            | ok a =>
              have hlf : loadPath (GoVal.struct (pre ++ (i n, a.2) :: fs)) [.field (i n)] = .ok a.2 :=
                  load_field (path := []) rfl hpre.1
              simp only [bind, Except.bind, hlf]
              cases ds.codec g call a.1 fs <;> rfl)
        · simp only [Decls.codec, hf, if_false]; exact Sim.of_stuck
theorem Cases.sim (g : GoProg) (call : Call) (cs : Cases) (inArr : Bool) (vi : Option Nat)
    (p : Ex) (path : List Step) (c : GoCases) (hg : cs.goXdr p = some c) (hok : cs.ok inArr = true)
    (hvi : vi ≠ none → inArr = true) (hp : PtrAt vi p path) (d : GoVal) (st : St)
    (pre fs : List (Ident × GoVal)) (hv : ViOK vi st.locals)
    (hl : loadPath st.v path = .ok (.struct (pre ++ fs)))
    (hpre : ∀ n ∈ cs.names, n ∉ pre.map Prod.fst) (hnd : cs.names.Nodup) :
    Sim (cs.codec g call d st.xs fs >>= fun a => .ok (a.1, .struct (pre ++ a.2))) st path
      (execSwitch g call d c st) := by
  cases cs with
  | nil =>
    simp only [Cases.goXdr] at hg; cases hg
    simp only [Cases.codec, execSwitch]
    exact Sim.pure hl rfl
  | dflt b =>
    simp only [Cases.goXdr] at hg
    obtain ⟨s1, hs1, hg⟩ := Option.bind_inv hg
    cases hg
    simp only [Cases.ok] at hok
    simp only [Cases.codec, execSwitch]
    exact Sim.pop0 (Decl.sim g call b inArr vi p path s1 hs1 hok hvi hp st pre fs hv hl hpre)
  | cons l more b cs =>
    simp only [Cases.goXdr] at hg
    obtain ⟨s1, hs1, hg⟩ := Option.bind_inv hg
    obtain ⟨c1, hc1, hg⟩ := Option.bind_inv hg
    cases hg
    simp only [Cases.ok, Bool.and_eq_true] at hok
    simp only [Cases.names, List.mem_append] at hpre hnd
    rw [execSwitch_goLabels]
    simp only [Cases.codec]
    cases hm : matchLabels g d (l :: more) with
    | error e => cases e <;> simp [Sim, bind, Except.bind]
    | ok m =>
      cases m with
      | true =>
        exact Sim.pop0 (Decl.sim g call b inArr vi p path s1 hs1 hok.1 hvi hp st pre fs hv hl
          (fun n hn => hpre n (.inl hn)))
      | false =>
        cases b with
        | void =>
          exact Cases.sim g call cs inArr vi p path c1 hc1 hok.2 hvi hp d st pre fs hv hl
            (fun n hn => hpre n (.inr hn)) (List.nodup_append.1 hnd).2.1
        | name t n =>
          cases fs with
          | nil => exact Sim.of_stuck
          | cons f fs =>
            obtain ⟨fn, fv⟩ := f
            by_cases hfn : fn = i n
            · have := Cases.sim g call cs inArr vi p path c1 hc1 hok.2 hvi hp d st
                (pre ++ [(fn, fv)]) fs hv (by simpa using hl) (by
                  intro x hx
                  have h1 := hpre x (.inr hx)
                  simp [Decl.names] at hnd h1 ⊢
                  exact ⟨fun y hy => h1 y hy, fun e => hnd.1 (hfn ▸ e ▸ hx)⟩)
                (List.nodup_append.1 hnd).2.1
              refine this.congr ?_
              simp only [bind, Except.bind, Bool.false_eq_true, if_false, hfn, if_true]
              cases cs.codec g call d st.xs fs with
              | error e => rfl
              | ok a => simp [Pure.pure, Except.pure]
            · simp only [bind, Except.bind, Bool.false_eq_true, if_false, hfn]
              exact Sim.of_stuck
end

end Verif.Gen
