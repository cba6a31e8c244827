/-
PROPERTY C72: a server with several versions, programs and generated packages, as Go text.
-/
import Verif.Props.GoMany
import Verif.Props.GoRegs

namespace Verif.Props
open Verif.Xdr Verif.Spec Verif.Gen Verif.Rpc Verif.Lang Verif.Lang.Text

variable {ω σ : Type}

attribute [local irreducible] wp callN

/-! ### Specification -/

/-- A version of a program of a generated package, and the user's object for it. -/
structure Service (σ : Type) where
  pkg : Pkg
  go : GoProg
  env : Spec.Env
  prog : ProgDef
  vers : ProgVer
  obj : Nat
  impl : Impl σ

/-- The package is generated from a specification that has the program and version, and the object implements it. -/
def Service.Ok [Others] (X : Ext ω) (W : Wire ω) (I : (Nat → Prop) → St ω → σ → Prop) (x : Service σ) : Prop :=
  ∃ fl s vs, x.env = envOf fl.unsignedEnum s ∧ Generated fl s x.go vs x.pkg ∧ Has (rpcPkg :: Others.ps) (typedPkg x.pkg) ∧
    .program x.prog ∈ s ∧ x.vers ∈ x.prog.vers ∧ (∃ d, Object X W I x.env d x.vers x.obj x.impl) ∧ Implements x.env x.impl x.vers ∧
    Small x.env x.impl x.vers

/-- The registration functions, called with the objects, one after the other. -/
def callRegs [Others] (X : Ext ω) (k : Nat) : List (Service σ) → M ω (List V)
  | [] => pure []
  | x :: xs => do
    match ← callN goProg X k (.fn x.pkg.name (versName x.prog x.vers "_regs")) [.obj x.obj] with
    | [rv] => do
      let rvs ← callRegs X k xs
      pure (rv :: rvs)
    | _ => stop .stuck

/-! ### The memory of the application and the wrappers -/

theorem handles_beside [Others] {X : Ext ω} {W : Wire ω} {n : Nat} {I : (Nat → Prop) → St ω → σ → Prop} {hv : V} {h : ProcHandler σ} (H : Handles X W n I hv h)
    (o : Nat) (w : V) : Handles X W n (Beside o w I) hv h where
  val := H.val
  call := by
    rintro st x a w' l hx hl app y ⟨app0, h1, h2, h3, h4, h5⟩ hax haa
    have hox : o ≠ x := fun e => hax ((h5 x).mpr (.inr e.symm))
    have hoa : o ≠ a := fun e => haa ((h5 a).mpr (.inr e.symm))
    refine wp_mono (H.call hx hl app0 y h1 (fun h => hax ((h5 x).mpr (.inl h))) (fun h => haa ((h5 a).mpr (.inl h)))) ?_
    rintro r st' ⟨rv, ev, app', rfl, K⟩
    have kn := K.next
    refine ⟨rv, ev, fun j => app' j ∨ j = o, rfl, ⟨app', K.inv, by omega, by rw [K.frame o h2 h4 hox hoa, h3], fun h => ?_, fun _ => Iff.rfl⟩, ?_, K.err, ?_, ?_,
      kn, K.defers, K.sent, K.input, K.ok⟩
    · rcases K.more o h with h | h
      · exact h4 h
      · omega
    · rintro j (h | rfl)
      · exact (K.more j h).imp_left fun h => (h5 j).mpr (.inl h)
      · exact .inl ((h5 j).mpr (.inr rfl))
    · refine K.res.mono ?_ (fun _ _ _ => rfl) (Nat.le_refl _)
      rintro j ⟨hj, hn⟩
      refine ⟨hj, ?_⟩
      rintro (h | rfl)
      · exact hn h
      · rcases hj with h | h
        · exact hoa h
        · omega
    · exact fun j hj hn => K.frame j hj fun h => hn ((h5 j).mpr (.inl h))

theorem beside_swap {I : (Nat → Prop) → St ω → σ → Prop} {o o' : Nat} {w w' : V} {app : Nat → Prop} {st : St ω} {y : σ}
    (h : Beside o w (Beside o' w' I) app st y) : Beside o' w' (Beside o w I) app st y := by
  obtain ⟨app1, ⟨app0, h1, h2, h3, h4, h5⟩, k2, k3, k4, k5⟩ := h
  have hne : o ≠ o' := fun e => k4 ((h5 o).mpr (.inr e))
  refine ⟨fun j => app0 j ∨ j = o, ⟨app0, h1, k2, k3, fun h => k4 ((h5 o).mpr (.inl h)), fun _ => Iff.rfl⟩, h2, h3, ?_, fun j => ?_⟩
  · rintro (h | h)
    · exact h4 h
    · exact hne h.symm
  · rw [k5, h5]
    tauto

theorem beside_comm (I : (Nat → Prop) → St ω → σ → Prop) (o o' : Nat) (w w' : V) : Beside o w (Beside o' w' I) = Beside o' w' (Beside o w I) := by
  funext app st y
  exact propext ⟨beside_swap, beside_swap⟩

/-- The state of the application, and values in cells. -/
def besides (l : List (Nat × V)) (I : (Nat → Prop) → St ω → σ → Prop) : (Nat → Prop) → St ω → σ → Prop :=
  l.foldr (fun c J => Beside c.1 c.2 J) I

theorem besides_comm (o : Nat) (w : V) (I : (Nat → Prop) → St ω → σ → Prop) : ∀ l, besides l (Beside o w I) = Beside o w (besides l I)
  | [] => rfl
  | c :: l => by
    show Beside c.1 c.2 (besides l (Beside o w I)) = Beside o w (Beside c.1 c.2 (besides l I))
    rw [besides_comm o w I l, beside_comm]

theorem handles_besides [Others] {X : Ext ω} {W : Wire ω} {n : Nat} {I : (Nat → Prop) → St ω → σ → Prop} {hv : V} {h : ProcHandler σ} (H : Handles X W n I hv h) :
    ∀ l, Handles X W n (besides l I) hv h
  | [] => H
  | c :: l => handles_beside (handles_besides H l) c.1 c.2

theorem handles_among [Others] {X : Ext ω} {W : Wire ω} {n : Nat} {I : (Nat → Prop) → St ω → σ → Prop} {hv : V} {h : ProcHandler σ} {c : Nat × V}
    (H : Handles X W n (Beside c.1 c.2 I) hv h) : ∀ {l : List (Nat × V)}, c ∈ l → Handles X W n (besides l I) hv h
  | _ :: l, .head _ => by
    have := handles_besides H l
    rwa [besides_comm] at this
  | c' :: _, .tail _ hm => handles_beside (handles_among H hm) c'.1 c'.2

theorem besides_app {X : Ext ω} {W : Wire ω} {rw : V} (T : Transport X W rw) {I : (Nat → Prop) → St ω → σ → Prop} (A : App X rw I) : ∀ l, App X rw (besides l I)
  | [] => A
  | c :: l => Beside.app T (besides_app T A l) c.1 c.2

theorem besides_back {X : Ext ω} {W : Wire ω} {I : (Nat → Prop) → St ω → σ → Prop} (B : Back X W I) : ∀ l, Back X W (besides l I)
  | [] => B
  | c :: l => Beside.back (besides_back B l) c.1 c.2

theorem besides_front {X : Ext ω} {W : Wire ω} {rw : V} (T : Transport X W rw) {I : (Nat → Prop) → St ω → σ → Prop} (F : Front X W rw I) :
    ∀ l, Front X W rw (besides l I)
  | [] => F
  | c :: l => Beside.front T (besides_front T F l) c.1 c.2

theorem besides_inner {I : (Nat → Prop) → St ω → σ → Prop} {st : St ω} {y : σ} : ∀ {l app}, besides l I app st y → ∃ app0, I app0 st y
  | [], app, h => ⟨app, h⟩
  | _ :: l, _, ⟨_, h, _⟩ => besides_inner (l := l) h

theorem besides_intro {I : (Nat → Prop) → St ω → σ → Prop} {st : St ω} {y : σ} {app : Nat → Prop} (hI : I app st y) :
    ∀ {l : List (Nat × V)}, (∀ c ∈ l, ¬ app c.1 ∧ c.1 < st.next ∧ st.heap c.1 = c.2) → (l.map (·.1)).Nodup →
      besides l I (fun j => app j ∨ j ∈ l.map (·.1)) st y
  | [], _, _ => by simpa [besides] using hI
  | c :: l, h, hn => by
    rw [List.map_cons, List.nodup_cons] at hn
    obtain ⟨h1, h2, h3⟩ := h c List.mem_cons_self
    refine ⟨_, besides_intro hI (fun c hc => h c (List.mem_cons_of_mem _ hc)) hn.2, h2, h3, ?_, fun j => ?_⟩
    · rintro (h | h)
      · exact h1 h
      · exact hn.1 h
    · simp only [List.map_cons, List.mem_cons]
      tauto

theorem regsAt_weaken {H H' : V → ProcHandler σ → Prop} {st : St ω} {rv : V} {rs : List (ProcReg σ)} (h : RegsAt H st rv rs)
    (hH : ∀ hv p, H hv p → H' hv p) : RegsAt H' st rv rs := by
  cases h with
  | nil => exact .nil
  | slice h1 h2 h3 => exact .slice h1 h2 (h3.imp fun _ _ ⟨hv, a, b⟩ => ⟨hv, hH _ _ a, b⟩)

/-! ### The registration functions -/

section
variable [Others] (X : Ext ω) (hX : 2 ^ 32 ≤ X.loops)

include hX in
theorem callRegs_spec {W : Wire ω} {I : (Nat → Prop) → St ω → σ → Prop} {rw : V} (A : App X rw I) : ∀ {xs : List (Service σ)}, (∀ x ∈ xs, x.Ok X W I) →
    ∃ rss, List.Forall₂ (fun x rs => Registrations x.env x.go x.impl x.prog x.vers rs ∧ Modest rs) xs rss ∧ ∃ N, ∀ n, N ≤ n → ∀ (st : St ω) (app : Nat → Prop) (y : σ), I app st y →
      ∀ m, ∃ (rvs : List V) (l : List (Nat × V)) (st' : St ω), callRegs X (m + 1) xs st = .ok (rvs, st') ∧
        List.Forall₂ (fun rv rs => ∃ c ∈ l, RegsAt (Handles X W n (Beside c.1 c.2 I)) st' rv rs) rvs rss ∧
        (∀ c ∈ l, st.next ≤ c.1 ∧ c.1 < st'.next ∧ st'.heap c.1 = c.2) ∧ (l.map (·.1)).Nodup ∧ I app st' y ∧
        (∀ j, j < st.next → st'.heap j = st.heap j) ∧ st.next ≤ st'.next ∧ st'.world = st.world
  | [], _ => ⟨[], .nil, 0, fun n _ st app y hI m => ⟨[], [], st, rfl, .nil, fun _ h => (by cases h), List.nodup_nil, hI, fun _ _ => rfl, Nat.le_refl _, rfl⟩⟩
  | x :: xs, hx => by
    obtain ⟨rss, hr, N, hN⟩ := callRegs_spec A (xs := xs) fun x h => hx x (List.mem_cons_of_mem _ h)
    obtain ⟨fl, s, vs, he, G, hq, hp, hv, ⟨d, O⟩, hi, hs⟩ := hx x List.mem_cons_self
    have hs0 := hs
    rw [he] at O hi hs
    obtain ⟨regs, hr1, N1, hN1⟩ := regs_at G hq X hX A hp hv O hi
    rw [← he] at hr1
    refine ⟨regs :: rss, .cons ⟨hr1, hr1.modest hs0⟩ hr, max N N1, fun n hn st app y hI m => ?_⟩
    obtain ⟨rv, o, st1, e1, r1, ⟨app0, -, o1, o2, -, -⟩, o3, f1, w1⟩ := hN1 n (by omega) st app y hI m
    have hI1 : I app st1 y := A.stable st1 hI (fun j hj => f1 j (A.lt j hI hj)) w1 (by omega)
    obtain ⟨rvs, l, st2, e2, r2, c2, d2, hI2, f2, n2, w2⟩ := hN n (by omega) st1 app y hI1 m
    refine ⟨rv :: rvs, (o, wrapV x.pkg x.prog x.vers x.obj) :: l, st2, ?_, .cons ⟨_, List.mem_cons_self, r1.mono f2 n2⟩ ?_, ?_, ?_, hI2, ?_, by omega, by rw [w2, w1]⟩
    · rw [callRegs]
      simp only [bind, M.bind, e1, e2]
      rfl
    · exact r2.imp fun _ _ ⟨c, hc, h⟩ => ⟨c, List.mem_cons_of_mem _ hc, h⟩
    · intro c hc
      rcases List.mem_cons.mp hc with rfl | hc
      · exact ⟨o3, by dsimp only; omega, by dsimp only; rw [f2 o o1, o2]⟩
      · obtain ⟨q1, q2, q3⟩ := c2 c hc
        exact ⟨by omega, q2, q3⟩
    · rw [List.map_cons, List.nodup_cons]
      refine ⟨fun h => ?_, d2⟩
      obtain ⟨c, hc, e⟩ := List.mem_map.mp h
      have := (c2 c hc).1
      dsimp only at e
      omega
    · exact fun j hj => by rw [f2 j (by omega), f1 j hj]

include hX in
/-- **C72** A server with any versions of any programs of any generated packages: the registration functions are called with the user's
objects, then `MakeServer`, `RegisterMany` for each, and `Run`, on any bytes whatever, each request being handled before the next is read.
`Run` comes to an end, the error tells how the stream ended, and what is written are the responses to the records of the stream, in order, where
the handler of each procedure of each version calls the method of the version's object. -/
theorem C72_connection {W : Wire ω} {rw : V} (T : Transport X W rw) {I : (Nat → Prop) → St ω → σ → Prop} (A : App X rw I) (B : Back X W I) (F : Front X W rw I)
    {xs : List (Service σ)} (hx : ∀ x ∈ xs, x.Ok X W I) :
    ∃ rss, List.Forall₂ (fun x rs => Registrations x.env x.go x.impl x.prog x.vers rs) xs rss ∧ ∃ N, ∀ k, N ≤ k → ∀ (st : St ω) (app : Nat → Prop) (y : σ), I app st y →
      (W.input st.world).flatten.length < X.loops → ∀ ms e, Stream (W.input st.world).flatten ms e →
      ∃ rvs st1, callRegs X k xs st = .ok (rvs, st1) ∧
        ∃ w x st' y' out app', serverOf (atOnce X k) (rvs.map .many) rw st1 = .ok ([w], st') ∧ RunRel w x ∧ Reported e x ∧
          Responses rss.flatten ms y y' out ∧ I app' st' y' ∧ W.sent st'.world = W.sent st.world ++ out := by
  obtain ⟨rss, hr, N, hN⟩ := callRegs_spec X hX A hx
  refine ⟨rss, hr.imp fun _ _ h => h.1, N + 10, fun k hk st app y hI hl ms e hs => ?_⟩
  obtain ⟨k, rfl⟩ : ∃ k', k = k' + 9 := ⟨k - 9, by omega⟩
  obtain ⟨rvs, l, st1, h1, h2, h3, h4, h5, h6, h7, h8⟩ := hN (k + 7) (by omega) st app y hI (k + 8)
  refine ⟨rvs, st1, h1, ?_⟩
  rw [← h8] at hl hs ⊢
  have key : ∀ rs ∈ rss, Orderly rs ∧ Modest rs := by
    clear hN hI h1 h2 h3 h4 h5 h6 h7 h8 hl hs hx
    induction hr with
    | nil => exact fun _ h => (by cases h)
    | cons h _ ih =>
      intro rs hm
      rcases List.mem_cons.mp hm with rfl | hm
      · exact ⟨h.1.orderly, h.2⟩
      · exact ih rs hm
  obtain ⟨w, x, st', y', out, app', e1, e2, e3, e4, e5, e6⟩ :=
    C71_connection (k := k) T (besides_app T A l) (besides_back B l) (besides_front T F l)
      (besides_intro h5 (fun c hc => ⟨fun h => by have := A.lt _ hI h; have := (h3 c hc).1; omega, (h3 c hc).2⟩) h4)
      (rcs := rvs.map .many) (rss := rss) (by
        rw [List.forall₂_map_left_iff]
        exact h2.imp fun _ _ ⟨c, hc, h⟩ => .many (regsAt_weaken h fun _ _ H => handles_among H hc))
      (fun rs h => (key rs h).1) (fun rs h => (key rs h).2) hl hs
  obtain ⟨app0, e5⟩ := besides_inner e5
  exact ⟨w, x, st', y', out, app0, e1, e2, e3, e4, e5, e6⟩

end

/-- **C72** The versions of the package that the text of the generator leaves are such services. -/
theorem C72_files [Others] {A : Lr} {sys : Sys} {fl : ToolFlags} {fs : Tool.FS} {s : Gen.Spec} {grow : Nat → Nat → Nat} {loops k : Nat} {q : Pkg}
    (R : SpecFile A sys fl fs s) (hm : succeeds (runTool A sys fl grow loops (k + 2) fs))
    (ho : outPkg fl.args (endFiles (runTool A sys fl grow loops (k + 2) fs)) = some q) (hq : Has (rpcPkg :: Others.ps) (typedPkg q))
    (X : Ext ω) {W : Wire ω} {I : (Nat → Prop) → St ω → σ → Prop} :
    ∃ g, generate fl.gen s = some g ∧ ∀ p, .program p ∈ s → ∀ v ∈ p.vers, ∀ (d h : Nat) (hi : Impl σ),
      Object X W I (envOf fl.gen.unsignedEnum s) d v h hi → Implements (envOf fl.gen.unsignedEnum s) hi v → Small (envOf fl.gen.unsignedEnum s) hi v →
      Service.Ok X W I ⟨q, g, envOf fl.gen.unsignedEnum s, p, v, h, hi⟩ := by
  obtain ⟨g, vs, G⟩ := C66_files R hm ho
  exact ⟨g, G.gen, fun p hp v hv d h hi O hI hs => ⟨_, _, _, rfl, G, hq, hp, hv, ⟨d, O⟩, hI, hs⟩⟩

/-! ### A concrete case

The port mapper of C67 in two packages, pmap and portmap; a further object, 8, which has no ports, is for portmap. -/

def portmapPkg : Pkg := { rpcPkg with name := "portmap" }

theorem portmap_generated : Generated Inst.fl Inst.Rfc1057.spec Inst.Rfc1057.prog Inst.Rfc1057.goVers portmapPkg := by
  obtain ⟨h1, h2, h3, h4, h5, h6, -, -⟩ := C66_rfc1057
  exact ⟨h1, h2, h3, ⟨h4.1, h4.2, h4.3, h4.4, h4.5⟩, h5, ⟨h6.1, h6.2, h6.3, h6.4⟩, by decide, by decide⟩

@[instance_reducible] def withBoth : Others := ⟨[typedPkg pmapPkg, typedPkg portmapPkg], rfl, rfl, rfl⟩

attribute [local instance] withBoth

theorem has_pmap72 : Has (rpcPkg :: Others.ps) (typedPkg pmapPkg) :=
  ⟨by decide, [rpcPkg], [typedPkg portmapPkg], rfl, fun p hp => by cases List.mem_singleton.mp hp; exact ⟨by decide, by decide⟩⟩

theorem has_portmap72 : Has (rpcPkg :: Others.ps) (typedPkg portmapPkg) :=
  ⟨by decide, [rpcPkg, typedPkg pmapPkg], [], rfl, fun p hp => by
    simp only [List.mem_cons, List.not_mem_nil, or_false] at hp
    rcases hp with rfl | rfl <;> exact ⟨by decide, by decide⟩⟩

def ext72 : String → List V → M Net (List V)
  | "PMAPPROC_NULL", [.obj 8] => pure []
  | "PMAPPROC_SET", [.obj 8, _] => pure [.bool false]
  | "PMAPPROC_UNSET", [.obj 8, _] => pure [.bool false]
  | "PMAPPROC_GETPORT", [.obj 8, _] => pure [.u32 0]
  | "PMAPPROC_DUMP", [.obj 8] => pure [.struct "portmap.Pmaplist" [("P", .nil)]]
  | "PMAPPROC_CALLIT", [.obj 8, _] => pure [.struct "portmap.Call_result" [("Port", .u32 0), ("Res", .nil)]]
  | n, vs => pmapExt n vs

def net72 : Ext Net := ⟨ext72, fun _ _ => stop .stuck, fun _ n => n, 2 ^ 32⟩

def impl72 : Impl UInt32 := fun m _ =>
  if m = "PMAPPROC_SET" then .ret (some (.bool false))
  else if m = "PMAPPROC_UNSET" then .ret (some (.bool false))
  else if m = "PMAPPROC_GETPORT" then .ret (some (.u32 0))
  else if m = "PMAPPROC_DUMP" then .ret (some (.struct [("P", .ptr none)]))
  else if m = "PMAPPROC_CALLIT" then .ret (some (.struct [("Port", .u32 0), ("Res", .bytes none)]))
  else .ret none

theorem transport72 : Transport net72 netWire (.obj 0) := ⟨net_transport.obj, net_transport.write, net_transport.read⟩
theorem app72 : App net72 (.obj 0) NetInv := ⟨net_app.lt, net_app.stable, net_app.write⟩
theorem back72 : Back net72 netWire NetInv := ⟨net_back.put, net_back.log⟩
theorem front72 : Front net72 netWire (.obj 0) NetInv := ⟨net_front.get, net_front.read⟩

theorem object7 : Object net72 netWire NetInv (envOf true Inst.Rfc1057.spec) 1 pmapVers 7 pmapImpl := by
  intro c hc st app y arg vs ok hI hok ha hh
  obtain ⟨rs, st', app', ok', h1, h2⟩ := pmap_object c hc st app y arg vs ok hI hok ha hh
  refine ⟨rs, st', app', ok', ?_, h2⟩
  simp only [pmapVers, List.mem_cons, List.not_mem_nil, or_false] at hc
  rcases hc with rfl | rfl | rfl | rfl | rfl | rfl
  · cases ha; cases hh; exact h1
  · obtain ⟨x, rfl, -⟩ := ha; obtain ⟨u, rfl, -⟩ := hh; exact h1
  · obtain ⟨x, rfl, -⟩ := ha; obtain ⟨u, rfl, -⟩ := hh; exact h1
  · obtain ⟨x, rfl, -⟩ := ha; obtain ⟨u, rfl, -⟩ := hh; exact h1
  · cases ha; cases hh; exact h1
  · obtain ⟨x, rfl, -⟩ := ha; obtain ⟨u, rfl, -⟩ := hh; exact h1

theorem object8 : Object net72 netWire NetInv (envOf true Inst.Rfc1057.spec) 1 pmapVers 8 impl72 := by
  intro c hc st app y arg vs ok hI hok ha hh
  simp only [pmapVers, List.mem_cons, List.not_mem_nil, or_false] at hc
  rcases hc with rfl | rfl | rfl | rfl | rfl | rfl
  · cases ha
    cases hh
    exact ⟨_, _, app, _, rfl, pmap_same hI rfl rfl⟩
  · obtain ⟨x, rfl, hx⟩ := ha
    obtain ⟨u, rfl, hu⟩ := hh
    exact ⟨_, _, app, _, rfl, pmap_same hI ⟨_, rfl, _, rfl, _, rfl⟩ ⟨_, rfl, .bool _⟩⟩
  · obtain ⟨x, rfl, hx⟩ := ha
    obtain ⟨u, rfl, hu⟩ := hh
    exact ⟨_, _, app, _, rfl, pmap_same hI ⟨_, rfl, _, rfl, _, rfl⟩ ⟨_, rfl, .bool _⟩⟩
  · obtain ⟨x, rfl, hx⟩ := ha
    obtain ⟨u, rfl, hu⟩ := hh
    exact ⟨_, _, app, _, rfl, pmap_same hI ⟨_, rfl, _, rfl, _, rfl⟩ ⟨_, rfl, .u32 _⟩⟩
  · cases ha
    cases hh
    refine ⟨_, _, app, _, rfl, pmap_same hI ⟨_, rfl, _, rfl, _, rfl, _, rfl, fun _ e => (by cases e)⟩ ⟨_, rfl, .struct rfl (by decide) fun k f v g y h1 h2 => ?_⟩⟩
    match k with
    | 0 => cases h1; cases h2; exact .pnil
    | k + 1 => cases h1
  · obtain ⟨x, rfl, hx⟩ := ha
    obtain ⟨u, rfl, hu⟩ := hh
    refine ⟨_, _, app, _, rfl, pmap_same hI ⟨_, rfl, _, rfl, _, rfl, _, ⟨_, rfl, _, rfl⟩, _, ⟨_, rfl, _, rfl⟩, rfl⟩ ⟨_, rfl, .struct rfl (by decide) fun k f v g y h1 h2 => ?_⟩⟩
    match k with
    | 0 => cases h1; cases h2; exact .u32 _
    | 1 => cases h1; cases h2; exact .bytes .nil fun s e => (by cases e)
    | k + 2 => cases h1

theorem impl72_small : Small (envOf true Inst.Rfc1057.spec) impl72 pmapVers := by
  have key : ∀ {n v x} x0, Denotes (envOf true Inst.Rfc1057.spec) n v x → Denotes (envOf true Inst.Rfc1057.spec) n v x0 → 24 + (enc x0).length < 2 ^ 31 →
      24 + (enc x).length < 2 ^ 31 := by
    intro n v x x0 h h0 hl
    rwa [denotes_unique h h0]
  intro c hc n hn arg s y x ha hy hd hv
  simp only [pmapVers, List.mem_cons, List.not_mem_nil, or_false] at hc
  rcases hc with rfl | rfl | rfl | rfl | rfl | rfl
  · cases hn
  · cases hn; cases hy
    exact key (.bool false) hd ⟨1, rfl⟩ (by decide)
  · cases hn; cases hy
    exact key (.bool false) hd ⟨1, rfl⟩ (by decide)
  · cases hn; cases hy
    exact key (.uint 0) hd ⟨1, rfl⟩ (by decide)
  · cases hn; cases hy
    exact key (.opt none) hd ⟨1, rfl⟩ (by decide)
  · cases hn; cases hy
    exact key (.struct [.uint 0, .vopaque []]) hd ⟨1, rfl⟩ (by decide)

theorem impl72_ok : Implements (envOf true Inst.Rfc1057.spec) impl72 pmapVers := by
  have hb : ∀ b, Typed (envOf true Inst.Rfc1057.spec) "xbool" (.bool b) := fun b => ⟨1, _, rfl, by
    simp only [hasTop, hasD, hasT]; exact ⟨b, rfl⟩⟩
  have hu : ∀ x, Typed (envOf true Inst.Rfc1057.spec) "uint32" (.u32 x) := fun x => ⟨1, _, rfl, by
    simp only [hasTop, hasD, hasT]; exact ⟨x, rfl⟩⟩
  have hz : ∀ n z, ((envOf true Inst.Rfc1057.spec).typeOf n).isSome = true → Inst.Rfc1057.prog.zeroNamed (i n) = some z →
      Typed (envOf true Inst.Rfc1057.spec) n z := by
    intro n z hn hz
    obtain ⟨z', h1, h2, _⟩ := zero_fresh (n := n) Inst.Rfc1057.gen Inst.Rfc1057.supp hn
    rw [hz] at h1; cases h1; exact h2
  intro c hc arg ha
  simp only [pmapVers, List.mem_cons, List.not_mem_nil, or_false] at hc
  rcases hc with rfl | rfl | rfl | rfl | rfl | rfl
  · rfl
  · exact ⟨_, rfl, hb false⟩
  · exact ⟨_, rfl, hb false⟩
  · exact ⟨_, rfl, hu 0⟩
  · exact ⟨_, rfl, hz "pmaplist" _ (by decide +kernel) (by decide +kernel)⟩
  · exact ⟨_, rfl, hz "call_result" _ (by decide +kernel) (by decide +kernel)⟩

/-- Portmap with the object 8, and pmap with the object 7. -/
def services72 : List (Service UInt32) :=
  [⟨portmapPkg, Inst.Rfc1057.prog, envOf true Inst.Rfc1057.spec, pmapProg, pmapVers, 8, impl72⟩,
   ⟨pmapPkg, Inst.Rfc1057.prog, envOf true Inst.Rfc1057.spec, pmapProg, pmapVers, 7, pmapImpl⟩]

theorem services72_ok : ∀ x ∈ services72, x.Ok net72 netWire NetInv := by
  intro x hx
  simp only [services72, List.mem_cons, List.not_mem_nil, or_false] at hx
  rcases hx with rfl | rfl
  · exact ⟨Inst.fl, _, _, rfl, portmap_generated, has_portmap72, pmapProg_mem, List.mem_singleton.mpr rfl, ⟨1, object8⟩, impl72_ok, impl72_small⟩
  · exact ⟨Inst.fl, _, _, rfl, pmap_generated, has_pmap72, pmapProg_mem, List.mem_singleton.mpr rfl, ⟨1, object7⟩, pmapImpl_ok, pmap_small⟩

/-- The hypotheses of C72 hold of it. -/
example (input : Chunks) (hl : input.flatten.length < 2 ^ 32) (ms : List (List UInt8)) (e : StreamEnd) (hs : Stream input.flatten ms e) :
    ∃ rss, List.Forall₂ (fun x rs => Registrations x.env x.go x.impl x.prog x.vers rs) services72 rss ∧ ∃ k rvs st1,
      callRegs net72 k services72 (pmapSt input) = .ok (rvs, st1) ∧
        ∃ w x st' y' out app', serverOf (atOnce net72 k) (rvs.map .many) (.obj 0) st1 = .ok ([w], st') ∧ RunRel w x ∧ Reported e x ∧
          Responses rss.flatten ms 37 y' out ∧ NetInv app' st' y' ∧ st'.world.sent = out := by
  obtain ⟨rss, hr, N, hN⟩ := C72_connection net72 (Nat.le_refl _) transport72 app72 back72 front72 services72_ok
  exact ⟨rss, hr, N, hN N (Nat.le_refl _) (pmapSt input) _ 37 (pmap_inv input) hl ms e hs⟩

/-- And this is what the text does, step by step; the answers are those of the object that was registered last. -/
example : [services72, services72.reverse].map (fun xs => match callRegs net72 30 xs (pmapSt (pmapRequests.map fun m => be 4 (2 ^ 31 + m.length) ++ m)) with
      | .ok (rvs, st1) =>
        match serverOf (atOnce net72 30) (rvs.map .many) (.obj 0) st1 with
        | .ok ([.err m []], st) => some (m, st.world.sent)
        | _ => none
      | _ => none) =
    [some (strBytes "EOF", [[128, 0, 0, 28, 0, 0, 0, 99, 0, 0, 0, 1, 0, 0, 0, 0, 0, 0, 0, 0, 0, 0, 0, 0, 0, 0, 0, 0, 0, 0, 0, 1],
      [128, 0, 0, 28, 0, 0, 0, 99, 0, 0, 0, 1, 0, 0, 0, 0, 0, 0, 0, 0, 0, 0, 0, 0, 0, 0, 0, 0, 0, 0, 8, 1]]),
     some (strBytes "EOF", [[128, 0, 0, 28, 0, 0, 0, 99, 0, 0, 0, 1, 0, 0, 0, 0, 0, 0, 0, 0, 0, 0, 0, 0, 0, 0, 0, 0, 0, 0, 0, 0],
      [128, 0, 0, 28, 0, 0, 0, 99, 0, 0, 0, 1, 0, 0, 0, 0, 0, 0, 0, 0, 0, 0, 0, 0, 0, 0, 0, 0, 0, 0, 0, 0]])] := by
  decide +kernel

end Verif.Props
