/-
PROPERTY C71: servers made by any sequence of registrations, as Go text.
-/
import Mathlib.Data.List.Forall2
import Verif.Props.GoExchange

namespace Verif.Props
open Verif.Xdr Verif.Spec Verif.Rpc Verif.Lang

variable {ω σ : Type}

section
variable [Others]

attribute [local irreducible] wp callN handleReqErr

/-! ### The program -/

/-- `srv.RegisterMany(regs)` or `srv.Register(prog, vers, proc, handler)` -/
inductive RegCall where
  | many (regs : V)
  | one (prog vers proc : UInt32) (handler : V)

/-- The call. -/
def RegCall.exec (E : Ext ω) (srv : V) : RegCall → M ω (List V)
  | .many rv => callN goProg E 2 (.meth "rfc1057.Server" "RegisterMany") [srv, rv]
  | .one prog vers proc h => callN goProg E 1 (.meth "rfc1057.Server" "Register") [srv, .u32 prog, .u32 vers, .u32 proc, h]

/-- The calls, one after the other. -/
def execAll (E : Ext ω) (srv : V) : List RegCall → M ω Unit
  | [] => pure ()
  | c :: cs => do
    let _ ← c.exec E srv
    execAll E srv cs

/-- `srv := rfc1057.MakeServer()`, the calls, and `return srv.Run(rw)` -/
def serverOf (E : Ext ω) (cs : List RegCall) (rw : V) : M ω (List V) := do
  match ← callN goProg E 1 (.fn "rfc1057" "MakeServer") [] with
  | [srv] =>
    execAll E srv cs
    callN goProg E 2 (.meth "rfc1057.Server" "Run") [srv, rw]
  | _ => stop .stuck

/-- What a call registers. -/
inductive RegCall.At (H : V → ProcHandler σ → Prop) (st : St ω) : RegCall → List (ProcReg σ) → Prop
  | many {rv : V} {rs : List (ProcReg σ)} (h : RegsAt H st rv rs) : RegCall.At H st (.many rv) rs
  | one {hv : V} {r : ProcReg σ} (h : H hv r.handler) : RegCall.At H st (.one r.prog r.vers r.proc hv) [r]

/-! ### Proof -/

theorem RegCall.At.mono {H : V → ProcHandler σ → Prop} {st st' : St ω} {s : Shape} {hs : Handlers σ} (ht : Table H st s hs) {c : RegCall} {rs : List (ProcReg σ)}
    (h : c.At H st rs) (hk : ∀ j, j < st.next → ¬ s.cells hs j → st'.heap j = st.heap j) (hn : st.next ≤ st'.next) : c.At H st' rs := by
  cases h with
  | one h => exact .one h
  | many h =>
    refine .many ?_
    cases h with
    | nil => exact .nil
    | slice hl hlt hr =>
      refine .slice ((hk _ hlt fun h => ?_).trans hl) (by omega) hr
      obtain ⟨_, e⟩ := ht.mapv h
      rw [hl] at e
      cases e

theorem exec_spec (E : Ext ω) (H : V → ProcHandler σ → Prop) {st : St ω} {c : Nat} {s : Shape} {hs : Handlers σ}
    (hc : st.heap c = serverV s.top) (hlt : c < st.next) (ht : Table H st s hs) {rc : RegCall} {rs : List (ProcReg σ)} (hr : rc.At H st rs) :
    wp (rc.exec E (.ptr "" ⟨c, []⟩)) (fun _ st' => ∃ s', RegEnd H s s' hs (registerMany hs rs) st st') st := by
  cases hr with
  | many h => exact wp_mono (RegisterMany_spec E 0 H hc hlt ht h) fun _ _ h => h.2
  | @one hv r h => exact wp_mono (Register_spec E 0 H hc hlt ht r.prog r.vers r.proc h) fun _ _ h => h.2

theorem execAll_spec (E : Ext ω) (H : V → ProcHandler σ → Prop) {c : Nat} : ∀ {rcs : List RegCall} {rss : List (List (ProcReg σ))} {st : St ω} {s : Shape} {hs : Handlers σ},
    st.heap c = serverV s.top → c < st.next → Table H st s hs → List.Forall₂ (RegCall.At H st) rcs rss →
    wp (execAll E (.ptr "" ⟨c, []⟩) rcs) (fun _ st' => ∃ s', RegEnd H s s' hs (registerMany hs rss.flatten) st st') st
  | [], _, st, s, hs, hc, hlt, ht, .nil => by
    rw [execAll, wp_pure]
    exact ⟨s, rfl, ht, fun j hj => .inl hj, fun j _ _ => rfl, Nat.le_refl _, rfl, rfl⟩
  | rc :: rcs, rs :: rss, st, s, hs, hc, hlt, ht, .cons hr hrs => by
    rw [execAll, wp_bind]
    refine wp_mono (exec_spec E H hc hlt ht hr) ?_
    rintro _ st1 ⟨s1, h1⟩
    have hcc : st1.heap c = serverV s1.top := by
      rw [h1.frame c hlt, hc, h1.top]
      intro hj
      obtain ⟨_, e⟩ := ht.mapv hj
      rw [hc] at e; cases e
    have n1 := h1.next
    refine wp_mono (execAll_spec E H hcc (by omega) h1.table (hrs.imp fun _ _ h => h.mono ht h1.frame n1)) ?_
    rintro _ st2 ⟨s2, h2⟩
    refine ⟨s2, ?_⟩
    rw [List.flatten_cons, registerMany_append]
    exact h1.trans h2 (fun _ _ => rfl) (Nat.le_refl _) rfl rfl

/-- As `serverMain_spec`. -/
theorem serverOf_spec {E : Ext ω} {W : Wire ω} {k : Nat} {rw : V} {I : (Nat → Prop) → St ω → σ → Prop}
    (T : Transport E W rw) (A : App E rw I) (B : Back E W I) (F : Front E W rw I)
    {st : St ω} {app : Nat → Prop} {y : σ} (hI : I app st y) {rcs : List RegCall} {rss : List (List (ProcReg σ))}
    (hr : List.Forall₂ (RegCall.At (Handles E W (k + 7) I) st) rcs rss)
    {reqs : List (List UInt8)} {x : RunErr} (hrun : runN E.loops (W.input st.world) = (reqs, some x)) :
    wp (serverOf (atOnce E (k + 9)) rcs rw) (fun r st' =>
      ∃ e, r = [e] ∧ RunRel e x ∧ ServedEnd W I (registerMany makeServer rss.flatten) reqs y st st') st := by
  have alt : ∀ j, app j → j < st.next := fun j => A.lt j hI
  rw [serverOf, wp_bind]
  refine wp_mono (MakeServer_spec (atOnce E (k + 9)) 0 (Handles E W (k + 7) I) st) ?_
  rintro _ st1 ⟨c, s, rfl, hc, hlt, hcs, ht, hs, ⟨k1, n1, w1, d1⟩⟩
  dsimp only
  rw [wp_bind]
  have hr1 : List.Forall₂ (RegCall.At (Handles E W (k + 7) I) st1) rcs rss := hr.imp fun _ _ h => by
    cases h with
    | one h => exact .one h
    | many h => exact .many (h.mono k1 n1)
  refine wp_mono (execAll_spec (atOnce E (k + 9)) (Handles E W (k + 7) I) hcs hlt ht hr1) ?_
  rintro _ st2 ⟨s2, ht2⟩
  have hcc : ¬ s.cells (makeServer : Handlers σ) c := by
    intro h
    obtain ⟨_, e⟩ := ht.mapv h
    rw [hcs] at e; cases e
  have hce : ∀ j, s.cells (makeServer : Handlers σ) j → st.next ≤ j := by
    rintro j (rfl | ⟨p, vm, h, _⟩)
    · exact hs
    · cases h
  have hI2 : I app st2 y := A.stable _ hI (fun j hj => by
    have := alt j hj
    rw [ht2.frame j (by omega) (fun h => by have := hce j h; omega), k1 j this]) (by rw [ht2.world, w1]) (by have := ht2.next; omega)
  refine wp_mono (Run_atOnce T A B F hI2 ht2.table (cs := c) (by rw [ht2.frame c hlt hcc, hcs, ht2.top]) (by have := ht2.next; omega)
    (fun h => by have := alt _ h; omega) (fun j hj h => ?_) (x := x) (reqs := reqs) (by rw [ht2.world, w1, hrun])) ?_
  · have := alt _ h
    rcases ht2.cells j hj with h | h
    · have := hce _ h; omega
    · omega
  · rintro _ st3 ⟨e, rfl, hx, hi, hsent⟩
    exact ⟨e, rfl, hx, hi, by rw [hsent, ht2.world, w1]⟩

/-- **C71** A server made by any calls of `RegisterMany` and `Register`, in any order, serves what they registered, all together; a later
registration of a procedure replaces an earlier one (`Responses` goes by `lastReg`). -/
theorem C71_connection {E : Ext ω} {W : Wire ω} {k : Nat} {rw : V} (T : Transport E W rw) {I : (Nat → Prop) → St ω → σ → Prop} (A : App E rw I)
    (B : Back E W I) (F : Front E W rw I) {st : St ω} {app : Nat → Prop} {y : σ} (hI : I app st y) {rcs : List RegCall} {rss : List (List (ProcReg σ))}
    (hr : List.Forall₂ (RegCall.At (Handles E W (k + 7) I) st) rcs rss) (ho : ∀ regs ∈ rss, Orderly regs) (hm : ∀ regs ∈ rss, Modest regs)
    (hl : (W.input st.world).flatten.length < E.loops) {ms : List (List UInt8)} {e : StreamEnd} (hs : Stream (W.input st.world).flatten ms e) :
    ∃ v x st' y' out app', serverOf (atOnce E (k + 9)) rcs rw st = .ok ([v], st') ∧ RunRel v x ∧ Reported e x ∧
      Responses rss.flatten ms y y' out ∧ I app' st' y' ∧ W.sent st'.world = W.sent st.world ++ out := by
  have ho' : Orderly rss.flatten := by
    intro r hr
    obtain ⟨l, h1, h2⟩ := List.mem_flatten.mp hr
    exact ho l h1 r h2
  have hm' : Modest rss.flatten := by
    intro r hr
    obtain ⟨l, h1, h2⟩ := List.mem_flatten.mp hr
    exact hm l h1 r h2
  obtain ⟨x, hx, hrun⟩ := runN_stream hs
  obtain ⟨r, st', h1, v, rfl, h2, ⟨app', h3⟩, h4⟩ := wp_iff.1 (serverOf_spec T A B F hI hr (hrun E.loops _ rfl hl))
  exact ⟨v, x, st', _, _, app', h1, h2, hx, responses_of ho' hm' ms y, h3, h4⟩

end

/-! ### A concrete case -/

attribute [local instance] noOthers

/-- The registrations of C56, and then procedure 3 of version 2 and of version 1, one by one. -/
def calls71 : List RegCall := [.many (.slice ⟨⟨1, []⟩, 0, 3, 3⟩), .one 7 2 3 (.obj 1), .one 7 1 3 (.obj 2)]

def regs71 : List (List (ProcReg UInt32)) := [demoRegs, [⟨7, 2, 3, addHandler⟩], [⟨7, 1, 3, .ret (none, true)⟩]]

/-- A call of version 2, and one of version 1. -/
def requests71 : Chunks :=
  let m : UInt32 → List UInt8 := fun v => callBytes { demoCall 3 with vers := v } [0, 0, 0, 5]
  [[128, 0, 0, 52] ++ m 2, [128, 0, 0, 52] ++ m 1]

/-- The hypotheses of C71 hold of it. -/
example : ∃ v x st' y' out app', serverOf (atOnce net 9) calls71 (.obj 0) (start56 requests71) = .ok ([v], st') ∧ RunRel v x ∧
    Reported .clean x ∧ Responses regs71.flatten [callBytes { demoCall 3 with vers := 2 } [0, 0, 0, 5], callBytes (demoCall 3) [0, 0, 0, 5]] 37 y' out ∧
    NetInv app' st' y' ∧ st'.world.sent = out := by
  have hs : Stream requests71.flatten [callBytes { demoCall 3 with vers := 2 } [0, 0, 0, 5], callBytes (demoCall 3) [0, 0, 0, 5]] .clean :=
    .record (callBytes { demoCall 3 with vers := 2 } [0, 0, 0, 5]) ([128, 0, 0, 52] ++ callBytes { demoCall 3 with vers := 2 } [0, 0, 0, 5])
      ([128, 0, 0, 52] ++ callBytes (demoCall 3) [0, 0, 0, 5]) _ _ ⟨by decide +kernel, by decide +kernel⟩
      (.record (callBytes (demoCall 3) [0, 0, 0, 5]) ([128, 0, 0, 52] ++ callBytes (demoCall 3) [0, 0, 0, 5]) [] _ _ ⟨by decide +kernel, by decide +kernel⟩ .clean)
  have h0 : ∀ r ∈ demoRegs, ∀ p v c, Orderly [⟨p, v, c, r.handler⟩] ∧ Modest [⟨p, v, c, r.handler⟩] := by
    intro r hr p v c
    constructor
    · intro r' hr'
      rw [List.mem_singleton.mp hr']
      exact demoRegs_orderly r hr
    · intro r' hr'
      rw [List.mem_singleton.mp hr']
      exact demoRegs_modest r hr
  have h1 := h0 ⟨7, 1, 3, addHandler⟩ (by simp [demoRegs]) 7 2 3
  have h2 := h0 ⟨7, 1, 3, .ret (none, true)⟩ (by simp [demoRegs]) 7 1 3
  obtain ⟨v, x, st', y', out, app', h1, h2, h3, h4, h5, h6⟩ := C71_connection (k := 0) net_transport net_app net_back net_front
    (inv56 requests71) (rcs := calls71) (rss := regs71)
    (.cons (.many (regs56 _)) (.cons (.one (r := ⟨7, 2, 3, addHandler⟩) (net_add 4)) (.cons (.one (r := ⟨7, 1, 3, .ret (none, true)⟩) (net_fail 7)) .nil)))
    (by
      intro l hl
      simp only [regs71, List.mem_cons, List.not_mem_nil, or_false] at hl
      rcases hl with rfl | rfl | rfl
      exacts [demoRegs_orderly, h1.1, h2.1])
    (by
      intro l hl
      simp only [regs71, List.mem_cons, List.not_mem_nil, or_false] at hl
      rcases hl with rfl | rfl | rfl
      exacts [demoRegs_modest, h1.2, h2.2])
    (by decide +kernel) hs
  exact ⟨v, x, st', y', out, app', h1, h2, h3, h4, h5, h6⟩

/-- And this is what the text does, step by step: version 2 answers 42, version 1 answers GARBAGE_ARGS. -/
example : (match serverOf (atOnce net 9) calls71 (.obj 0) (start56 requests71) with
      | .ok ([.err m []], st) => some (m, st.world.sent)
      | _ => none) =
    some (strBytes "EOF", [[128, 0, 0, 28, 0, 0, 0, 99, 0, 0, 0, 1, 0, 0, 0, 0, 0, 0, 0, 0, 0, 0, 0, 0, 0, 0, 0, 0, 0, 0, 0, 42],
      [128, 0, 0, 24, 0, 0, 0, 99, 0, 0, 0, 1, 0, 0, 0, 0, 0, 0, 0, 0, 0, 0, 0, 0, 0, 0, 0, 4]]) := by
  decide +kernel

end Verif.Props
