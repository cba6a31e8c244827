/-
A server that handles every request before it reads the next one: Run, handleReq and handleReqErr of
rfc1057/server.go, as read from the file, put together.
-/
import Verif.Lang.RunSpec
namespace Verif.Lang
open Verif.Xdr (XErr XdrState)
open Verif.Rpc
variable {ω : Type} [Others]
set_option linter.unusedSimpArgs false

attribute [local irreducible] wp


attribute [local irreducible] handleReqErr

/-- `sync.Pool.Get` and reading keep the application's state and send nothing. -/
structure Front {σ : Type} (E : Ext ω) (W : Wire ω) (rw : V) (I : (Nat → Prop) → St ω → σ → Prop) : Prop where
  get : ∀ {app st y}, I app st y →
    wp (E.ext "Get" [.glob "rfc1057.reqBufPool"]) (fun r st' => ∃ v, r = [v] ∧ Got W I app y v st st' ∧ W.sent st'.world = W.sent st.world) st
  read : ∀ {app st y} (s : Slice) (arr : List UInt8), I app st y → ArrAt st s arr → s.base.path = [] → ¬ app s.base.id → s.base.id < st.next →
    wp (E.ext "io.ReadFull" [rw, .slice s]) (fun _ st' => I app st' y) st

/-- The environment in which a new goroutine is run to its end at once. -/
def atOnce (E : Ext ω) (k : Nat) : Ext ω :=
  { E with spawn := fun key args => callN goProg E k key args >>= fun _ => pure () }

/-- Handling a request: the state of the application and what has been sent. -/
def serve {σ : Type} (hs : Handlers σ) (y : σ × List (List UInt8)) (l : List UInt8) : σ × List (List UInt8) :=
  (((handleReqErr hs).run l y.1).1,
    y.2 ++ match ((handleReqErr hs).run l y.1).2 with
      | .ok m => [m]
      | .error _ => [])

/-- The state of the application and of the server: the cells `app` are those of the application, the server and its
handler table. -/
structure Serving {σ : Type} (E : Ext ω) (W : Wire ω) (k : Nat) (I : (Nat → Prop) → St ω → σ → Prop) (cs : Nat) (s : Shape) (hs : Handlers σ)
    (app : Nat → Prop) (st : St ω) (y : σ × List (List UInt8)) : Prop where
  inv : ∃ app0, I app0 st y.1 ∧ ¬ app0 cs ∧ (∀ j, s.cells hs j → ¬ app0 j) ∧ ∀ j, app j ↔ app0 j ∨ j = cs ∨ s.cells hs j
  table : Table (Handles E W (k + 7) I) st s hs
  server : st.heap cs = serverV s.top
  lt : cs < st.next
  sent : W.sent st.world = y.2

theorem Serving.later {σ : Type} {E : Ext ω} {W : Wire ω} {k : Nat} {I : (Nat → Prop) → St ω → σ → Prop} {cs : Nat} {s : Shape} {hs : Handlers σ}
    {st st' : St ω} {app0 app : Nat → Prop} {given : Nat → Prop} {y' : σ × List (List UInt8)} (ht : Table (Handles E W (k + 7) I) st s hs)
    (hcs : st.heap cs = serverV s.top) (hlt : cs < st.next) (h1 : ¬ app0 cs) (h2 : ∀ j, s.cells hs j → ¬ app0 j) (hap : ∀ j, app j ↔ app0 j ∨ j = cs ∨ s.cells hs j)
    (hg : ∀ j, given j → ¬ app j) (hk : ∀ j, j < st.next → ¬ app0 j → ¬ given j → st'.heap j = st.heap j) (hn : st.next ≤ st'.next)
    {app1 : Nat → Prop} (hI : I app1 st' y'.1) (hm : ∀ j, app1 j → app0 j ∨ given j ∨ st.next ≤ j) (hs' : W.sent st'.world = y'.2) :
    Serving E W k I cs s hs (fun j => app1 j ∨ j = cs ∨ s.cells hs j) st' y' := by
  have ncs : ¬ given cs := fun h => hg _ h ((hap _).2 (.inr (.inl rfl)))
  have nce : ∀ j, s.cells hs j → ¬ given j := fun j hj h => hg _ h ((hap _).2 (.inr (.inr hj)))
  refine ⟨⟨app1, hI, fun h => ?_, fun j hj h => ?_, fun j => Iff.rfl⟩, ht.mono (fun j hj => hk j (ht.lt hj) (h2 j hj) (nce j hj)) hn, ?_, by omega, hs'⟩
  · rcases hm _ h with h | h | h
    · exact h1 h
    · exact ncs h
    · omega
  · have := ht.lt hj
    rcases hm _ h with h | h | h
    · exact h2 j hj h
    · exact nce j hj h
    · omega
  · rw [hk cs hlt h1 ncs, hcs]

theorem atOnce_host {σ : Type} {E : Ext ω} {W : Wire ω} {k : Nat} {rw : V} {I : (Nat → Prop) → St ω → σ → Prop}
    (T : Transport E W rw) (A : App E rw I) (B : Back E W I) (F : Front E W rw I) (cs : Nat) (s : Shape) (hs : Handlers σ) :
    Host (atOnce E (k + 9)) W rw cs (Serving E W k I cs s hs) (serve hs) := by
  refine ⟨T.obj, ?_, ?_, ?_, ?_, ?_⟩
  · rintro app st y j ⟨⟨app0, hI, _, _, hap⟩, ht, _, hlt, _⟩ hj
    rcases (hap j).1 hj with h | rfl | h
    · exact A.lt j hI h
    · exact hlt
    · exact ht.lt h
  · rintro app st y st' ⟨⟨app0, hI, h1, h2, hap⟩, ht, hcs, hlt, hs⟩ hk hw hn
    exact ⟨⟨app0, A.stable _ hI (fun j hj => hk j ((hap j).2 (.inl hj))) hw hn, h1, h2, hap⟩, ht.mono (fun j hj => hk j ((hap j).2 (.inr (.inr hj)))) hn,
      by rw [hk _ ((hap _).2 (.inr (.inl rfl))), hcs], by omega, by rw [hw, hs]⟩
  · rintro app st y ⟨⟨app0, hI, h1, h2, hap⟩, ht, hcs, hlt, hs⟩
    show wp (E.ext _ _) _ _
    refine wp_mono (F.get hI) ?_
    rintro _ st1 ⟨v, rfl, ⟨⟨app1, inv1, more1, hv⟩, k1, n1, e1, i1⟩, s1⟩
    have S := Serving.later (E := E) (W := W) (k := k) (app := app) (given := fun _ => False) (y' := y) ht hcs hlt h1 h2 hap (fun j h => h.elim) (fun j a b _ => k1 j a b) n1 inv1
      (fun j hj => by rcases more1 j hj with h | h; exact .inl h; exact .inr (.inr h)) (by rw [s1, hs])
    refine ⟨v, rfl, ⟨_, S, fun j hj => ?_, ?_⟩, fun j a b => k1 j a fun h => b ((hap j).2 (.inl h)), n1, e1, i1⟩
    · rcases hj with h | h
      · rcases more1 j h with h | h
        · exact .inl ((hap j).2 (.inl h))
        · exact .inr h
      · exact .inl ((hap j).2 (.inr h))
    · rcases hv with h | ⟨sl, arr, hv, hp, ha, hl, hna, hge⟩
      · exact .inl h
      · refine .inr ⟨sl, arr, hv, hp, ha, hl, fun h => ?_, ?_⟩
        · rcases hge with hge | hge
          · rcases h with h | h | h
            · exact hna h
            · exact h1 (h ▸ hge)
            · exact h2 _ h hge
          · rcases h with h | h | h
            · exact hna h
            · omega
            · have := ht.lt h; omega
        · rcases hge with hge | hge
          · exact .inl ((hap _).2 (.inl hge))
          · exact .inr hge
  · rintro app st y sl arr ⟨⟨app0, hI, h1, h2, hap⟩, ht, hcs, hlt, hs⟩ ha hp hna hl
    show wp (E.ext _ _) _ _
    refine wp_mono (wp_conj (T.read st sl arr ha hp) (F.read sl arr hI ha hp (fun h => hna ((hap _).2 (.inl h))) hl)) ?_
    rintro _ st1 ⟨⟨n, e, arr', rfl, hlen, ha', hm, s1, i1, k1, n1, e1⟩, inv1⟩
    have S := Serving.later (E := E) (W := W) (k := k) (app := app) (given := (· = sl.base.id)) (y' := y) ht hcs hlt h1 h2 hap (fun j h => h ▸ hna)
      (fun j a _ b => k1 j a b) n1 inv1 (fun j hj => .inl hj) (by rw [s1, hs])
    exact ⟨n, e, arr', _, rfl, hlen, ha', hm, S, fun j hj => .inl ((hap j).2 hj), i1, fun j a b c => k1 j a c, n1, e1⟩
  · rintro app st y c sl arr h31 ⟨⟨app0, hI, h1, h2, hap⟩, ht, hcs, hlt, hs⟩ hc ha hp hlc hl hnc hna hne
    show wp (callN goProg E (k + 9) _ _ >>= _) _ _
    rw [wp_bind]
    have hb : BytesAt st sl.base.id (.slice sl) (sub sl arr) := .slice sl arr ha (by cases sl with | mk b _ _ _ => cases b; cases hp; rfl)
    refine wp_mono (handleReq_spec E W k T A B hI ht (Nat.lt_of_le_of_lt (by rw [sub]; exact List.length_take_le _ _) h31) hc hcs hb hlc hlt hl (fun h => hnc ((hap _).2 (.inl h))) (fun h => hna ((hap _).2 (.inl h))) hne) ?_
    rintro _ st1 ⟨rfl, ⟨app1, inv1, more1⟩, s1, i1, k1, n1, e1⟩
    rw [wp_pure]
    have inv1 : I app1 st1 (serve ‹Handlers σ› y (sub sl arr)).1 := by rw [serve]; exact inv1
    rw [hs] at s1
    have s1 : W.sent st1.world = (serve ‹Handlers σ› y (sub sl arr)).2 := by rw [serve]; exact s1
    have S := Serving.later (E := E) (W := W) (k := k) (app := app) (given := (· = sl.base.id)) (y' := serve ‹Handlers σ› y (sub sl arr)) ht hcs hlt h1 h2 hap (fun j h => h ▸ hna)
      k1 n1 inv1 more1 s1
    refine ⟨⟨_, S, fun j hj => ?_⟩, fun j a b c => k1 j a (fun h => b ((hap j).2 (.inl h))) c, n1, e1, i1⟩
    rcases hj with h | h
    · rcases more1 j h with h | h | h
      · exact .inl ((hap j).2 (.inl h))
      · exact .inr (.inl h)
      · exact .inr (.inr h)
    · exact .inl ((hap j).2 (.inr h))

/-- How a server that handles every request at once ends. -/
structure ServedEnd {σ : Type} (W : Wire ω) (I : (Nat → Prop) → St ω → σ → Prop) (hs : Handlers σ) (reqs : List (List UInt8)) (y : σ) (st st' : St ω) : Prop where
  inv : ∃ app', I app' st' (reqs.foldl (serve hs) (y, [])).1
  sent : W.sent st'.world = W.sent st.world ++ (reqs.foldl (serve hs) (y, [])).2

omit [Others] in
theorem serve_prefix {σ : Type} (hs : Handlers σ) : ∀ (reqs : List (List UInt8)) (y : σ) (a b : List (List UInt8)),
    reqs.foldl (serve hs) (y, a ++ b) = ((reqs.foldl (serve hs) (y, b)).1, a ++ (reqs.foldl (serve hs) (y, b)).2)
  | [], y, a, b => rfl
  | l :: reqs, y, a, b => by
    rw [List.foldl_cons, List.foldl_cons]
    have : serve hs (y, a ++ b) l = ((serve hs (y, b) l).1, a ++ (serve hs (y, b) l).2) := by simp [serve, List.append_assoc]
    rw [this]
    exact serve_prefix hs reqs _ a _

/-- `Run`, when a goroutine is run as soon as it is started. -/
theorem Run_atOnce {σ : Type} {E : Ext ω} {W : Wire ω} {k : Nat} {rw : V} {I : (Nat → Prop) → St ω → σ → Prop}
    (T : Transport E W rw) (A : App E rw I) (B : Back E W I) (F : Front E W rw I) {cs : Nat} {s : Shape} {hs : Handlers σ}
    {st : St ω} {app : Nat → Prop} {y : σ} (hI : I app st y) (ht : Table (Handles E W (k + 7) I) st s hs) (hcs : st.heap cs = serverV s.top) (hlt : cs < st.next)
    (h1 : ¬ app cs) (h2 : ∀ j, s.cells hs j → ¬ app j) {reqs : List (List UInt8)} {x : RunErr} (hrun : runN E.loops (W.input st.world) = (reqs, some x)) :
    wp (callN goProg (atOnce E (k + 9)) 2 (.meth "rfc1057.Server" "Run") [.ptr "" ⟨cs, []⟩, rw]) (fun r st' =>
      ∃ e, r = [e] ∧ RunRel e x ∧ ServedEnd W I hs reqs y st st') st := by
  refine wp_mono (Run_spec (atOnce E (k + 9)) W 0 (atOnce_host T A B F cs s hs) (app := fun j => app j ∨ j = cs ∨ s.cells hs j) (y := (y, W.sent st.world))
    ⟨⟨app, hI, h1, h2, fun j => Iff.rfl⟩, ht, hcs, hlt, rfl⟩ hrun) ?_
  rintro _ st1 ⟨e, rfl, hrel, ⟨app1, ⟨⟨app2, inv2, _⟩, _, _, _, hs1⟩, _⟩, _⟩
  have := serve_prefix hs reqs y (W.sent st.world) []
  rw [List.append_nil] at this
  rw [this] at inv2 hs1
  exact ⟨e, rfl, hrel, ⟨app2, inv2⟩, hs1⟩


theorem RegsAt.mono {σ : Type} {H : V → ProcHandler σ → Prop} {st st' : St ω} {rv : V} {rs : List (ProcReg σ)} (h : RegsAt H st rv rs)
    (hk : ∀ j, j < st.next → st'.heap j = st.heap j) (hn : st.next ≤ st'.next) : RegsAt H st' rv rs := by
  cases h with
  | nil => exact .nil
  | slice hl hlt hr => exact .slice (by rw [hk _ hlt, hl]) (by omega) hr

/-- `srv := rfc1057.MakeServer(); srv.RegisterMany(regs); return srv.Run(rw)` -/
def serverMain (E : Ext ω) (regs rw : V) : M ω (List V) := do
  match ← callN goProg E 1 (.fn "rfc1057" "MakeServer") [] with
  | [srv] =>
    let _ ← callN goProg E 2 (.meth "rfc1057.Server" "RegisterMany") [srv, regs]
    callN goProg E 2 (.meth "rfc1057.Server" "Run") [srv, rw]
  | _ => stop .stuck

/-- A server from its making to the end of its connection, when a goroutine is run as soon as it is started. -/
theorem serverMain_spec {σ : Type} {E : Ext ω} {W : Wire ω} {k : Nat} {rw : V} {I : (Nat → Prop) → St ω → σ → Prop}
    (T : Transport E W rw) (A : App E rw I) (B : Back E W I) (F : Front E W rw I)
    {st : St ω} {app : Nat → Prop} {y : σ} (hI : I app st y) {rv : V} {rs : List (ProcReg σ)} (hr : RegsAt (Handles E W (k + 7) I) st rv rs)
    {reqs : List (List UInt8)} {x : RunErr} (hrun : runN E.loops (W.input st.world) = (reqs, some x)) :
    wp (serverMain (atOnce E (k + 9)) rv rw) (fun r st' =>
      ∃ e, r = [e] ∧ RunRel e x ∧ ServedEnd W I (registerMany makeServer rs) reqs y st st') st := by
  have alt : ∀ j, app j → j < st.next := fun j => A.lt j hI
  rw [serverMain, wp_bind]
  refine wp_mono (MakeServer_spec (atOnce E (k + 9)) 0 (Handles E W (k + 7) I) st) ?_
  rintro _ st1 ⟨c, s, rfl, hc, hlt, hcs, ht, hs, ⟨k1, n1, w1, d1⟩⟩
  dsimp only
  rw [wp_bind]
  refine wp_mono (RegisterMany_spec (atOnce E (k + 9)) 0 (Handles E W (k + 7) I) hcs hlt ht (hr.mono k1 n1)) ?_
  rintro _ st2 ⟨rfl, s2, ht2⟩
  have hcc : ¬ s.cells (makeServer : Handlers σ) c := by
    rintro (h | ⟨p, vm, h, _⟩)
    · obtain ⟨kvs, h1, _⟩ := ht.top
      rw [← h, hcs] at h1
      cases h1
    · cases h
  have hce : ∀ j, s.cells (makeServer : Handlers σ) j → st.next ≤ j := by
    rintro j (rfl | ⟨p, vm, h, _⟩)
    · exact hs
    · cases h
  have hI2 : I app st2 y := A.stable _ hI (fun j hj => by
    have := alt j hj
    rw [ht2.frame j (by omega) (fun h => by have := hce j h; omega), k1 j this]) (by rw [ht2.world, w1]) (by have := ht2.next; omega)
  refine wp_mono (Run_atOnce T A B F hI2 ht2.table (cs := c) (by rw [ht2.frame c hlt hcc, hcs, ht2.top]) (by have := ht2.next; omega)
    (fun h => by have := alt _ h; omega) (fun j hj h => ?_) (x := x) (reqs := reqs) (by rw [ht2.world, w1, hrun])) ?_
  · have := alt _ h
    rcases ht2.cells j hj with h | h
    · have := hce _ h; omega
    · omega
  · rintro _ st3 ⟨e, rfl, hx, hi, hsent⟩
    exact ⟨e, rfl, hx, hi, by rw [hsent, ht2.world, w1]⟩

end Verif.Lang
