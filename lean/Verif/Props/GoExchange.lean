/-
PROPERTY C57: the texts of client and server together.
-/
import Verif.Props.GoClient
import Verif.Props.GoServer
import Verif.Props.EndToEnd

namespace Verif.Props
open Verif.Xdr Verif.Spec Verif.Rpc Verif.Lang

variable {ω ω' σ τ τ' : Type}

section
variable [Others]

attribute [local irreducible] wp handleReqErr

theorem serveAll_foldl (hs : Handlers σ) : ∀ (bs : List (List UInt8)) (s : σ),
    serveAll hs bs s = ((bs.foldl (Lang.serve hs) (s, [])).1, (bs.foldl (Lang.serve hs) (s, [])).2.flatten)
  | [], s => rfl
  | b :: bs, s => by
    rw [List.foldl_cons]
    simp only [serveAll, Lang.serve, List.nil_append]
    generalize (handleReqErr hs).run b s = R
    obtain ⟨y', o⟩ := R
    rw [serveAll_foldl hs bs y']
    cases o with
    | error e => rfl
    | ok m =>
      have h3 := serve_prefix hs bs y' [m] []
      rw [List.append_nil] at h3
      simp only [h3]
      simp

theorem reported_clean {cs : Chunks} {m rec : List UInt8} (h : IsRecord m rec) (hc : cs.flatten = rec) : Stream cs.flatten [m] .clean := by
  rw [hc]
  simpa using Stream.record m rec [] [] .clean h .clean

/-- One exchange between the text of `Call` and the text of `MakeServer`, `RegisterMany` and `Run`, each in a world of
its own.  There are bytes `req` and `rep` so that:

* `Call` writes `req`, whatever it will receive;
* the server that receives `req`, in any pieces, and then the end of the connection runs the handler once, writes `rep`
  and returns `io.EOF`;
* `Call`, when it receives `rep` in any pieces, and whatever follows, gets the bytes of the handler's result: it returns
  nil exactly if they can be decoded, the result variable is what they decode to, and what follows is not consumed. -/
theorem C57_exchange {E : Ext ω} {W : Wire ω} {k : Nat} {rw av rv cv fv : V} {ownA ownR : Nat → Prop} {RA : St ω → τ' → Prop}
    {RR RR' : St ω → τ → Prop} {fa : XdrState → τ' → XdrState} {fr : XdrState → τ → XdrState × τ} {c : Nat} {cl : Client}
    {cred verf : OpaqueAuth} {ya : τ'} {yr : τ}
    {E' : Ext ω'} {W' : Wire ω'} {k' : Nat} {rw' : V} (T : Transport E' W' rw') {regs : List (ProcReg σ)} (proc : UInt32) {abytes : List UInt8}
    (h1 : goLen cred.body ≤ 400) (h2 : goLen verf.body ≤ 400) (ha : Encodes (fun xs => fa xs ya) abytes)
    (hlen : 840 + abytes.length < 2 ^ 31) {hd : ProcHandler σ} (hl : lastReg regs cl.prog cl.vers proc = some hd) {y y' : σ} {d : Xdrable}
    {rbytes : List UInt8} (hr : hd.run (makeReader abytes) y = (y', some d, false)) (hd' : Encodes d rbytes) (hrlen : 24 + rbytes.length < 2 ^ 31) :
    ∃ req rep, req.length < 2 ^ 32 ∧
      (∀ st, CallSite E W k rw av rv cv fv ownA ownR RA RR RR' fa fr c cl cred verf ya yr st →
        Ends E (k + 8) (.meth "rfc1057.Client" "Call") [.ptr "" ⟨c, []⟩, .u32 proc, cv, fv, av, rv] st fun _ st' =>
          W.sent st'.world = W.sent st.world ++ [req]) ∧
      (∀ I : (Nat → Prop) → St ω' → σ → Prop, App E' rw' I → Back E' W' I → Front E' W' rw' I → ∀ st app rv', I app st y → RegsAt (Handles E' W' (k' + 7) I) st rv' regs → (W'.input st.world).flatten = req → req.length < E'.loops →
        ∃ st' app', serverMain (atOnce E' (k' + 9)) rv' rw' st = .ok ([ioErr .eof], st') ∧ I app' st' y' ∧
          (W'.sent st'.world).flatten = (W'.sent st.world).flatten ++ rep) ∧
      (∀ st rest, CallSite E W k rw av rv cv fv ownA ownR RA RR RR' fa fr c cl cred verf ya yr st → W.ok st.world = true →
        (W.input st.world).flatten = rep ++ rest →
        Ends E (k + 8) (.meth "rfc1057.Client" "Call") [.ptr "" ⟨c, []⟩, .u32 proc, cv, fv, av, rv] st fun r st' => ∃ e, r = [e] ∧
          (e = .nil ↔ (fr (makeReader rbytes) yr).1.err = none) ∧ Holds RR RR' yr st' (fr (makeReader rbytes) yr).2 ∧
          (W.input st'.world).flatten = rest) := by
  obtain ⟨req, rep, q1, q2, q3⟩ := C39_exchange regs cl proc cred verf (fun xs => fa xs ya) fr yr y h1 h2 ha hlen hl hr hd' hrlen
  obtain ⟨out, o1, o2⟩ := C36_sent cl proc cred verf (fun xs => fa xs ya) fr yr true [] abytes h1 h2 ha
  rw [q1] at o1
  cases o1
  have hrec := o2.1 (by
    have := call_length { cl with xid := cl.xid + 1 } proc cred verf abytes h1 h2
    exact Nat.lt_of_le_of_lt this hlen)
  have hlt : req.length < 2 ^ 32 := by
    obtain ⟨g1, rfl⟩ := hrec
    rw [List.length_append, be_length]
    omega
  refine ⟨req, rep, hlt, fun st h => ?_, fun I A B F st app rv' hI hreg hin hloop => ?_, fun st rest h hok hin => ?_⟩
  · refine (h.ends proc).mono ?_
    rintro r st' ⟨e, rfl, he⟩
    rw [he.sent, q1]; rfl
  · have hs := reported_clean hrec hin
    obtain ⟨x, hx, hrun⟩ := runN_stream hs
    obtain ⟨r, st', g1, v, rfl, g2, ⟨app', g3⟩, g4⟩ := wp_iff.1 (serverMain_spec (k := k') T A B F hI hreg (hrun E'.loops _ rfl (by rw [hin]; exact hloop)))
    have hms := (C31_records _ _ _ hs).1
    have hq := q2 _ hin
    rw [serve, hms, serveAll_foldl] at hq
    obtain ⟨e1, e2⟩ := Prod.mk.inj hq
    cases hx
    cases g2
    exact ⟨st', app', g1, by rw [← e1]; exact g3, by rw [g4, List.flatten_append, e2]⟩
  · refine (h.ends proc).mono ?_
    rintro r st' ⟨e, rfl, he⟩
    rw [hok] at he
    obtain ⟨k1, k2, k3⟩ := q3 _ _ hin
    refine ⟨e, rfl, ?_, ?_, ?_⟩
    · rw [CallRel.nil_iff he.err, k2]
    · have := he.resp
      rw [k1] at this
      exact this.imp (fun h => h st' (fun _ _ => rfl) (Nat.le_refl _)) id
    · rw [he.input, k3]

end

attribute [local instance] noOthers

/-- Client (C54) and server (C56) of the earlier examples: procedure 3 of program 7, version 1 adds 5 to 37. -/
example : ∃ req rep,
    (∀ st, CallSite net netWire 0 (.obj 0) (.ptr "xdr.Uint32" ⟨0, []⟩) (.ptr "xdr.Uint32" ⟨1, []⟩) noAuth noAuth (· = 0) (· = 1)
        (fun st y => 0 < st.next ∧ st.heap 0 = .u32 y) (fun st y => 1 < st.next ∧ st.heap 1 = .u32 y)
        (fun st y => st.heap 1 = .u32 y) (fun xs y => (xdrU32 xs y).1) xdrU32 2 ⟨98, 7, 1⟩ .zero .zero 5 0 st →
      Ends net 8 (.meth "rfc1057.Client" "Call")
        [.ptr "" ⟨2, []⟩, .u32 3, noAuth, noAuth, .ptr "xdr.Uint32" ⟨0, []⟩, .ptr "xdr.Uint32" ⟨1, []⟩] st fun _ st' =>
          st'.world.sent = st.world.sent ++ [req]) ∧
    (req.length < 1000 → ∃ st' app', serverMain (atOnce net 9) (.slice ⟨⟨1, []⟩, 0, 3, 3⟩) (.obj 0) (start56 [req]) = .ok ([ioErr .eof], st') ∧
      NetInv app' st' 42 ∧ st'.world.sent.flatten = rep) := by
  have hrun : addHandler.run (makeReader [0, 0, 0, 5]) 37 = (42, some fun wr => (xdrU32 wr 42).1, false) := by
    rw [addHandler, Proc.run_atom]
    have : xdrU32 (makeReader [0, 0, 0, 5]) 0 = (makeReader [], 5) := by decide +kernel
    rw [this]
    rfl
  obtain ⟨req, rep, -, q1, q2, -⟩ := C57_exchange (E := net) (W := netWire) (k := 0) (rw := .obj 0) (av := .ptr "xdr.Uint32" ⟨0, []⟩)
    (rv := .ptr "xdr.Uint32" ⟨1, []⟩) (cv := noAuth) (fv := noAuth) (ownA := (· = 0)) (ownR := (· = 1))
    (RA := fun st y => 0 < st.next ∧ st.heap 0 = .u32 y)
    (RR := fun st y => 1 < st.next ∧ st.heap 1 = .u32 y) (RR' := fun st y => st.heap 1 = .u32 y) (fa := fun xs y => (xdrU32 xs y).1) (fr := xdrU32)
    (c := 2) (cl := ⟨98, 7, 1⟩) (cred := .zero) (verf := .zero) (ya := (5 : UInt32)) (yr := (0 : UInt32)) (k' := 0)
    net_transport (regs := demoRegs) 3 (abytes := [0, 0, 0, 5]) (by decide) (by decide)
    (fun w => by simp only [u32_writer]; rfl) (by decide) (hd := addHandler) rfl (y := (37 : UInt32)) hrun
    (rbytes := [0, 0, 0, 42]) (fun w => by simp only [u32_writer]; rfl) (by decide)
  refine ⟨req, rep, fun st h => q1 st h, fun h => ?_⟩
  obtain ⟨st', app', h1, h2, h3⟩ := q2 _ net_app net_back net_front (start56 [req]) (· = 0) _ (inv56 _) (regs56 _) (by simp [start56, netWire]) h
  exact ⟨st', app', h1, h2, by simpa [start56, netWire] using h3⟩

end Verif.Props
