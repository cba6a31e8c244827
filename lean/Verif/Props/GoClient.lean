/-
PROPERTY C54: the text of `Call` in rfc1057/client.go.
-/
import Verif.Lang.CallSpec
import Verif.Props.GoLibrary
import Verif.Props.Client

namespace Verif.Props
open Verif.Xdr Verif.Spec Verif.Rpc Verif.Lang

variable {ω τ τ' : Type} [Others]

set_option maxRecDepth 10000 in
/-- client.go:18-25 -/
theorem MakeClient_spec (E : Ext ω) (k : Nat) {rw : V} (hrw : isStruct rw = false) (prog vers : UInt32) (st : St ω) :
    wp (callN goProg E (k + 1) (.fn "rfc1057" "MakeClient") [rw, .u32 prog, .u32 vers])
      (fun r st' => ∃ c, r = [.ptr "" ⟨c, []⟩] ∧ st.next ≤ c ∧ c < st'.next ∧ st'.heap c = clientV rw (makeClient prog vers) ∧ Grows st st') st := by
  rw [wp_callN _ _ _ _ _ _ _ _ _ find_client_MakeClient, wp_callFunc, client_MakeClient]
  go_run
  exact ⟨_, rfl, by omega, by go_lt, by go_run <;> rfl, by go_grows⟩

attribute [local irreducible] wp

/-- What a call of `c.Call(proc, cred, verf, args, resp)` starts from: `c` points to the client `cl`, whose connection is
`rw`; `args` and `resp` are interface values whose `Xdr` methods do `fa` and `fr`, the values being `ya` and `yr`;
`cred` and `verf` are passed by value. -/
structure CallSite (E : Ext ω) (W : Wire ω) (k : Nat) (rw av rv cv fv : V) (ownA ownR : Nat → Prop) (RA : St ω → τ' → Prop)
    (RR RR' : St ω → τ → Prop) (fa : XdrState → τ' → XdrState) (fr : XdrState → τ → XdrState × τ) (c : Nat) (cl : Client)
    (cred verf : OpaqueAuth) (ya : τ') (yr : τ) (st : St ω) : Prop where
  transport : Transport E W rw
  args : Writes E (k + 7) av ownA RA fa
  resp : Receives E (k + 7) rv ownR RR RR' fr
  apart : ∀ j, ownA j → ¬ ownR j
  argsAt : RA st ya
  respAt : RR st yr
  client : st.heap c = clientV rw cl
  lt : c < st.next
  notA : ¬ ownA c
  notR : ¬ ownR c
  cred : AuthArg st.next st cv cred
  verf : AuthArg st.next st fv verf

/-- The result variable holds `y`. -/
def Holds (RR RR' : St ω → τ → Prop) (yr : τ) (st' : St ω) (y : τ) : Prop := RR' st' y ∨ (RR st' yr ∧ y = yr)

variable {E : Ext ω} {W : Wire ω} {k : Nat} {rw av rv cv fv : V} {ownA ownR : Nat → Prop} {RA : St ω → τ' → Prop}
    {RR RR' : St ω → τ → Prop} {fa : XdrState → τ' → XdrState} {fr : XdrState → τ → XdrState × τ} {c : Nat} {cl : Client}
    {cred verf : OpaqueAuth} {ya : τ'} {yr : τ} {st : St ω}

theorem CallSite.ends (h : CallSite E W k rw av rv cv fv ownA ownR RA RR RR' fa fr c cl cred verf ya yr st) (proc : UInt32) :
    Ends E (k + 8) (.meth "rfc1057.Client" "Call") [.ptr "" ⟨c, []⟩, .u32 proc, cv, fv, av, rv] st fun r st' => ∃ e, r = [e] ∧
      CallEnd W rw c ownA ownR RR RR' yr
        (cl.call proc cred verf (fun xs => fa xs ya) fr yr (W.ok st.world) (W.input st.world)) e st st' :=
  ends_iff.2 (Call_spec E W k h.transport h.args h.resp h.apart h.argsAt h.respAt h.client h.lt h.notA h.notR h.cred h.verf proc)

theorem CallRel.nil_iff {e : V} {o : Option CallErr} (h : CallRel e o) : e = .nil ↔ o = none := by
  cases h with
  | ok => simp
  | xdr v e h => cases h <;> simp
  | read e => cases e <;> simp [ioErr]
  | _ => simp

/-- What a call sends: one write of the call message of protocol version 2 with the next transaction id, framed.
The client is as before but for the transaction id, and no cell but those of the client, the arguments and the result
changes. -/
theorem C54_sent (h : CallSite E W k rw av rv cv fv ownA ownR RA RR RR' fa fr c cl cred verf ya yr st) (proc : UInt32)
    (h1 : goLen cred.body ≤ 400) (h2 : goLen verf.body ≤ 400) {s : List UInt8} (ha : Encodes (fun xs => fa xs ya) s) :
    Ends E (k + 8) (.meth "rfc1057.Client" "Call") [.ptr "" ⟨c, []⟩, .u32 proc, cv, fv, av, rv] st fun _ st' =>
      (∃ out, W.sent st'.world = W.sent st.world ++ [out] ∧
        Framed (callBytes ⟨cl.xid + 1, 2, cl.prog, cl.vers, proc, ⟨cred.flavor, goElems cred.body⟩, ⟨verf.flavor, goElems verf.body⟩⟩ s) out) ∧
      st'.heap c = clientV rw { cl with xid := cl.xid + 1 } ∧
      (∀ j, j < st.next → j ≠ c → ¬ ownA j → ¬ ownR j → st'.heap j = st.heap j) := by
  refine (h.ends proc).mono ?_
  rintro r st' ⟨e, rfl, he⟩
  obtain ⟨out, ho, hf⟩ := C36_sent cl proc cred verf (fun xs => fa xs ya) fr yr (W.ok st.world) (W.input st.world) s h1 h2 ha
  refine ⟨⟨out, ?_, hf⟩, ?_, he.frame⟩
  · rw [he.sent, ho]; rfl
  · rw [he.client, C36_client]

/-- If the credential, the verifier or the arguments cannot be encoded, nothing is written, nothing is read, the result
variable keeps its value and an error is returned. -/
theorem C54_refused (h : CallSite E W k rw av rv cv fv ownA ownR RA RR RR' fa fr c cl cred verf ya yr st) (proc : UInt32)
    (hr : 400 < goLen cred.body ∨ 400 < goLen verf.body ∨ Unencodable fun xs => fa xs ya) :
    Ends E (k + 8) (.meth "rfc1057.Client" "Call") [.ptr "" ⟨c, []⟩, .u32 proc, cv, fv, av, rv] st fun r st' =>
      (∃ e, r = [e] ∧ e ≠ .nil) ∧ W.sent st'.world = W.sent st.world ∧ W.input st'.world = W.input st.world ∧ Holds RR RR' yr st' yr := by
  refine (h.ends proc).mono ?_
  rintro r st' ⟨e, rfl, he⟩
  obtain ⟨h1, h2, h3, h4⟩ := C36_refused cl proc cred verf (fun xs => fa xs ya) fr yr (W.ok st.world) (W.input st.world) hr
  refine ⟨⟨e, rfl, fun hn => ?_⟩, ?_, ?_, ?_⟩
  · rw [(CallRel.nil_iff he.err).1 hn] at h2; cases h2
  · rw [he.sent, h1]; simp
  · rw [he.input, h4]
  · have := he.resp
    rw [h3] at this
    exact this.imp (fun h => h st' (fun _ _ => rfl) (Nat.le_refl _)) id

/-- A call whose request could be sent returns nil exactly if the next record is the successful reply to it and the
result decodes.  Then the result variable holds what was decoded, and exactly the record was read. -/
theorem C54_success (h : CallSite E W k rw av rv cv fv ownA ownR RA RR RR' fa fr c cl cred verf ya yr st) (proc : UInt32)
    (h1 : goLen cred.body ≤ 400) (h2 : goLen verf.body ≤ 400) {s : List UInt8} (ha : Encodes (fun xs => fa xs ya) s)
    (hok : W.ok st.world = true) :
    Ends E (k + 8) (.meth "rfc1057.Client" "Call") [.ptr "" ⟨c, []⟩, .u32 proc, cv, fv, av, rv] st fun r st' => ∃ e, r = [e] ∧
      (e = .nil ↔ ∃ bytes rest, NextReply (W.input st.world) (cl.xid + 1) bytes rest ∧ (fr (makeReader bytes) yr).1.err = none) ∧
      (∀ bytes rest, NextReply (W.input st.world) (cl.xid + 1) bytes rest →
        Holds RR RR' yr st' (fr (makeReader bytes) yr).2 ∧ (W.input st'.world).flatten = rest) := by
  refine (h.ends proc).mono ?_
  rintro r st' ⟨e, rfl, he⟩
  rw [hok] at he
  refine ⟨e, rfl, ?_, fun bytes rest hn => ?_⟩
  · rw [CallRel.nil_iff he.err]
    exact C37_success cl proc cred verf (fun xs => fa xs ya) fr yr (W.input st.world) s h1 h2 ha
  · obtain ⟨h3, h4, _⟩ := C37_result cl proc cred verf (fun xs => fa xs ya) fr yr (W.input st.world) s h1 h2 ha bytes rest hn
    have := he.resp
    rw [h3] at this
    refine ⟨this.imp (fun h => h st' (fun _ _ => rfl) (Nat.le_refl _)) id, ?_⟩
    rw [he.input]
    exact h4

/-- Without such a reply the result variable is not touched and there is an error. -/
theorem C54_untouched (h : CallSite E W k rw av rv cv fv ownA ownR RA RR RR' fa fr c cl cred verf ya yr st) (proc : UInt32)
    (hn : ¬ ∃ bytes rest, NextReply (W.input st.world) (cl.xid + 1) bytes rest) :
    Ends E (k + 8) (.meth "rfc1057.Client" "Call") [.ptr "" ⟨c, []⟩, .u32 proc, cv, fv, av, rv] st fun r st' =>
      (∃ e, r = [e] ∧ e ≠ .nil) ∧ Holds RR RR' yr st' yr := by
  refine (h.ends proc).mono ?_
  rintro r st' ⟨e, rfl, he⟩
  obtain ⟨h3, h4⟩ := C37_untouched cl proc cred verf (fun xs => fa xs ya) fr yr (W.ok st.world) (W.input st.world) hn
  refine ⟨⟨e, rfl, fun hn => ?_⟩, ?_⟩
  · rw [(CallRel.nil_iff he.err).1 hn] at h4; cases h4
  · have := he.resp
    rw [h3] at this
    exact this.imp (fun h => h st' (fun _ _ => rfl) (Nat.le_refl _)) id

/-- A new client. -/
theorem C54_new (E : Ext ω) {i : Nat} (prog vers : UInt32) (st : St ω) :
    Ends E 1 (.fn "rfc1057" "MakeClient") [.obj i, .u32 prog, .u32 vers] st fun r st' => ∃ c, r = [.ptr "" ⟨c, []⟩] ∧ st.next ≤ c ∧
      c < st'.next ∧ st'.heap c = clientV (.obj i) ⟨0, prog, vers⟩ ∧ (∀ j, j < st.next → st'.heap j = st.heap j) ∧ st'.world = st.world := by
  refine ends_iff.2 (wp_mono (MakeClient_spec E 0 rfl prog vers st) ?_)
  rintro r st' ⟨c, rfl, h1, h2, h3, h4⟩
  exact ⟨c, rfl, h1, h2, h3, h4.heap, h4.world⟩

/-! ### A concrete case -/

/-- The argument 5 in the cell 0, the result variable in the cell 1, the client in the cell 2; the reply of
`demoInput` is on its way. -/
def start54 : St Net :=
  { heap := fun j => if j = 0 then .u32 5 else if j = 1 then .u32 0 else clientV (.obj 0) ⟨98, 7, 1⟩
    next := 3, world := ⟨demoInput, [], true, none, []⟩, defers := [] }

def noAuth : V := .struct "rfc1057.Opaque_auth" [("Flavor", .u32 0), ("Body", .nil)]

theorem site54 : CallSite net netWire 0 (.obj 0) (.ptr "xdr.Uint32" ⟨0, []⟩) (.ptr "xdr.Uint32" ⟨1, []⟩) noAuth noAuth (· = 0) (· = 1)
    (fun st y => 0 < st.next ∧ st.heap 0 = .u32 y) (fun st y => 1 < st.next ∧ st.heap 1 = .u32 y)
    (fun st y => st.heap 1 = .u32 y) (fun xs y => (xdrU32 xs y).1) xdrU32 2 ⟨98, 7, 1⟩ .zero .zero 5 0 start54 where
  transport := net_transport
  args := ((Uint32_codec net 4).xdrs u32_reader (by decide) 0).writes
  resp := ((Uint32_codec net 4).xdrs u32_reader (by decide) 1).receives
  apart := by rintro j rfl; decide
  argsAt := ⟨by decide, rfl⟩
  respAt := ⟨by decide, rfl⟩
  client := rfl
  lt := by decide
  notA := by decide
  notR := by decide
  cred := ⟨.nil, rfl, .nil, fun _ h => by cases h⟩
  verf := ⟨.nil, rfl, .nil, fun _ h => by cases h⟩

/-- `c.Call(3, cred, verf, &arg, &res)` returns nil and `res` is 42. -/
example : Ends net 8 (.meth "rfc1057.Client" "Call")
    [.ptr "" ⟨2, []⟩, .u32 3, noAuth, noAuth, .ptr "xdr.Uint32" ⟨0, []⟩, .ptr "xdr.Uint32" ⟨1, []⟩] start54
    fun r st' => r = [.nil] ∧ st'.heap 1 = .u32 42 := by
  refine (C54_success site54 3 (by decide) (by decide) (s := [0, 0, 0, 5]) (fun w => by simp only [u32_writer]; rfl) rfl).mono ?_
  rintro r st' ⟨e, rfl, h1, h2⟩
  have hn : NextReply demoInput 99 [0, 0, 0, 42] [7] :=
    ⟨(demoInput.flatten.drop 4).take 28, demoInput.flatten.take 32, .null, ⟨by decide, by decide +kernel⟩,
      by decide +kernel, authBytes .null, authBytes_isAuth (by decide), by decide +kernel⟩
  have hd : xdrU32 (makeReader [0, 0, 0, 42]) 0 = (makeReader [], 42) := by decide +kernel
  refine ⟨by rw [h1.2 ⟨_, _, hn, by rw [hd]; rfl⟩], ?_⟩
  have := (h2 _ _ hn).1
  rw [hd] at this
  rcases this with h | ⟨_, h⟩
  · exact h
  · exact absurd h (by decide)

end Verif.Props
