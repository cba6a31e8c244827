/-
Properties C36–C38 and the client side of C32.  The message formats are those of `Verif.Spec.Rpc`.
-/
import Verif.Rpc.ClientLemmas
import Verif.Props.Server

namespace Verif.Props
open Verif.Xdr Verif.Spec Verif.Rpc

variable {τ : Type}

/-! ### C36 what a call puts on the wire -/

/-- One write: the call message of protocol version 2 with the next transaction id, framed (C32). -/
theorem C36_sent (c : Client) (proc : UInt32) (cred verf : OpaqueAuth) (args : Xdrable) (resp : Recv τ)
    (r : τ) (writeOk : Bool) (input : Chunks) (s : List UInt8)
    (h1 : goLen cred.body ≤ 400) (h2 : goLen verf.body ≤ 400) (ha : Encodes args s) :
    ∃ out, (c.call proc cred verf args resp r writeOk input).sent = some out ∧
      Framed (callBytes ⟨c.xid + 1, 2, c.prog, c.vers, proc, ⟨cred.flavor, goElems cred.body⟩,
        ⟨verf.flavor, goElems verf.body⟩⟩ s) out := by
  exact ⟨_, call_sent _ _ _ _ _ _ _ _ _ (callRequest_ok _ _ _ _ _ h1 h2 ha), framed_mark _⟩

/-- If the credential, the verifier or the arguments cannot be encoded, nothing is written, nothing
is read, the result variable keeps its value and an error is returned. -/
theorem C36_refused (c : Client) (proc : UInt32) (cred verf : OpaqueAuth) (args : Xdrable) (resp : Recv τ)
    (r : τ) (writeOk : Bool) (input : Chunks)
    (h : 400 < goLen cred.body ∨ 400 < goLen verf.body ∨ Unencodable args) :
    let out := c.call proc cred verf args resp r writeOk input
    out.sent = none ∧ out.err.isSome ∧ out.resp = r ∧ out.input = input := by
  have : ∃ e, callRequest { c with xid := c.xid + 1 } proc cred verf args = .error e := by
    rcases h with h | h | h
    · exact callRequest_large _ _ _ _ _ (by omega)
    · exact callRequest_large _ _ _ _ _ (by omega)
    · exact callRequest_unencodable _ _ _ _ _ h
  obtain ⟨e, he⟩ := this
  simp [Client.call, he]

/-- The client's program and version never change. -/
theorem C36_client (c : Client) (proc : UInt32) (cred verf : OpaqueAuth) (args : Xdrable) (resp : Recv τ)
    (r : τ) (writeOk : Bool) (input : Chunks) :
    (c.call proc cred verf args resp r writeOk input).client = { c with xid := c.xid + 1 } := by
  simp only [Client.call]
  cases callRequest { c with xid := c.xid + 1 } proc cred verf args with
  | error e => rfl
  | ok m =>
    cases writeOk with
    | false => rfl
    | true =>
      simp only [if_true]
      cases readReply input with
      | mk a cs => cases a <;> rfl

/-! ### C37 what makes a call succeed -/

/-- The next record of the input is a successful reply to transaction `xid` with result bytes
`bytes`; `rest` follows it. -/
def NextReply (input : Chunks) (xid : UInt32) (bytes rest : List UInt8) : Prop :=
  ∃ m rec verf, IsRecord m rec ∧ input.flatten = rec ++ rest ∧
    IsReply xid (.accepted verf (.success bytes)) m

/-- A call whose request could be sent returns nil exactly if the next record is the successful reply
to it and the result decodes. -/
theorem C37_success (c : Client) (proc : UInt32) (cred verf : OpaqueAuth) (args : Xdrable) (resp : Recv τ)
    (r : τ) (input : Chunks) (s : List UInt8) (h1 : goLen cred.body ≤ 400) (h2 : goLen verf.body ≤ 400)
    (ha : Encodes args s) :
    let out := c.call proc cred verf args resp r true input
    out.err = none ↔ ∃ bytes rest, NextReply input (c.xid + 1) bytes rest ∧
      (resp (makeReader bytes) r).1.err = none := by
  intro out
  have ho : out = c.call proc cred verf args resp r true input := rfl
  simp only [Client.call, callRequest_ok { c with xid := c.xid + 1 } proc cred verf args h1 h2 ha,
    if_true] at ho
  clear_value out
  constructor
  · intro he
    cases hr : readReply input with
    | mk a cs =>
      rw [hr] at ho
      cases a with
      | error e => subst ho; cases he
      | ok m =>
        subst ho
        obtain ⟨rec, hrec, hfl⟩ := readRequest_ok_inv (readReply_ok.mp hr)
        simp only at he
        by_cases hm : ∃ verf bytes, IsReply (c.xid + 1) (.accepted verf (.success bytes)) m
        · obtain ⟨vf, bytes, hm⟩ := hm
          rw [parseReply_ok resp r hm] at he
          refine ⟨bytes, cs.flatten, ⟨m, rec, vf, hrec, hfl, hm⟩, ?_⟩
          simpa using he
        · obtain ⟨e, hp⟩ := parseReply_other resp r hm
          rw [hp] at he; cases he
  · rintro ⟨bytes, rest, ⟨m, rec, vf, hrec, hfl, hm⟩, hd⟩
    obtain ⟨cs, hr, -⟩ := readRequest_record hrec hfl
    rw [readReply_ok.mpr hr] at ho
    subst ho
    simp only [parseReply_ok resp r hm, hd, Option.map_none]

/-- On such a reply the result variable holds what the reply's bytes decode to, and exactly the
reply's record has been consumed. -/
theorem C37_result (c : Client) (proc : UInt32) (cred verf : OpaqueAuth) (args : Xdrable) (resp : Recv τ)
    (r : τ) (input : Chunks) (s : List UInt8) (h1 : goLen cred.body ≤ 400) (h2 : goLen verf.body ≤ 400)
    (ha : Encodes args s) (bytes rest : List UInt8) (hn : NextReply input (c.xid + 1) bytes rest) :
    let out := c.call proc cred verf args resp r true input
    out.resp = (resp (makeReader bytes) r).2 ∧ out.input.flatten = rest ∧
      (out.err = none ↔ (resp (makeReader bytes) r).1.err = none) := by
  obtain ⟨m, rec, vf, hrec, hfl, hm⟩ := hn
  obtain ⟨cs, hr, hcs⟩ := readRequest_record hrec hfl
  simp only [Client.call, callRequest_ok { c with xid := c.xid + 1 } proc cred verf args h1 h2 ha, if_true,
    readReply_ok.mpr hr, parseReply_ok resp r hm]
  exact ⟨trivial, hcs, by simp⟩

/-- Without such a reply the result variable is not touched. -/
theorem C37_untouched (c : Client) (proc : UInt32) (cred verf : OpaqueAuth) (args : Xdrable) (resp : Recv τ)
    (r : τ) (writeOk : Bool) (input : Chunks)
    (hn : ¬ ∃ bytes rest, NextReply input (c.xid + 1) bytes rest) :
    let out := c.call proc cred verf args resp r writeOk input
    out.resp = r ∧ out.err.isSome := by
  intro out
  have ho : out = c.call proc cred verf args resp r writeOk input := rfl
  clear_value out
  simp only [Client.call] at ho
  cases hq : callRequest { c with xid := c.xid + 1 } proc cred verf args with
  | error e => rw [hq] at ho; subst ho; exact ⟨rfl, rfl⟩
  | ok msg =>
    rw [hq] at ho
    cases writeOk with
    | false => subst ho; exact ⟨rfl, rfl⟩
    | true =>
      simp only [if_true] at ho
      cases hr : readReply input with
      | mk a cs =>
        rw [hr] at ho
        cases a with
        | error e => subst ho; exact ⟨rfl, rfl⟩
        | ok m =>
          obtain ⟨rec, hrec, hfl⟩ := readRequest_ok_inv (readReply_ok.mp hr)
          have hm : ¬ ∃ verf bytes, IsReply (c.xid + 1) (.accepted verf (.success bytes)) m := by
            rintro ⟨vf, bytes, hm⟩
            exact hn ⟨bytes, cs.flatten, m, rec, vf, hrec, hfl, hm⟩
          obtain ⟨e, hp⟩ := parseReply_other (xid := c.xid + 1) resp r hm
          simp only [hp] at ho
          subst ho; exact ⟨rfl, rfl⟩

/-- A call of procedure 3 with argument 5 and result variable of type `uint32`, whose reply arrives
in two pieces. -/
def demoArgs : Xdrable := fun wr => (xdrU32 wr 5).1

example : Encodes demoArgs [0, 0, 0, 5] := fun w => by
  simp only [demoArgs, u32_writer]; rfl

def demoInput : Chunks :=
  [[128, 0, 0, 28, 0, 0, 0, 99, 0, 0, 0, 1, 0, 0, 0, 0, 0, 0, 0, 0, 0, 0, 0, 0, 0, 0, 0, 0, 0, 0],
   [0, 42, 7]]

example : NextReply demoInput 99 [0, 0, 0, 42] [7] :=
  ⟨(demoInput.flatten.drop 4).take 28, demoInput.flatten.take 32, .null, ⟨by decide, by decide +kernel⟩,
    by decide +kernel, authBytes .null, authBytes_isAuth (by decide), by decide +kernel⟩

def demoCallResult : CallResult UInt32 :=
  (⟨98, 7, 1⟩ : Client).call 3 .zero .zero demoArgs xdrU32 0 true demoInput

example : demoCallResult.err = none ∧ demoCallResult.resp = 42 ∧ demoCallResult.input = [[7]] ∧
    demoCallResult.client = ⟨99, 7, 1⟩ ∧
    demoCallResult.sent = some ([128, 0, 0, 44] ++ callBytes ⟨99, 2, 7, 1, 3, .null, .null⟩ [0, 0, 0, 5]) := by
  decide +kernel

/-! ### C38 transaction ids -/

/-- The parameters and circumstances of one call: everything except the client. -/
structure CallParams where
  τ : Type
  proc : UInt32
  cred : OpaqueAuth
  verf : OpaqueAuth
  args : Xdrable
  resp : Recv τ
  r : τ
  writeOk : Bool
  input : Chunks

/-- The call of `c` with these parameters. -/
def CallParams.on (p : CallParams) (c : Client) : CallResult p.τ :=
  c.call p.proc p.cred p.verf p.args p.resp p.r p.writeOk p.input

/-- The client after a sequence of calls. -/
def after (c : Client) : List CallParams → Client
  | [] => c
  | p :: ps => after (p.on c).client ps

/-- After `n` calls, whatever they were and however they ended, the counter is `n mod 2^32`. -/
theorem C38_counter (prog vers : UInt32) (ps : List CallParams) :
    after (makeClient prog vers) ps = ⟨UInt32.ofNat ps.length, prog, vers⟩ := by
  have : ∀ (c : Client), after c ps = { c with xid := c.xid + UInt32.ofNat ps.length } := by
    induction ps with
    | nil => intro c; simp [after]
    | cons p ps ih =>
      intro c
      rw [after, ih, CallParams.on, C36_client]
      have : UInt32.ofNat (p :: ps).length = 1 + UInt32.ofNat ps.length := by
        rw [List.length_cons, Nat.add_comm, UInt32.ofNat_add]; rfl
      simp only [this, UInt32.add_assoc]
  rw [this]
  simp [makeClient]

/-- The transaction id in what is on the wire: the four bytes behind the record mark. -/
def wireXid (sent : List UInt8) : Nat := beVal ((sent.drop 4).take 4)

/-- The call after `n` others, if it is sent at all, carries transaction id `n + 1 mod 2^32`. -/
theorem C38_xid (prog vers : UInt32) (ps : List CallParams) (p : CallParams) (hw : WellBehaved p.args)
    (m : List UInt8) (h : (p.on (after (makeClient prog vers) ps)).sent = some m) :
    wireXid m = (ps.length + 1) % 2 ^ 32 := by
  rw [C38_counter] at h
  by_cases hc : 400 < goLen p.cred.body ∨ 400 < goLen p.verf.body ∨ Unencodable p.args
  · have := (C36_refused ⟨UInt32.ofNat ps.length, prog, vers⟩ p.proc p.cred p.verf p.args p.resp p.r
      p.writeOk p.input hc).1
    rw [CallParams.on, this] at h; cases h
  · simp only [not_or] at hc
    obtain ⟨h1, h2, h3⟩ := hc
    rcases hw with hw | ⟨s, hs⟩
    · exact absurd hw h3
    have h4 := callRequest_ok ⟨UInt32.ofNat ps.length + 1, prog, vers⟩ p.proc p.cred p.verf p.args
      (by omega) (by omega) hs
    have h5 : ∃ mark tail, mark.length = 4 ∧
        m = mark ++ (be 4 (UInt32.ofNat ps.length + 1).toNat ++ tail) := by
      rw [CallParams.on, call_sent ⟨UInt32.ofNat ps.length, prog, vers⟩ p.proc p.cred p.verf p.args p.resp
        p.r p.writeOk p.input h4] at h
      have h := Option.some.inj h
      obtain ⟨tail, ht⟩ : ∃ tail, callBytes (Client.header ⟨UInt32.ofNat ps.length + 1, prog, vers⟩ p.proc
          p.cred p.verf) s = be 4 (UInt32.ofNat ps.length + 1).toNat ++ tail := by
        simp only [callBytes, Client.header, List.append_assoc]
        exact ⟨_, rfl⟩
      rw [ht] at h
      exact ⟨_, tail, be_length 4 _, h.symm⟩
    obtain ⟨mark, tail, hm, rfl⟩ := h5
    have h6 : (List.drop 4 (mark ++ (be 4 (UInt32.ofNat ps.length + 1).toNat ++ tail))).take 4 =
        be 4 (UInt32.ofNat ps.length + 1).toNat := by
      rw [← hm, List.drop_left, hm]
      have := be_length 4 (UInt32.ofNat ps.length + 1).toNat
      conv => lhs; rw [← this]
      exact List.take_left
    rw [wireXid, h6, beVal_be, UInt32.toNat_add, UInt32.toNat_ofNat']
    simp

/-- Two calls of a client that are fewer than 2^32 calls apart carry different transaction ids. -/
theorem C38_distinct (prog vers : UInt32) (ps qs : List CallParams) (p q : CallParams)
    (hlen : qs.length + 1 < 2 ^ 32) (hwp : WellBehaved p.args) (hwq : WellBehaved q.args)
    (mp mq : List UInt8)
    (hp : (p.on (after (makeClient prog vers) ps)).sent = some mp)
    (hq : (q.on (after (makeClient prog vers) (ps ++ p :: qs))).sent = some mq) :
    wireXid mp ≠ wireXid mq := by
  rw [C38_xid prog vers ps p hwp mp hp, C38_xid prog vers _ q hwq mq hq]
  simp only [List.length_append, List.length_cons]
  omega

/-- Two consecutive calls, the first of which fails because the transport breaks. -/
def demoParams (ok : Bool) : CallParams := ⟨UInt32, 3, .zero, .zero, demoArgs, xdrU32, 0, ok, []⟩

example : WellBehaved demoArgs := .inr ⟨[0, 0, 0, 5], fun w => by simp only [demoArgs, u32_writer]; rfl⟩

example : ∃ m, ((demoParams true).on (after (makeClient 7 1) [demoParams false])).sent = some m ∧
    wireXid m = 2 := ⟨_, rfl, by decide +kernel⟩

/-- The counter wraps: call 2^32 of a client is sent with transaction id 0. -/
theorem C38_wraps (prog vers : UInt32) (ps : List CallParams) (p : CallParams) (hw : WellBehaved p.args)
    (m : List UInt8) (hn : ps.length = 2 ^ 32 - 1)
    (h : (p.on (after (makeClient prog vers) ps)).sent = some m) : wireXid m = 0 := by
  rw [C38_xid prog vers ps p hw m h, hn]; decide

/-! ### C32 record marks of requests -/

/-- Everything the client writes is framed like the server's replies (`Framed`). -/
theorem C32_client (c : Client) (proc : UInt32) (cred verf : OpaqueAuth) (args : Xdrable) (resp : Recv τ)
    (r : τ) (writeOk : Bool) (input : Chunks) (hw : WellBehaved args) (out : List UInt8)
    (h : (c.call proc cred verf args resp r writeOk input).sent = some out) :
    ∃ hdr s, Framed (callBytes hdr s) out ∧ Encodes args s := by
  by_cases hc : 400 < goLen cred.body ∨ 400 < goLen verf.body ∨ Unencodable args
  · rw [(C36_refused c proc cred verf args resp r writeOk input hc).1] at h; cases h
  · simp only [not_or] at hc
    rcases hw with hw | ⟨s, hs⟩
    · exact absurd hw hc.2.2
    · obtain ⟨o, ho, hf⟩ := C36_sent c proc cred verf args resp r writeOk input s (by omega) (by omega) hs
      rw [h] at ho; cases ho
      exact ⟨_, s, hf, hs⟩

end Verif.Props
