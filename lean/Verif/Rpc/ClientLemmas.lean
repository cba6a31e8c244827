/-
Lemmas on the client: encoding of the request, reading of the reply.
-/
import Verif.Rpc.Client
import Verif.Rpc.ServerLemmas
import Verif.Rpc.StreamLemmas

namespace Verif.Rpc
open Verif.Xdr Verif.Spec

/-- The call header a client sends. -/
def Client.header (c : Client) (proc : UInt32) (cred verf : OpaqueAuth) : Call :=
  ⟨c.xid, 2, c.prog, c.vers, proc, authOf cred, authOf verf⟩

theorem callMsg_writer (c : Client) (proc : UInt32) (cred verf : OpaqueAuth)
    (h1 : goLen cred.body ≤ 400) (h2 : goLen verf.body ≤ 400) :
    ((callMsg c proc cred verf).xdr (makeWriter [])).1 =
      makeWriter (callBytes (c.header proc cred verf) []) := by
  simp only [callMsg, RpcMsg.xdr, CallBody.xdr, u32_writer, if_true, auth_writer _ _ h1,
    auth_writer _ _ h2]
  simp [callBytes, Client.header]

theorem callMsg_writer_large (c : Client) (proc : UInt32) (cred verf : OpaqueAuth)
    (h : ¬ (goLen cred.body ≤ 400 ∧ goLen verf.body ≤ 400)) :
    ((callMsg c proc cred verf).xdr (makeWriter [])).1.err.isSome := by
  simp only [callMsg, RpcMsg.xdr, CallBody.xdr, u32_writer, if_true]
  by_cases h1 : goLen cred.body ≤ 400
  · simp only [auth_writer _ _ h1]
    exact auth_writer_large _ _ fun h2 => h ⟨h1, h2⟩
  · rw [auth_err _ (auth_writer_large _ _ h1)]
    exact auth_writer_large _ _ h1

theorem callBytes_append (c : Call) (s : List UInt8) : callBytes c [] ++ s = callBytes c s := by
  simp [callBytes]

theorem callRequest_ok (c : Client) (proc : UInt32) (cred verf : OpaqueAuth) (args : Xdrable)
    (h1 : goLen cred.body ≤ 400) (h2 : goLen verf.body ≤ 400) {s : List UInt8} (ha : Encodes args s) :
    callRequest c proc cred verf args = .ok
      (be 4 (2 ^ 31 + (callBytes (c.header proc cred verf) s).length % 2 ^ 31) ++
        callBytes (c.header proc cred verf) s) := by
  simp only [callRequest, callMsg_writer c proc cred verf h1 h2]
  simp only [ha (callBytes (c.header proc cred verf) []), callBytes_append]
  simp only [makeWriter, writeBuf, mark_eq]

theorem callRequest_large (c : Client) (proc : UInt32) (cred verf : OpaqueAuth) (args : Xdrable)
    (h : ¬ (goLen cred.body ≤ 400 ∧ goLen verf.body ≤ 400)) :
    ∃ e, callRequest c proc cred verf args = .error e := by
  have h1 := callMsg_writer_large c proc cred verf h
  simp only [callRequest]
  cases he : ((callMsg c proc cred verf).xdr (makeWriter [])).1.err with
  | none => rw [he] at h1; cases h1
  | some e => exact ⟨_, rfl⟩

theorem callRequest_unencodable (c : Client) (proc : UInt32) (cred verf : OpaqueAuth) (args : Xdrable)
    (ha : Unencodable args) : ∃ e, callRequest c proc cred verf args = .error e := by
  by_cases h : goLen cred.body ≤ 400 ∧ goLen verf.body ≤ 400
  · have h1 := ha (callBytes (c.header proc cred verf) [])
    simp only [callRequest, callMsg_writer c proc cred verf h.1 h.2]
    cases he : (args (makeWriter (callBytes (c.header proc cred verf) []))).err with
    | none => rw [he] at h1; cases h1
    | some e => exact ⟨.xdr e, by simp [makeWriter]⟩
  · exact callRequest_large c proc cred verf args h

/-! ### The reply -/

/-- `readReply` and the server's `readRequest` are the same code. -/
theorem readReply_ok {cs cs' : Chunks} {m : List UInt8} :
    readReply cs = (.ok m, cs') ↔ readRequest cs = (.ok m, cs') := by
  unfold readReply readRequest
  cases readFull 4 cs with
  | mk a cs1 =>
    cases a with
    | error e => simp
    | ok hdr =>
      simp only []
      split
      · simp
      · cases readFull (getU32 hdr &&& 0x7fffffff).toNat cs1 with
        | mk a cs2 => cases a <;> simp

theorem readRequest_ok_inv {cs cs' : Chunks} {m : List UInt8} (h : readRequest cs = (.ok m, cs')) :
    ∃ r, IsRecord m r ∧ cs.flatten = r ++ cs'.flatten := by
  obtain ⟨ms, e, hs⟩ := stream_total cs.flatten
  have h1 : (readRequest cs).1 = .ok m := by rw [h]
  generalize hb : cs.flatten = b at hs
  cases hs with
  | clean => rw [readRequest_short (by rw [hb]; simp)] at h1; cases h1
  | short _ h0 h4 => rw [readRequest_short (by rw [hb]; exact h4)] at h1; cases h1
  | fragment n rest hn => rw [readRequest_fragment hb hn] at h1; cases h1
  | shortBody n part hn hp => rw [readRequest_shortBody hb hn hp] at h1; cases h1
  | record m' r rest ms e hr hs =>
    obtain ⟨cs'', h2, h3⟩ := readRequest_record hr hb
    rw [h] at h2
    cases h2
    exact ⟨r, hr, by rw [h3]⟩

variable {τ : Type}

theorem parseReply_ok {xid : UInt32} {buf : List UInt8} {verf : Auth} {bytes : List UInt8} (resp : Recv τ)
    (r : τ) (h : IsReply xid (.accepted verf (.success bytes)) buf) :
    parseReply xid buf resp r =
      ((resp (makeReader bytes) r).1.err.map CallErr.xdr, (resp (makeReader bytes) r).2) := by
  simp only [parseReply, decode_success h RpcMsg.zero]
  simp only [makeReader, ne_eq, not_true_eq_false, if_false]
  cases he : (resp { err := none, reader := true, buf := bytes } r).1.err <;> simp

theorem parseReply_other {xid : UInt32} {buf : List UInt8} (resp : Recv τ) (r : τ)
    (h : ¬ ∃ verf bytes, IsReply xid (.accepted verf (.success bytes)) buf) :
    ∃ e, parseReply xid buf resp r = (some e, r) := by
  rw [← decode_success_iff] at h
  simp only [parseReply]
  generalize RpcMsg.zero.xdr (makeReader buf) = x at h
  obtain ⟨rd, res⟩ := x
  simp only at h ⊢
  cases he : rd.err with
  | some e => exact ⟨_, rfl⟩
  | none =>
    simp only []
    split
    · exact ⟨_, rfl⟩
    split
    · exact ⟨_, rfl⟩
    split
    · exact ⟨_, rfl⟩
    split
    · exact ⟨_, rfl⟩
    · simp_all

theorem call_sent (c : Client) (proc : UInt32) (cred verf : OpaqueAuth) (args : Xdrable) (resp : Recv τ)
    (r : τ) (writeOk : Bool) (input : Chunks) {msg : List UInt8}
    (h : callRequest { c with xid := c.xid + 1 } proc cred verf args = .ok msg) :
    (c.call proc cred verf args resp r writeOk input).sent = some msg := by
  simp only [Client.call, h]
  cases writeOk with
  | false => rfl
  | true =>
    simp only [if_true]
    cases readReply input with
    | mk a cs => cases a <;> rfl

end Verif.Rpc
