/-
The message structures of `Verif.Rpc.Msg` are the generated Go types of package rfc1057, and their
`xdr` functions are what the generated `Xdr` methods do.
-/
import Verif.Rpc.Msg
import Verif.Gen.Run
import Verif.Gen.DecEq
import Verif.Inst.Shipped

namespace Verif.Rpc
open Verif.Xdr Verif.Gen Verif.Inst

/-! ### The Go values -/

def OpaqueAuth.toGo (v : OpaqueAuth) : GoVal :=
  .struct [("Flavor", .u32 v.flavor), ("Body", .bytes v.body)]

def CallBody.toGo (v : CallBody) : GoVal :=
  .struct [("Rpcvers", .u32 v.rpcvers), ("Prog", .u32 v.prog), ("Vers", .u32 v.vers),
    ("Proc", .u32 v.proc), ("Cred", v.cred.toGo), ("Verf", v.verf.toGo)]

def Mismatch.toGo (v : Mismatch) : GoVal := .struct [("Low", .u32 v.low), ("High", .u32 v.high)]

def AcceptedReply.toGo (v : AcceptedReply) : GoVal :=
  .struct [("Verf", v.verf.toGo), ("Reply_data", .struct [("Stat", .u32 v.stat),
    ("Results", .barr []), ("Mismatch_info", v.mismatch.toGo)])]

def RejectedReply.toGo (v : RejectedReply) : GoVal :=
  .struct [("Stat", .u32 v.stat), ("Mismatch_info", v.mismatch.toGo), ("Astat", .u32 v.astat)]

def ReplyBody.toGo (v : ReplyBody) : GoVal :=
  .struct [("Stat", .u32 v.stat), ("Areply", v.areply.toGo), ("Rreply", v.rreply.toGo)]

def RpcMsg.toGo (v : RpcMsg) : GoVal :=
  .struct [("Xid", .u32 v.xid), ("Body", .struct [("Mtype", .u32 v.mtype), ("Cbody", v.cbody.toGo),
    ("Rbody", v.rbody.toGo)])]

/-- The zero value of the Go type `Rpc_msg` is `RpcMsg.zero`. -/
theorem zero_toGo : Rfc1057.prog.zeroNamed "Rpc_msg" = some RpcMsg.zero.toGo := by decide +kernel

/-! ### The codecs -/

abbrev defs := defsOf fl Rfc1057.spec

theorem codec_u32 {n : Ident} (h : defs n = some (.typespec (.int true))) (k : Nat) (xs : XdrState)
    (x : UInt32) : codecN Rfc1057.prog defs (k + 1) n xs (.u32 x) =
      .ok ((xdrU32 xs x).1, .u32 (xdrU32 xs x).2) := by
  simp [codecN, h, topCodec, DeclType.codec, Typespec.codec, libU32]

theorem codec_auth (k : Nat) (xs : XdrState) (v : OpaqueAuth) :
    codecN Rfc1057.prog defs (k + 2) "Opaque_auth" xs v.toGo =
      .ok ((v.xdr xs).1, (v.xdr xs).2.toGo) := by
  have h : defs "Opaque_auth" = some (.typespec (.struct (decls
    [.name (.typespec (.ident "auth_flavor")) "flavor",
     .name (.opaqueVarArray (some (.lit 400))) "body"]))) := by decide +kernel
  have n1 : i "flavor" = "Flavor" := by decide +kernel
  have n2 : i "body" = "Body" := by decide +kernel
  have n3 : i "auth_flavor" = "Auth_flavor" := by decide +kernel
  have hm : maxOf Rfc1057.prog.const (some (.lit 400)) = some 400 := by decide +kernel
  rw [codecN]
  simp [h, topCodec, decls, DeclType.codec, Typespec.codec, Decls.codec, OpaqueAuth.toGo, n1, n2, n3,
    codec_u32 (n := "Auth_flavor") (by decide +kernel), OpaqueAuth.xdr, bind, Except.bind, pure,
    Except.pure, hm, orStuck, libVarArray]

theorem name_lits : i "rpcvers" = "Rpcvers" ∧ i "prog" = "Prog" ∧ i "vers" = "Vers" ∧ i "proc" = "Proc" ∧
    i "cred" = "Cred" ∧ i "verf" = "Verf" ∧ i "opaque_auth" = "Opaque_auth" ∧ i "low" = "Low" ∧
    i "high" = "High" ∧ i "stat" = "Stat" ∧ i "results" = "Results" ∧
    i "mismatch_info" = "Mismatch_info" ∧ i "reply_data" = "Reply_data" ∧
    i "accept_stat" = "Accept_stat" ∧ i "reject_stat" = "Reject_stat" ∧ i "auth_stat" = "Auth_stat" ∧
    i "astat" = "Astat" ∧ i "reply_stat" = "Reply_stat" ∧ i "areply" = "Areply" ∧ i "rreply" = "Rreply" ∧
    i "accepted_reply" = "Accepted_reply" ∧ i "rejected_reply" = "Rejected_reply" ∧
    i "xid" = "Xid" ∧ i "body" = "Body" ∧ i "mtype" = "Mtype" ∧ i "msg_type" = "Msg_type" ∧
    i "cbody" = "Cbody" ∧ i "rbody" = "Rbody" ∧ i "call_body" = "Call_body" ∧
    i "reply_body" = "Reply_body" := by decide +kernel

theorem labels : Rfc1057.prog.label (iVal (.ident "CALL")) = some (.int 0) ∧
    Rfc1057.prog.label (iVal (.ident "REPLY")) = some (.int 1) ∧
    Rfc1057.prog.label (iVal (.ident "MSG_ACCEPTED")) = some (.int 0) ∧
    Rfc1057.prog.label (iVal (.ident "MSG_DENIED")) = some (.int 1) ∧
    Rfc1057.prog.label (iVal (.ident "SUCCESS")) = some (.int 0) ∧
    Rfc1057.prog.label (iVal (.ident "PROG_MISMATCH")) = some (.int 2) ∧
    Rfc1057.prog.label (iVal (.ident "RPC_MISMATCH")) = some (.int 0) ∧
    Rfc1057.prog.label (iVal (.ident "AUTH_ERROR")) = some (.int 1) := by decide +kernel

theorem codec_callBody (k : Nat) (xs : XdrState) (v : CallBody) :
    codecN Rfc1057.prog defs (k + 3) "Call_body" xs v.toGo =
      .ok ((v.xdr xs).1, (v.xdr xs).2.toGo) := by
  have h : defs "Call_body" = some (.typespec (.struct (decls
    [.name (.typespec (.int true)) "rpcvers", .name (.typespec (.int true)) "prog",
     .name (.typespec (.int true)) "vers", .name (.typespec (.int true)) "proc",
     .name (.typespec (.ident "opaque_auth")) "cred",
     .name (.typespec (.ident "opaque_auth")) "verf"]))) := by decide +kernel
  rw [codecN]
  simp [h, topCodec, decls, DeclType.codec, Typespec.codec, Decls.codec, Cases.codec, Decl.codec, bind, Except.bind, pure,
    Except.pure, orStuck, libU32,
    CallBody.toGo, name_lits, codec_auth, CallBody.xdr]

theorem match_u32 (x : UInt32) (n : Nat) (hn : n < 4294967296) (l : Val)
    (h : Rfc1057.prog.label (iVal l) = some (.int n)) :
    matchLabels Rfc1057.prog (.u32 x) [l] = .ok (decide (x = UInt32.ofNat n)) := by
  have : (x.toNat == n) = decide (x = UInt32.ofNat n) := by
    rw [Bool.eq_iff_iff]
    simp only [beq_iff_eq, decide_eq_true_eq]
    rw [← UInt32.toNat_inj, UInt32.toNat_ofNat_of_lt' hn]
  simp only [matchLabels, h, orStuck, matchLabel, bind, Except.bind, this, pure, Except.pure]
  by_cases hx : x = UInt32.ofNat n <;> simp [hx]

theorem xdrArray_nil (xs : XdrState) : (xdrArray xs []).2 = [] := by
  simp only [xdrArray, xdrRW]
  split
  · rfl
  · split <;> simp

theorem codec_accepted (k : Nat) (xs : XdrState) (v : AcceptedReply) :
    codecN Rfc1057.prog defs (k + 3) "Accepted_reply" xs v.toGo =
      .ok ((v.xdr xs).1, (v.xdr xs).2.toGo) := by
  have h : defs "Accepted_reply" = some (.typespec (.struct (decls
    [.name (.typespec (.ident "opaque_auth")) "verf",
     .name (.typespec (.union (.name (.typespec (.ident "accept_stat")) "stat") (cases
       [(.ident "SUCCESS", [], .name (.opaqueArray (.lit 0)) "results"),
        (.ident "PROG_MISMATCH", [], .name (.typespec (.struct (decls
          [.name (.typespec (.int true)) "low", .name (.typespec (.int true)) "high"]))) "mismatch_info")]
       (some .void)))) "reply_data"]))) := by decide +kernel
  have m0 := fun x => match_u32 x 0 (by decide) (.ident "SUCCESS") labels.2.2.2.2.1
  have m2 := fun x => match_u32 x 2 (by decide) (.ident "PROG_MISMATCH") labels.2.2.2.2.2.1
  rw [codecN]
  by_cases c0 : (xdrU32 (v.verf.xdr xs).1 v.stat).2 = 0
  · simp [h, topCodec, decls, cases, DeclType.codec, Typespec.codec, Decls.codec, Cases.codec, Decl.codec, bind, Except.bind, pure,
      Except.pure, orStuck,
      libArray, AcceptedReply.toGo, name_lits, codec_auth, AcceptedReply.xdr, Mismatch.toGo,
      codec_u32 (n := "Accept_stat") (by decide +kernel), m0, c0, xdrArray_nil]
  · by_cases c2 : (xdrU32 (v.verf.xdr xs).1 v.stat).2 = 2 <;>
    simp [h, topCodec, decls, cases, DeclType.codec, Typespec.codec, Decls.codec, Cases.codec, Decl.codec, bind, Except.bind, pure,
      Except.pure, orStuck,
      libU32, AcceptedReply.toGo, name_lits, codec_auth, AcceptedReply.xdr, Mismatch.toGo, Mismatch.xdr,
      codec_u32 (n := "Accept_stat") (by decide +kernel), m0, m2, c0, c2]

theorem codec_rejected (k : Nat) (xs : XdrState) (v : RejectedReply) :
    codecN Rfc1057.prog defs (k + 2) "Rejected_reply" xs v.toGo =
      .ok ((v.xdr xs).1, (v.xdr xs).2.toGo) := by
  have h : defs "Rejected_reply" = some (.typespec (.union
      (.name (.typespec (.ident "reject_stat")) "stat") (cases
       [(.ident "RPC_MISMATCH", [], .name (.typespec (.struct (decls
          [.name (.typespec (.int true)) "low", .name (.typespec (.int true)) "high"]))) "mismatch_info"),
        (.ident "AUTH_ERROR", [], .name (.typespec (.ident "auth_stat")) "astat")] none))) := by
    decide +kernel
  have m0 := fun x => match_u32 x 0 (by decide) (.ident "RPC_MISMATCH") labels.2.2.2.2.2.2.1
  have m1 := fun x => match_u32 x 1 (by decide) (.ident "AUTH_ERROR") labels.2.2.2.2.2.2.2
  rw [codecN]
  by_cases c0 : (xdrU32 xs v.stat).2 = 0
  · simp [h, topCodec, decls, cases, DeclType.codec, Typespec.codec, Decls.codec, Cases.codec, Decl.codec, bind, Except.bind, pure,
      Except.pure, orStuck,
      libU32, RejectedReply.toGo, name_lits, RejectedReply.xdr, Mismatch.toGo, Mismatch.xdr,
      codec_u32 (n := "Reject_stat") (by decide +kernel), m0, c0]
  · by_cases c1 : (xdrU32 xs v.stat).2 = 1 <;>
    simp [h, topCodec, decls, cases, DeclType.codec, Typespec.codec, Decls.codec, Cases.codec, Decl.codec, bind, Except.bind, pure,
      Except.pure, orStuck,
      RejectedReply.toGo, name_lits, RejectedReply.xdr, Mismatch.toGo,
      codec_u32 (n := "Reject_stat") (by decide +kernel), codec_u32 (n := "Auth_stat") (by decide +kernel),
      m0, m1, c0, c1]

theorem codec_replyBody (k : Nat) (xs : XdrState) (v : ReplyBody) :
    codecN Rfc1057.prog defs (k + 4) "Reply_body" xs v.toGo =
      .ok ((v.xdr xs).1, (v.xdr xs).2.toGo) := by
  have h : defs "Reply_body" = some (.typespec (.union
      (.name (.typespec (.ident "reply_stat")) "stat") (cases
       [(.ident "MSG_ACCEPTED", [], .name (.typespec (.ident "accepted_reply")) "areply"),
        (.ident "MSG_DENIED", [], .name (.typespec (.ident "rejected_reply")) "rreply")] none))) := by
    decide +kernel
  have m0 := fun x => match_u32 x 0 (by decide) (.ident "MSG_ACCEPTED") labels.2.2.1
  have m1 := fun x => match_u32 x 1 (by decide) (.ident "MSG_DENIED") labels.2.2.2.1
  rw [codecN]
  by_cases c0 : (xdrU32 xs v.stat).2 = 0
  · simp [h, topCodec, decls, cases, DeclType.codec, Typespec.codec, Decls.codec, Cases.codec, Decl.codec, bind, Except.bind, pure,
      Except.pure, orStuck,
      ReplyBody.toGo, name_lits, ReplyBody.xdr, codec_accepted,
      codec_u32 (n := "Reply_stat") (by decide +kernel), m0, c0]
  · by_cases c1 : (xdrU32 xs v.stat).2 = 1 <;>
    simp [h, topCodec, decls, cases, DeclType.codec, Typespec.codec, Decls.codec, Cases.codec, Decl.codec, bind, Except.bind, pure,
      Except.pure, orStuck,
      ReplyBody.toGo, name_lits, ReplyBody.xdr, codec_rejected,
      codec_u32 (n := "Reply_stat") (by decide +kernel), m0, m1, c0, c1]

theorem codec_rpcMsg (k : Nat) (xs : XdrState) (v : RpcMsg) :
    codecN Rfc1057.prog defs (k + 5) "Rpc_msg" xs v.toGo =
      .ok ((v.xdr xs).1, (v.xdr xs).2.toGo) := by
  have h : defs "Rpc_msg" = some (.typespec (.struct (decls
     [.name (.typespec (.int true)) "xid",
      .name (.typespec (.union (.name (.typespec (.ident "msg_type")) "mtype") (cases
       [(.ident "CALL", [], .name (.typespec (.ident "call_body")) "cbody"),
        (.ident "REPLY", [], .name (.typespec (.ident "reply_body")) "rbody")] none))) "body"]))) := by
    decide +kernel
  have m0 := fun x => match_u32 x 0 (by decide) (.ident "CALL") labels.1
  have m1 := fun x => match_u32 x 1 (by decide) (.ident "REPLY") labels.2.1
  rw [codecN]
  by_cases c0 : (xdrU32 (xdrU32 xs v.xid).1 v.mtype).2 = 0
  · simp [h, topCodec, decls, cases, DeclType.codec, Typespec.codec, Decls.codec, Cases.codec, Decl.codec, bind, Except.bind, pure,
      Except.pure, orStuck,
      libU32, RpcMsg.toGo, name_lits, RpcMsg.xdr, codec_callBody,
      codec_u32 (n := "Msg_type") (by decide +kernel), m0, c0]
  · by_cases c1 : (xdrU32 (xdrU32 xs v.xid).1 v.mtype).2 = 1 <;>
    simp [h, topCodec, decls, cases, DeclType.codec, Typespec.codec, Decls.codec, Cases.codec, Decl.codec, bind, Except.bind, pure,
      Except.pure, orStuck,
      libU32, RpcMsg.toGo, name_lits, RpcMsg.xdr, codec_replyBody,
      codec_u32 (n := "Msg_type") (by decide +kernel), m0, m1, c0, c1]

/-- The function `RpcMsg.xdr` is what the generated method `Rpc_msg.Xdr` does. -/
theorem run_rpcMsg (xs : XdrState) (v : RpcMsg) :
    Runs Rfc1057.prog "Rpc_msg" xs v.toGo (v.xdr xs).1 (v.xdr xs).2.toGo :=
  runs_of_codecN Rfc1057.gen Rfc1057.supp (codec_rpcMsg 0 xs v)

end Verif.Rpc
