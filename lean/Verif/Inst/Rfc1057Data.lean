/-
Transcription of /repo/rfc1057/prot.x, types.go and xdr.go, made by tools/transcribe.py.
-/
import Verif.Inst.Syntax

namespace Verif.Inst.Rfc1057
open Verif.Gen Verif.Inst

/-- /repo/rfc1057/prot.x -/
def spec : Spec :=
  [.enum "auth_flavor" [⟨"AUTH_NONE", (.lit 0)⟩, ⟨"AUTH_UNIX", (.lit 1)⟩, ⟨"AUTH_SHORT", (.lit 2)⟩, ⟨"AUTH_DES", (.lit 3)⟩],
   .struct "opaque_auth" (decls [(.name (.typespec (.ident "auth_flavor")) "flavor"),
      (.name (.opaqueVarArray (some (.lit 400))) "body")]),
   .enum "msg_type" [⟨"CALL", (.lit 0)⟩, ⟨"REPLY", (.lit 1)⟩],
   .enum "reply_stat" [⟨"MSG_ACCEPTED", (.lit 0)⟩, ⟨"MSG_DENIED", (.lit 1)⟩],
   .enum "accept_stat" [⟨"SUCCESS", (.lit 0)⟩, ⟨"PROG_UNAVAIL", (.lit 1)⟩, ⟨"PROG_MISMATCH", (.lit 2)⟩, ⟨"PROC_UNAVAIL", (.lit 3)⟩, ⟨"GARBAGE_ARGS", (.lit 4)⟩],
   .enum "reject_stat" [⟨"RPC_MISMATCH", (.lit 0)⟩, ⟨"AUTH_ERROR", (.lit 1)⟩],
   .enum "auth_stat" [⟨"AUTH_BADCRED", (.lit 1)⟩, ⟨"AUTH_REJECTEDCRED", (.lit 2)⟩, ⟨"AUTH_BADVERF", (.lit 3)⟩, ⟨"AUTH_REJECTEDVERF", (.lit 4)⟩, ⟨"AUTH_TOOWEAK", (.lit 5)⟩],
   .struct "rpc_msg" (decls [(.name (.typespec (.int true)) "xid"),
      (.name (.typespec (.union (.name (.typespec (.ident "msg_type")) "mtype") (cases [((.ident "CALL"), [], (.name (.typespec (.ident "call_body")) "cbody")),
      ((.ident "REPLY"), [], (.name (.typespec (.ident "reply_body")) "rbody"))] none))) "body")]),
   .struct "call_body" (decls [(.name (.typespec (.int true)) "rpcvers"),
      (.name (.typespec (.int true)) "prog"),
      (.name (.typespec (.int true)) "vers"),
      (.name (.typespec (.int true)) "proc"),
      (.name (.typespec (.ident "opaque_auth")) "cred"),
      (.name (.typespec (.ident "opaque_auth")) "verf")]),
   .union "reply_body" (.name (.typespec (.ident "reply_stat")) "stat") (cases [((.ident "MSG_ACCEPTED"), [], (.name (.typespec (.ident "accepted_reply")) "areply")),
      ((.ident "MSG_DENIED"), [], (.name (.typespec (.ident "rejected_reply")) "rreply"))] none),
   .struct "accepted_reply" (decls [(.name (.typespec (.ident "opaque_auth")) "verf"),
      (.name (.typespec (.union (.name (.typespec (.ident "accept_stat")) "stat") (cases [((.ident "SUCCESS"), [], (.name (.opaqueArray (.lit 0)) "results")),
      ((.ident "PROG_MISMATCH"), [], (.name (.typespec (.struct (decls [(.name (.typespec (.int true)) "low"),
      (.name (.typespec (.int true)) "high")]))) "mismatch_info"))] (some .void)))) "reply_data")]),
   .union "rejected_reply" (.name (.typespec (.ident "reject_stat")) "stat") (cases [((.ident "RPC_MISMATCH"), [], (.name (.typespec (.struct (decls [(.name (.typespec (.int true)) "low"),
      (.name (.typespec (.int true)) "high")]))) "mismatch_info")),
      ((.ident "AUTH_ERROR"), [], (.name (.typespec (.ident "auth_stat")) "astat"))] none),
   .struct "auth_unix" (decls [(.name (.typespec (.int true)) "stamp"),
      (.name (.string (some (.lit 255))) "machinename"),
      (.name (.typespec (.int true)) "uid"),
      (.name (.typespec (.int true)) "gid"),
      (.name (.varArray (.int true) (some (.lit 16))) "gids")]),
   .const "PMAP_PORT" 111,
   .struct "mapping" (decls [(.name (.typespec (.int true)) "prog"),
      (.name (.typespec (.int true)) "vers"),
      (.name (.typespec (.int true)) "prot"),
      (.name (.typespec (.int true)) "port")]),
   .const "IPPROTO_TCP" 6,
   .const "IPPROTO_UDP" 17,
   .typedef (.name (.ptr (.ident "pmaplistelem")) "pmaplist"),
   .struct "pmaplistelem" (decls [(.name (.typespec (.ident "mapping")) "map"),
      (.name (.typespec (.ident "pmaplist")) "next")]),
   .struct "call_args" (decls [(.name (.typespec (.int true)) "prog"),
      (.name (.typespec (.int true)) "vers"),
      (.name (.typespec (.int true)) "proc"),
      (.name (.opaqueVarArray none) "args")]),
   .struct "call_result" (decls [(.name (.typespec (.int true)) "port"),
      (.name (.opaqueVarArray none) "res")]),
   .typedef (.name (.typespec (.int true)) "uint32"),
   .typedef (.name (.typespec .bool) "xbool"),
   .program ⟨"PMAP_PROG", [⟨"PMAP_VERS", [⟨"PMAPPROC_NULL", none, none, 0⟩,
      ⟨"PMAPPROC_SET", (some (.ident "mapping")), (some (.ident "xbool")), 1⟩,
      ⟨"PMAPPROC_UNSET", (some (.ident "mapping")), (some (.ident "xbool")), 2⟩,
      ⟨"PMAPPROC_GETPORT", (some (.ident "mapping")), (some (.ident "uint32")), 3⟩,
      ⟨"PMAPPROC_DUMP", none, (some (.ident "pmaplist")), 4⟩,
      ⟨"PMAPPROC_CALLIT", (some (.ident "call_args")), (some (.ident "call_result")), 5⟩], 2⟩], 100000⟩]

/-- the constants of /repo/rfc1057/types.go -/
def goConsts : List GoConst :=
  [⟨"AUTH_NONE", "Auth_flavor", (.lit 0)⟩,
   ⟨"AUTH_UNIX", "Auth_flavor", (.lit 1)⟩,
   ⟨"AUTH_SHORT", "Auth_flavor", (.lit 2)⟩,
   ⟨"AUTH_DES", "Auth_flavor", (.lit 3)⟩,
   ⟨"CALL", "Msg_type", (.lit 0)⟩,
   ⟨"REPLY", "Msg_type", (.lit 1)⟩,
   ⟨"MSG_ACCEPTED", "Reply_stat", (.lit 0)⟩,
   ⟨"MSG_DENIED", "Reply_stat", (.lit 1)⟩,
   ⟨"SUCCESS", "Accept_stat", (.lit 0)⟩,
   ⟨"PROG_UNAVAIL", "Accept_stat", (.lit 1)⟩,
   ⟨"PROG_MISMATCH", "Accept_stat", (.lit 2)⟩,
   ⟨"PROC_UNAVAIL", "Accept_stat", (.lit 3)⟩,
   ⟨"GARBAGE_ARGS", "Accept_stat", (.lit 4)⟩,
   ⟨"RPC_MISMATCH", "Reject_stat", (.lit 0)⟩,
   ⟨"AUTH_ERROR", "Reject_stat", (.lit 1)⟩,
   ⟨"AUTH_BADCRED", "Auth_stat", (.lit 1)⟩,
   ⟨"AUTH_REJECTEDCRED", "Auth_stat", (.lit 2)⟩,
   ⟨"AUTH_BADVERF", "Auth_stat", (.lit 3)⟩,
   ⟨"AUTH_REJECTEDVERF", "Auth_stat", (.lit 4)⟩,
   ⟨"AUTH_TOOWEAK", "Auth_stat", (.lit 5)⟩,
   ⟨"PMAP_PORT", "uint32", (.lit 111)⟩,
   ⟨"IPPROTO_TCP", "uint32", (.lit 6)⟩,
   ⟨"IPPROTO_UDP", "uint32", (.lit 17)⟩,
   ⟨"PMAP_PROG", "uint32", (.lit 100000)⟩,
   ⟨"PMAP_VERS", "uint32", (.lit 2)⟩,
   ⟨"PMAPPROC_NULL", "uint32", (.lit 0)⟩,
   ⟨"PMAPPROC_SET", "uint32", (.lit 1)⟩,
   ⟨"PMAPPROC_UNSET", "uint32", (.lit 2)⟩,
   ⟨"PMAPPROC_GETPORT", "uint32", (.lit 3)⟩,
   ⟨"PMAPPROC_DUMP", "uint32", (.lit 4)⟩,
   ⟨"PMAPPROC_CALLIT", "uint32", (.lit 5)⟩]

/-- the types of /repo/rfc1057/types.go -/
def goTypes : List (Ident × GoType) :=
  [("Auth_flavor", .uint32),
   ("Opaque_auth", (.struct (fields [("Flavor", (.named "Auth_flavor")),
      ("Body", .bytes)]))),
   ("Msg_type", .uint32),
   ("Reply_stat", .uint32),
   ("Accept_stat", .uint32),
   ("Reject_stat", .uint32),
   ("Auth_stat", .uint32),
   ("Rpc_msg", (.struct (fields [("Xid", .uint32),
      ("Body", (.struct (fields [("Mtype", (.named "Msg_type")),
      ("Cbody", (.named "Call_body")),
      ("Rbody", (.named "Reply_body"))])))]))),
   ("Call_body", (.struct (fields [("Rpcvers", .uint32),
      ("Prog", .uint32),
      ("Vers", .uint32),
      ("Proc", .uint32),
      ("Cred", (.named "Opaque_auth")),
      ("Verf", (.named "Opaque_auth"))]))),
   ("Reply_body", (.struct (fields [("Stat", (.named "Reply_stat")),
      ("Areply", (.named "Accepted_reply")),
      ("Rreply", (.named "Rejected_reply"))]))),
   ("Accepted_reply", (.struct (fields [("Verf", (.named "Opaque_auth")),
      ("Reply_data", (.struct (fields [("Stat", (.named "Accept_stat")),
      ("Results", (.byteArray (.lit 0))),
      ("Mismatch_info", (.struct (fields [("Low", .uint32),
      ("High", .uint32)])))])))]))),
   ("Rejected_reply", (.struct (fields [("Stat", (.named "Reject_stat")),
      ("Mismatch_info", (.struct (fields [("Low", .uint32),
      ("High", .uint32)]))),
      ("Astat", (.named "Auth_stat"))]))),
   ("Auth_unix", (.struct (fields [("Stamp", .uint32),
      ("Machinename", .string),
      ("Uid", .uint32),
      ("Gid", .uint32),
      ("Gids", (.slice .uint32))]))),
   ("Mapping", (.struct (fields [("Prog", .uint32),
      ("Vers", .uint32),
      ("Prot", .uint32),
      ("Port", .uint32)]))),
   ("Pmaplist", (.struct (fields [("P", (.ptr (.named "Pmaplistelem")))]))),
   ("Pmaplistelem", (.struct (fields [("Map", (.named "Mapping")),
      ("Next", (.named "Pmaplist"))]))),
   ("Call_args", (.struct (fields [("Prog", .uint32),
      ("Vers", .uint32),
      ("Proc", .uint32),
      ("Args", .bytes)]))),
   ("Call_result", (.struct (fields [("Port", .uint32),
      ("Res", .bytes)]))),
   ("Uint32", .uint32),
   ("Xbool", .bool)]

/-- `func (v *Auth_flavor) Xdr` in /repo/rfc1057/xdr.go -/
def xdr_Auth_flavor : Stmts :=
  (stmts [.xdrU32 .recv])

/-- `func (v *Opaque_auth) Xdr` in /repo/rfc1057/xdr.go -/
def xdr_Opaque_auth : Stmts :=
  (stmts [.callXdr "Auth_flavor" (.addr (.field .recv "Flavor")),
      .xdrVarArray (some (.lit 400)) (.addr (.field .recv "Body"))])

/-- `func (v *Msg_type) Xdr` in /repo/rfc1057/xdr.go -/
def xdr_Msg_type : Stmts :=
  (stmts [.xdrU32 .recv])

/-- `func (v *Reply_stat) Xdr` in /repo/rfc1057/xdr.go -/
def xdr_Reply_stat : Stmts :=
  (stmts [.xdrU32 .recv])

/-- `func (v *Accept_stat) Xdr` in /repo/rfc1057/xdr.go -/
def xdr_Accept_stat : Stmts :=
  (stmts [.xdrU32 .recv])

/-- `func (v *Reject_stat) Xdr` in /repo/rfc1057/xdr.go -/
def xdr_Reject_stat : Stmts :=
  (stmts [.xdrU32 .recv])

/-- `func (v *Auth_stat) Xdr` in /repo/rfc1057/xdr.go -/
def xdr_Auth_stat : Stmts :=
  (stmts [.xdrU32 .recv])

/-- `func (v *Rpc_msg) Xdr` in /repo/rfc1057/xdr.go -/
def xdr_Rpc_msg : Stmts :=
  (stmts [.xdrU32 (.addr (.field .recv "Xid")),
      .callXdr "Msg_type" (.addr (.field (.addr (.field .recv "Body")) "Mtype")),
      .switch (.field (.addr (.field .recv "Body")) "Mtype") (gocases [((.ident "CALL"), stmts [.callXdr "Call_body" (.addr (.field (.addr (.field .recv "Body")) "Cbody"))], false),
      ((.ident "REPLY"), stmts [.callXdr "Reply_body" (.addr (.field (.addr (.field .recv "Body")) "Rbody"))], false)] none)])

/-- `func (v *Call_body) Xdr` in /repo/rfc1057/xdr.go -/
def xdr_Call_body : Stmts :=
  (stmts [.xdrU32 (.addr (.field .recv "Rpcvers")),
      .xdrU32 (.addr (.field .recv "Prog")),
      .xdrU32 (.addr (.field .recv "Vers")),
      .xdrU32 (.addr (.field .recv "Proc")),
      .callXdr "Opaque_auth" (.addr (.field .recv "Cred")),
      .callXdr "Opaque_auth" (.addr (.field .recv "Verf"))])

/-- `func (v *Reply_body) Xdr` in /repo/rfc1057/xdr.go -/
def xdr_Reply_body : Stmts :=
  (stmts [.callXdr "Reply_stat" (.addr (.field .recv "Stat")),
      .switch (.field .recv "Stat") (gocases [((.ident "MSG_ACCEPTED"), stmts [.callXdr "Accepted_reply" (.addr (.field .recv "Areply"))], false),
      ((.ident "MSG_DENIED"), stmts [.callXdr "Rejected_reply" (.addr (.field .recv "Rreply"))], false)] none)])

/-- `func (v *Accepted_reply) Xdr` in /repo/rfc1057/xdr.go -/
def xdr_Accepted_reply : Stmts :=
  (stmts [.callXdr "Opaque_auth" (.addr (.field .recv "Verf")),
      .callXdr "Accept_stat" (.addr (.field (.addr (.field .recv "Reply_data")) "Stat")),
      .switch (.field (.addr (.field .recv "Reply_data")) "Stat") (gocases [((.ident "SUCCESS"), stmts [.xdrArray (.addr (.field (.addr (.field .recv "Reply_data")) "Results"))], false),
      ((.ident "PROG_MISMATCH"), stmts [.xdrU32 (.addr (.field (.addr (.field (.addr (.field .recv "Reply_data")) "Mismatch_info")) "Low")),
      .xdrU32 (.addr (.field (.addr (.field (.addr (.field .recv "Reply_data")) "Mismatch_info")) "High"))], false)] (some (stmts [])))])

/-- `func (v *Rejected_reply) Xdr` in /repo/rfc1057/xdr.go -/
def xdr_Rejected_reply : Stmts :=
  (stmts [.callXdr "Reject_stat" (.addr (.field .recv "Stat")),
      .switch (.field .recv "Stat") (gocases [((.ident "RPC_MISMATCH"), stmts [.xdrU32 (.addr (.field (.addr (.field .recv "Mismatch_info")) "Low")),
      .xdrU32 (.addr (.field (.addr (.field .recv "Mismatch_info")) "High"))], false),
      ((.ident "AUTH_ERROR"), stmts [.callXdr "Auth_stat" (.addr (.field .recv "Astat"))], false)] none)])

/-- `func (v *Auth_unix) Xdr` in /repo/rfc1057/xdr.go -/
def xdr_Auth_unix : Stmts :=
  (stmts [.xdrU32 (.addr (.field .recv "Stamp")),
      .xdrString (some (.lit 255)) (.addr (.field .recv "Machinename")),
      .xdrU32 (.addr (.field .recv "Uid")),
      .xdrU32 (.addr (.field .recv "Gid")),
      .block (stmts [.varU32 "__arraysz",
      .encSetSize "__arraysz" (.addr (.field .recv "Gids")),
      .xdrU32 (.addr (.var "__arraysz")),
      .ifGt "__arraysz" (.lit 16) (stmts [.ifDecoding (stmts [.assignMake (.addr (.field .recv "Gids")) .uint32 "__arraysz"]),
      .forU64 "i" "__arraysz" (stmts [.xdrU32 (.addr (.index (.deref (.addr (.field .recv "Gids"))) "i"))])])])])

/-- `func (v *Mapping) Xdr` in /repo/rfc1057/xdr.go -/
def xdr_Mapping : Stmts :=
  (stmts [.xdrU32 (.addr (.field .recv "Prog")),
      .xdrU32 (.addr (.field .recv "Vers")),
      .xdrU32 (.addr (.field .recv "Prot")),
      .xdrU32 (.addr (.field .recv "Port"))])

/-- `func (v *Pmaplist) Xdr` in /repo/rfc1057/xdr.go -/
def xdr_Pmaplist : Stmts :=
  (stmts [.ifEncoding (stmts [.defNotNil "opted" (.addr (.field .recv "P")),
      .xdrBool (.addr (.var "opted")),
      .ifVar "opted" (stmts [.callXdr "Pmaplistelem" (.deref (.addr (.field .recv "P")))])]),
      .ifDecoding (stmts [.varBool "opted",
      .xdrBool (.addr (.var "opted")),
      .ifVar "opted" (stmts [.assignNew (.addr (.field .recv "P")) (.named "Pmaplistelem"),
      .callXdr "Pmaplistelem" (.deref (.addr (.field .recv "P")))])])])

/-- `func (v *Pmaplistelem) Xdr` in /repo/rfc1057/xdr.go -/
def xdr_Pmaplistelem : Stmts :=
  (stmts [.callXdr "Mapping" (.addr (.field .recv "Map")),
      .callXdr "Pmaplist" (.addr (.field .recv "Next"))])

/-- `func (v *Call_args) Xdr` in /repo/rfc1057/xdr.go -/
def xdr_Call_args : Stmts :=
  (stmts [.xdrU32 (.addr (.field .recv "Prog")),
      .xdrU32 (.addr (.field .recv "Vers")),
      .xdrU32 (.addr (.field .recv "Proc")),
      .xdrVarArray none (.addr (.field .recv "Args"))])

/-- `func (v *Call_result) Xdr` in /repo/rfc1057/xdr.go -/
def xdr_Call_result : Stmts :=
  (stmts [.xdrU32 (.addr (.field .recv "Port")),
      .xdrVarArray none (.addr (.field .recv "Res"))])

/-- `func (v *Uint32) Xdr` in /repo/rfc1057/xdr.go -/
def xdr_Uint32 : Stmts :=
  (stmts [.xdrU32 .recv])

/-- `func (v *Xbool) Xdr` in /repo/rfc1057/xdr.go -/
def xdr_Xbool : Stmts :=
  (stmts [.xdrBool .recv])

/-- the Xdr methods of /repo/rfc1057/xdr.go -/
def goMethods : List (Ident × Stmts) :=
  [("Auth_flavor", xdr_Auth_flavor),
   ("Opaque_auth", xdr_Opaque_auth),
   ("Msg_type", xdr_Msg_type),
   ("Reply_stat", xdr_Reply_stat),
   ("Accept_stat", xdr_Accept_stat),
   ("Reject_stat", xdr_Reject_stat),
   ("Auth_stat", xdr_Auth_stat),
   ("Rpc_msg", xdr_Rpc_msg),
   ("Call_body", xdr_Call_body),
   ("Reply_body", xdr_Reply_body),
   ("Accepted_reply", xdr_Accepted_reply),
   ("Rejected_reply", xdr_Rejected_reply),
   ("Auth_unix", xdr_Auth_unix),
   ("Mapping", xdr_Mapping),
   ("Pmaplist", xdr_Pmaplist),
   ("Pmaplistelem", xdr_Pmaplistelem),
   ("Call_args", xdr_Call_args),
   ("Call_result", xdr_Call_result),
   ("Uint32", xdr_Uint32),
   ("Xbool", xdr_Xbool)]

/-- the handler interfaces, wrappers and registration tables of /repo/rfc1057/xdr.go -/
def goVers : List GoVers :=
  [⟨"PMAP_PROG_PMAP_VERS_handler", [⟨"PMAPPROC_NULL", none, none⟩,
    ⟨"PMAPPROC_SET", (some (.named "Mapping")), (some (.named "Xbool"))⟩,
    ⟨"PMAPPROC_UNSET", (some (.named "Mapping")), (some (.named "Xbool"))⟩,
    ⟨"PMAPPROC_GETPORT", (some (.named "Mapping")), (some (.named "Uint32"))⟩,
    ⟨"PMAPPROC_DUMP", none, (some (.named "Pmaplist"))⟩,
    ⟨"PMAPPROC_CALLIT", (some (.named "Call_args")), (some (.named "Call_result"))⟩],
   "PMAP_PROG_PMAP_VERS_handler_wrapper", "PMAP_PROG_PMAP_VERS_handler",
   [⟨"PMAP_PROG_PMAP_VERS_handler_wrapper", "PMAPPROC_NULL", [.varOutVoid, .callH "PMAPPROC_NULL" false false, .retOut]⟩,
    ⟨"PMAP_PROG_PMAP_VERS_handler_wrapper", "PMAPPROC_SET", [.varIn (.named "Mapping"), .inXdr, .setErr, .retIfErr, .varOut (.named "Xbool"), .callH "PMAPPROC_SET" true true, .retOut]⟩,
    ⟨"PMAP_PROG_PMAP_VERS_handler_wrapper", "PMAPPROC_UNSET", [.varIn (.named "Mapping"), .inXdr, .setErr, .retIfErr, .varOut (.named "Xbool"), .callH "PMAPPROC_UNSET" true true, .retOut]⟩,
    ⟨"PMAP_PROG_PMAP_VERS_handler_wrapper", "PMAPPROC_GETPORT", [.varIn (.named "Mapping"), .inXdr, .setErr, .retIfErr, .varOut (.named "Uint32"), .callH "PMAPPROC_GETPORT" true true, .retOut]⟩,
    ⟨"PMAP_PROG_PMAP_VERS_handler_wrapper", "PMAPPROC_DUMP", [.varOut (.named "Pmaplist"), .callH "PMAPPROC_DUMP" true false, .retOut]⟩,
    ⟨"PMAP_PROG_PMAP_VERS_handler_wrapper", "PMAPPROC_CALLIT", [.varIn (.named "Call_args"), .inXdr, .setErr, .retIfErr, .varOut (.named "Call_result"), .callH "PMAPPROC_CALLIT" true true, .retOut]⟩],
   "PMAP_PROG_PMAP_VERS_regs", "PMAP_PROG_PMAP_VERS_handler", "PMAP_PROG_PMAP_VERS_handler_wrapper",
   [⟨"PMAP_PROG", "PMAP_VERS", "PMAPPROC_NULL", "PMAPPROC_NULL"⟩,
    ⟨"PMAP_PROG", "PMAP_VERS", "PMAPPROC_SET", "PMAPPROC_SET"⟩,
    ⟨"PMAP_PROG", "PMAP_VERS", "PMAPPROC_UNSET", "PMAPPROC_UNSET"⟩,
    ⟨"PMAP_PROG", "PMAP_VERS", "PMAPPROC_GETPORT", "PMAPPROC_GETPORT"⟩,
    ⟨"PMAP_PROG", "PMAP_VERS", "PMAPPROC_DUMP", "PMAPPROC_DUMP"⟩,
    ⟨"PMAP_PROG", "PMAP_VERS", "PMAPPROC_CALLIT", "PMAPPROC_CALLIT"⟩]⟩]

end Verif.Inst.Rfc1057
