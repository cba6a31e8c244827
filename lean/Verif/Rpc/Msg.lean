/-
The RPC message types of rfc1057/types.go as Lean structures, with their `Xdr` methods
(rfc1057/xdr.go).  `Verif.Rpc.MsgLink` proves that these functions are what the generated methods do.

Enumerations are `uint32` (types.go:3-43).
-/
import Verif.Xdr.Lib

namespace Verif.Rpc
open Verif.Xdr

/-- `type Opaque_auth struct` (types.go:10-13). -/
structure OpaqueAuth where
  flavor : UInt32
  body : GoBytes
  deriving DecidableEq, Repr

/-- `func (v *Opaque_auth) Xdr` (xdr.go:8-11). -/
def OpaqueAuth.xdr (xs : XdrState) (v : OpaqueAuth) : XdrState × OpaqueAuth :=
  let (xs, flavor) := xdrU32 xs v.flavor
  let (xs, body) := xdrVarArray xs 400 v.body
  (xs, { flavor, body })

/-- `type Call_body struct` (types.go:53-60). -/
structure CallBody where
  rpcvers : UInt32
  prog : UInt32
  vers : UInt32
  proc : UInt32
  cred : OpaqueAuth
  verf : OpaqueAuth
  deriving DecidableEq, Repr

/-- `func (v *Call_body) Xdr` (xdr.go:37-44). -/
def CallBody.xdr (xs : XdrState) (v : CallBody) : XdrState × CallBody :=
  let (xs, rpcvers) := xdrU32 xs v.rpcvers
  let (xs, prog) := xdrU32 xs v.prog
  let (xs, vers) := xdrU32 xs v.vers
  let (xs, proc) := xdrU32 xs v.proc
  let (xs, cred) := v.cred.xdr xs
  let (xs, verf) := v.verf.xdr xs
  (xs, { rpcvers, prog, vers, proc, cred, verf })

/-- `Mismatch_info struct { Low, High uint32 }` (types.go:71-74, 79-82). -/
structure Mismatch where
  low : UInt32
  high : UInt32
  deriving DecidableEq, Repr

def Mismatch.xdr (xs : XdrState) (v : Mismatch) : XdrState × Mismatch :=
  let (xs, low) := xdrU32 xs v.low
  let (xs, high) := xdrU32 xs v.high
  (xs, { low, high })

/-- `type Accepted_reply struct` (types.go:66-76).  The field `Results` is a `[0]byte`. -/
structure AcceptedReply where
  verf : OpaqueAuth
  stat : UInt32
  mismatch : Mismatch
  deriving DecidableEq, Repr

/-- `func (v *Accepted_reply) Xdr` (xdr.go:54-65). -/
def AcceptedReply.xdr (xs : XdrState) (v : AcceptedReply) : XdrState × AcceptedReply :=
  let (xs, verf) := v.verf.xdr xs
  let (xs, stat) := xdrU32 xs v.stat
  if stat = 0 then        -- case SUCCESS
    let (xs, _) := xdrArray xs []
    (xs, { verf, stat, mismatch := v.mismatch })
  else if stat = 2 then   -- case PROG_MISMATCH
    let (xs, mismatch) := v.mismatch.xdr xs
    (xs, { verf, stat, mismatch })
  else (xs, { verf, stat, mismatch := v.mismatch })

/-- `type Rejected_reply struct` (types.go:77-84). -/
structure RejectedReply where
  stat : UInt32
  mismatch : Mismatch
  astat : UInt32
  deriving DecidableEq, Repr

/-- `func (v *Rejected_reply) Xdr` (xdr.go:66-75). -/
def RejectedReply.xdr (xs : XdrState) (v : RejectedReply) : XdrState × RejectedReply :=
  let (xs, stat) := xdrU32 xs v.stat
  if stat = 0 then        -- case RPC_MISMATCH
    let (xs, mismatch) := v.mismatch.xdr xs
    (xs, { stat, mismatch, astat := v.astat })
  else if stat = 1 then   -- case AUTH_ERROR
    let (xs, astat) := xdrU32 xs v.astat
    (xs, { stat, mismatch := v.mismatch, astat })
  else (xs, { stat, mismatch := v.mismatch, astat := v.astat })

/-- `type Reply_body struct` (types.go:61-65). -/
structure ReplyBody where
  stat : UInt32
  areply : AcceptedReply
  rreply : RejectedReply
  deriving DecidableEq, Repr

/-- `func (v *Reply_body) Xdr` (xdr.go:45-53). -/
def ReplyBody.xdr (xs : XdrState) (v : ReplyBody) : XdrState × ReplyBody :=
  let (xs, stat) := xdrU32 xs v.stat
  if stat = 0 then        -- case MSG_ACCEPTED
    let (xs, areply) := v.areply.xdr xs
    (xs, { stat, areply, rreply := v.rreply })
  else if stat = 1 then   -- case MSG_DENIED
    let (xs, rreply) := v.rreply.xdr xs
    (xs, { stat, areply := v.areply, rreply })
  else (xs, { stat, areply := v.areply, rreply := v.rreply })

/-- `type Rpc_msg struct` (types.go:45-52), with the fields of `Body` inlined. -/
structure RpcMsg where
  xid : UInt32
  mtype : UInt32
  cbody : CallBody
  rbody : ReplyBody
  deriving DecidableEq, Repr

/-- `func (v *Rpc_msg) Xdr` (xdr.go:27-36). -/
def RpcMsg.xdr (xs : XdrState) (v : RpcMsg) : XdrState × RpcMsg :=
  let (xs, xid) := xdrU32 xs v.xid
  let (xs, mtype) := xdrU32 xs v.mtype
  if mtype = 0 then       -- case CALL
    let (xs, cbody) := v.cbody.xdr xs
    (xs, { xid, mtype, cbody, rbody := v.rbody })
  else if mtype = 1 then  -- case REPLY
    let (xs, rbody) := v.rbody.xdr xs
    (xs, { xid, mtype, cbody := v.cbody, rbody })
  else (xs, { xid, mtype, cbody := v.cbody, rbody := v.rbody })

/-- Zero values (`var req Rpc_msg`). -/
def OpaqueAuth.zero : OpaqueAuth := ⟨0, none⟩
def CallBody.zero : CallBody := ⟨0, 0, 0, 0, .zero, .zero⟩
def Mismatch.zero : Mismatch := ⟨0, 0⟩
def AcceptedReply.zero : AcceptedReply := ⟨.zero, 0, .zero⟩
def RejectedReply.zero : RejectedReply := ⟨0, .zero, 0⟩
def ReplyBody.zero : ReplyBody := ⟨0, .zero, .zero⟩
def RpcMsg.zero : RpcMsg := ⟨0, 0, .zero, .zero⟩

end Verif.Rpc
