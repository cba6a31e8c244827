/-
Model of rfc1057/server.go: handler table, request processing, reply construction.  The read loop is
in `Verif.Rpc.Stream`, goroutines and the buffer pool in `Verif.Rpc.Machine`.

Not modelled: registering a nil function, handlers that panic or do not return, the text of error
messages.
-/
import Verif.Rpc.Msg
import Verif.Rpc.Proc

namespace Verif.Rpc
open Verif.Xdr

/-- `xdr.Xdrable` (xdr/types.go:3-5) as used for results and arguments: calling its `Xdr` method.
The object's own value is part of the function. -/
abbrev Xdrable := XdrState → XdrState

/-- `type ProcHandler func(args *xdr.XdrState) (res xdr.Xdrable, err error)` (server.go:32).
The handler sees the argument reader; a nil `res` is `none`; of `err` only its presence matters. -/
abbrev ProcHandler (σ : Type) := Proc XdrState σ (Option Xdrable × Bool)

/-- `map[uint32]map[uint32]map[uint32]ProcHandler` (server.go:35); a missing key is `none`. -/
abbrev Handlers (σ : Type) := UInt32 → Option (UInt32 → Option (UInt32 → Option (ProcHandler σ)))

/-- Assignment `m[k] = v` to a map. -/
def mapSet {α : Type} (m : UInt32 → Option α) (k : UInt32) (v : α) : UInt32 → Option α :=
  fun k' => if k' = k then some v else m k'

/-- `MakeServer` (server.go:43-47). -/
def makeServer {σ : Type} : Handlers σ := fun _ => none

/-- `Register` (server.go:49-61).  A missing inner map reads as a nil map, whose lookups miss. -/
def register {σ : Type} (hs : Handlers σ) (prog vers proc : UInt32) (h : ProcHandler σ) :
    Handlers σ :=
  let hs := if (hs prog).isNone then mapSet hs prog (fun _ => none) else hs
  let vermap := (hs prog).getD fun _ => none
  let vermap := if (vermap vers).isNone then mapSet vermap vers (fun _ => none) else vermap
  let procmap := (vermap vers).getD fun _ => none
  mapSet hs prog (mapSet vermap vers (mapSet procmap proc h))

/-- `xdr.ProcRegistration` (xdr/types.go:24-29). -/
structure ProcReg (σ : Type) where
  prog : UInt32
  vers : UInt32
  proc : UInt32
  handler : ProcHandler σ

/-- `RegisterMany` (server.go:63-67). -/
def registerMany {σ : Type} : Handlers σ → List (ProcReg σ) → Handlers σ
  | hs, [] => hs
  | hs, r :: rs => registerMany (register hs r.prog r.vers r.proc r.handler) rs

/-- The errors `handleReqErr` returns before it writes (server.go:113, 117, 158, 164). -/
inductive ServeErr where
  | xdr (e : XErr)
  | notCall (mtype : UInt32)
  deriving DecidableEq, Repr

/-- `binary.BigEndian.PutUint32(wbuf[0:4], (1<<31)|uint32(len(wbuf)-4))` (server.go:177-178). -/
def setRecordMark (wbuf : List UInt8) : List UInt8 :=
  putU32 (((1 : UInt32) <<< 31) ||| UInt32.ofNat (wbuf.length - 4)) ++ wbuf.drop 4

/-- From label `reply:` up to the `Write` (server.go:154-179); the result is the slice written. -/
def reply (res : RpcMsg) (resdata : Option Xdrable) : Except ServeErr (List UInt8) :=
  let wr := makeWriter (zeros 4)
  let (wr, _) := res.xdr wr
  match wr.err with
  | some e => .error (.xdr e)
  | none =>
    match resdata with
    | none => .ok (setRecordMark (writeBuf wr))
    | some d =>
      let wr := d wr
      match wr.err with
      | some e => .error (.xdr e)
      | none => .ok (setRecordMark (writeBuf wr))

/-- The reply message before the status is filled in: `res.Xid = req.Xid`,
`res.Body.Mtype = REPLY` (server.go:120-123). -/
def replyMsg (xid : UInt32) : RpcMsg := { RpcMsg.zero with xid := xid, mtype := 1 }

/-- `res.Body.Rbody.Stat = MSG_DENIED; res.Body.Rbody.Rreply.Stat = RPC_MISMATCH`
(server.go:126-127). -/
def deniedMsg (xid : UInt32) : RpcMsg :=
  { replyMsg xid with rbody := { ReplyBody.zero with stat := 1, rreply := { RejectedReply.zero with stat := 0 } } }

/-- `res.Body.Rbody.Stat = MSG_ACCEPTED; res.Body.Rbody.Areply.Reply_data.Stat = st`
(server.go:129-152). -/
def acceptedMsg (xid st : UInt32) : RpcMsg :=
  { replyMsg xid with rbody := { ReplyBody.zero with stat := 0, areply := { AcceptedReply.zero with stat := st } } }

/-- `handleReqErr` (server.go:107-182) up to the `Write`: the result is the slice it writes, or the
error it returns without writing.  The request is decoded in one action on the live buffer; the
handler reads the part of the live buffer behind the header. -/
def handleReqErr {σ : Type} (hs : Handlers σ) : Proc (List UInt8) σ (Except ServeErr (List UInt8)) :=
  .act (fun _ s => s) fun buf _ =>
    let (rd, req) := RpcMsg.zero.xdr (makeReader buf)
    match rd.err with
    | some e => .ret (.error (.xdr e))
    | none =>
      if req.mtype ≠ 0 then .ret (.error (.notCall req.mtype))
      else if req.cbody.rpcvers ≠ 2 then .ret (reply (deniedMsg req.xid) none)
      else match hs req.cbody.prog with
        | none => .ret (reply (acceptedMsg req.xid 1) none)                 -- PROG_UNAVAIL
        | some vermap =>
          match vermap req.cbody.vers with
          | none => .ret (reply (acceptedMsg req.xid 2) none)               -- PROG_MISMATCH
          | some procmap =>
            match procmap req.cbody.proc with
            | none => .ret (reply (acceptedMsg req.xid 3) none)             -- PROC_UNAVAIL
            | some h =>
              (h.comap fun live => { rd with buf := live.drop (buf.length - rd.buf.length) }).bind
                fun (resdata, err) =>
                  if err then .ret (reply (acceptedMsg req.xid 4) resdata)  -- GARBAGE_ARGS
                  else .ret (reply (acceptedMsg req.xid 0) resdata)         -- SUCCESS

end Verif.Rpc
