/-
Model of rfc1057/client.go.  One goroutine uses the client at a time (the client has no lock).
-/
import Verif.Rpc.Server
import Verif.Rpc.Stream

namespace Verif.Rpc
open Verif.Xdr

/-- `type Client struct` (client.go:11-16) without the transport. -/
structure Client where
  xid : UInt32
  prog : UInt32
  vers : UInt32
  deriving DecidableEq, Repr

/-- `MakeClient` (client.go:18-25). -/
def makeClient (prog vers : UInt32) : Client := ⟨0, prog, vers⟩

/-- The errors of `Call`. -/
inductive CallErr where
  | xdr (e : XErr)
  | write
  | read (e : ReadErr)
  | fragment
  | xidMismatch (got want : UInt32)
  | notReply (mtype : UInt32)
  | denied (stat : UInt32)
  | acceptStat (stat : UInt32)
  deriving DecidableEq, Repr

/-- The result receiver: its `Xdr` method may change its value of type `τ`. -/
abbrev Recv (τ : Type) := XdrState → τ → XdrState × τ

/-- The request message (client.go:30-38). -/
def callMsg (c : Client) (proc : UInt32) (cred verf : OpaqueAuth) : RpcMsg :=
  { RpcMsg.zero with xid := c.xid, mtype := 0, cbody := ⟨2, c.prog, c.vers, proc, cred, verf⟩ }

/-- Encoding the request (client.go:30-54): the bytes handed to `Write`. -/
def callRequest (c : Client) (proc : UInt32) (cred verf : OpaqueAuth) (args : Xdrable) :
    Except CallErr (List UInt8) :=
  let wr := makeWriter []
  let (wr, _) := (callMsg c proc cred verf).xdr wr
  match wr.err with
  | some e => .error (.xdr e)
  | none =>
    let wr := args wr
    match wr.err with
    | some e => .error (.xdr e)
    | none =>
      let wbuf := writeBuf wr
      .ok (putU32 (((1 : UInt32) <<< 31) ||| UInt32.ofNat wbuf.length) ++ wbuf)

/-- Reading the reply record (client.go:59-74). -/
def readReply (cs : Chunks) : Except CallErr (List UInt8) × Chunks :=
  match readFull 4 cs with
  | (.error e, cs) => (.error (.read e), cs)
  | (.ok hdr, cs) =>
    let hlen := getU32 hdr
    if hlen &&& ((1 : UInt32) <<< 31) = 0 then (.error .fragment, cs)
    else
      match readFull (hlen &&& 0x7fffffff).toNat cs with
      | (.error e, cs) => (.error (.read e), cs)
      | (.ok buf, cs) => (.ok buf, cs)

/-- Interpreting the reply (client.go:76-107). -/
def parseReply {τ : Type} (xid : UInt32) (buf : List UInt8) (resp : Recv τ) (r : τ) :
    Option CallErr × τ :=
  let (rd, res) := RpcMsg.zero.xdr (makeReader buf)
  match rd.err with
  | some e => (some (.xdr e), r)
  | none =>
    if res.xid ≠ xid then (some (.xidMismatch res.xid xid), r)
    else if res.mtype ≠ 1 then (some (.notReply res.mtype), r)
    else if res.rbody.stat ≠ 0 then (some (.denied res.rbody.rreply.stat), r)
    else if res.rbody.areply.stat ≠ 0 then (some (.acceptStat res.rbody.areply.stat), r)
    else
      let (rd, r) := resp rd r
      match rd.err with
      | some e => (some (.xdr e), r)
      | none => (none, r)

/-- Everything a call leaves behind. -/
structure CallResult (τ : Type) where
  client : Client
  /-- the argument of `Write`, if it was called -/
  sent : Option (List UInt8)
  /-- the error returned -/
  err : Option CallErr
  /-- the result variable -/
  resp : τ
  /-- the input not consumed -/
  input : Chunks

/-- `Call` (client.go:27-108).  `writeOk` says whether `Write` succeeds; `input` is what the
transport will deliver after the write. -/
def Client.call {τ : Type} (c : Client) (proc : UInt32) (cred verf : OpaqueAuth) (args : Xdrable)
    (resp : Recv τ) (r : τ) (writeOk : Bool) (input : Chunks) : CallResult τ :=
  let c := { c with xid := c.xid + 1 }
  match callRequest c proc cred verf args with
  | .error e => ⟨c, none, some e, r, input⟩
  | .ok msg =>
    if writeOk then
      match readReply input with
      | (.error e, input) => ⟨c, some msg, some e, r, input⟩
      | (.ok buf, input) =>
        let (e, r) := parseReply c.xid buf resp r
        ⟨c, some msg, e, r, input⟩
    else ⟨c, some msg, some .write, r, input⟩

end Verif.Rpc
