/-
Model of rfc1057/client.go when several goroutines call `Call` on one `*Client` at the same time.  The
client has no lock, so the loads and stores of `c.xid`, the `Write`s and the `Read`s of all calls
interleave.  A state and an action determine the next state; an execution is a list of actions.

Simplifications:
* Memory is sequentially consistent (Go promises less for programs with data races, so what goes wrong
  here goes wrong there too).
* Each `Write` is taken by the transport as a unit, as a `net.Conn` does; a `Read` returns between one
  byte and what is wanted of the bytes that have arrived.
* All calls exist from the start (a call without actions is one that was not made).
-/
import Verif.Rpc.Client

namespace Verif.Rpc
open Verif.Xdr

/-- Where a call is (client.go:27-108). -/
inductive CallPhase where
  /-- Before `c.xid++` (client.go:28). -/
  | start
  /-- `c.xid++` has read `x`. -/
  | loaded (x : UInt32)
  /-- `c.xid++` has written. -/
  | stored
  /-- `req.Xid = c.xid` (client.go:31) has read `xid`, `msg` is the argument of `Write`. -/
  | ready (xid : UInt32) (msg : List UInt8)
  /-- In `io.ReadFull(c.rw, hdr[:])` (client.go:61), having read `got`. -/
  | header (xid : UInt32) (got : List UInt8)
  /-- In `io.ReadFull(c.rw, buf)` (client.go:72), having read `got` of `n` bytes. -/
  | body (xid : UInt32) (n : Nat) (got : List UInt8)
  /-- Returned. -/
  | done (e : Option CallErr)

/-- One call: its parameters and how far it is. -/
structure Calling (τ : Type) where
  proc : UInt32
  cred : OpaqueAuth
  verf : OpaqueAuth
  args : Xdrable
  resp : Recv τ
  /-- the result variable -/
  r : τ
  phase : CallPhase
  /-- *ghost*: the transaction id, once known -/
  xid : Option UInt32
  /-- *ghost*: all bytes this call has read -/
  seen : List UInt8

/-- The client with its transport and the calls on it. -/
structure Shared (τ : Type) where
  client : Client
  calls : List (Calling τ)
  /-- the arguments of `Write`, in order -/
  written : List (List UInt8)
  /-- bytes that have arrived and were not read -/
  input : List UInt8

variable {τ : Type}

inductive CallAct where
  /-- `c.xid++` reads. -/
  | load (j : Nat)
  /-- `c.xid++` writes. -/
  | store (j : Nat)
  /-- `req.Xid = c.xid` and the encoding of the request (client.go:30-55). -/
  | fetch (j : Nat)
  /-- `c.rw.Write` (client.go:56). -/
  | write (j : Nat) (ok : Bool)
  /-- Bytes arrive from the peer. -/
  | arrive (d : List UInt8)
  /-- A `Read` of call `j` returns `n` bytes. -/
  | read (j n : Nat)
  /-- A `Read` of call `j` returns `io.EOF`. -/
  | eof (j : Nat)
  /-- The record mark is complete (client.go:66-71). -/
  | mark (j : Nat)
  /-- The reply is complete (client.go:77-107). -/
  | finish (j : Nat)

def Shared.setCall (m : Shared τ) (j : Nat) (J : Calling τ) : Shared τ := { m with calls := m.calls.set j J }

/-- The state after an action, if the action is possible. -/
def Shared.step (m : Shared τ) : CallAct → Option (Shared τ)
  | .load j =>
    match m.calls[j]? with
    | some J =>
      match J.phase with
      | .start => some (m.setCall j { J with phase := .loaded m.client.xid })
      | _ => none
    | none => none
  | .store j =>
    match m.calls[j]? with
    | some J =>
      match J.phase with
      | .loaded x => some ({ m with client := { m.client with xid := x + 1 } }.setCall j { J with phase := .stored })
      | _ => none
    | none => none
  | .fetch j =>
    match m.calls[j]? with
    | some J =>
      match J.phase with
      | .stored =>
        match callRequest m.client J.proc J.cred J.verf J.args with
        | .ok msg => some (m.setCall j { J with phase := .ready m.client.xid msg, xid := some m.client.xid })
        | .error e => some (m.setCall j { J with phase := .done (some e), xid := some m.client.xid })
      | _ => none
    | none => none
  | .write j ok =>
    match m.calls[j]? with
    | some J =>
      match J.phase with
      | .ready xid msg =>
        some (if ok then { m with written := m.written ++ [msg] }.setCall j { J with phase := .header xid [] }
          else m.setCall j { J with phase := .done (some .write) })
      | _ => none
    | none => none
  | .arrive d => some { m with input := m.input ++ d }
  | .read j n =>
    match m.calls[j]? with
    | some J =>
      match J.phase with
      | .header xid got =>
        if 1 ≤ n ∧ n ≤ 4 - got.length ∧ n ≤ m.input.length then
          some ({ m with input := m.input.drop n }.setCall j
            { J with phase := .header xid (got ++ m.input.take n), seen := J.seen ++ m.input.take n })
        else none
      | .body xid k got =>
        if 1 ≤ n ∧ n ≤ k - got.length ∧ n ≤ m.input.length then
          some ({ m with input := m.input.drop n }.setCall j
            { J with phase := .body xid k (got ++ m.input.take n), seen := J.seen ++ m.input.take n })
        else none
      | _ => none
    | none => none
  | .eof j =>
    match m.calls[j]? with
    | some J =>
      match J.phase with
      | .header _ got =>
        if got.length < 4 then
          some (m.setCall j { J with phase := .done (some (.read (if got.isEmpty then .eof else .unexpectedEOF))) })
        else none
      | .body _ k got =>
        if got.length < k then
          some (m.setCall j { J with phase := .done (some (.read (if got.isEmpty then .eof else .unexpectedEOF))) })
        else none
      | _ => none
    | none => none
  | .mark j =>
    match m.calls[j]? with
    | some J =>
      match J.phase with
      | .header xid got =>
        if got.length = 4 then
          let hlen := getU32 got
          if hlen &&& ((1 : UInt32) <<< 31) = 0 then some (m.setCall j { J with phase := .done (some .fragment) })
          else some (m.setCall j { J with phase := .body xid (hlen &&& 0x7fffffff).toNat [] })
        else none
      | _ => none
    | none => none
  | .finish j =>
    match m.calls[j]? with
    | some J =>
      match J.phase with
      | .body xid k got =>
        if got.length = k then
          let (e, r) := parseReply xid got J.resp J.r
          some (m.setCall j { J with phase := .done e, r := r })
        else none
      | _ => none
    | none => none

/-- An execution. -/
def Shared.exec : Shared τ → List CallAct → Option (Shared τ)
  | m, [] => some m
  | m, a :: as => (m.step a).bind (Shared.exec · as)

end Verif.Rpc
