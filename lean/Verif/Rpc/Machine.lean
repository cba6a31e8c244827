/-
Model of the concurrent part of rfc1057/server.go: the read loops of any number of connections, the
goroutines they start, and the pool of request buffers they share.  A state and an action determine
the next state; an execution is a list of actions, so "for all executions" is "for all lists of
actions".

Memory: a buffer is the backing array of a request slice; all slices of /repo/rfc1057/server.go start
at the beginning of their array, so a slice is the array's number and a length, and `cap` is the size
of the array.

Fields marked *ghost* record what happened, no transition depends on them.

Simplifications:
* The actions of a handler on the handlers' shared state are atomic, and a request is decoded
  atomically (it touches only its own buffer).
* The bytes a connection delivers are fixed in advance, the times and sizes of the deliveries are not.
* A `Write` that fails may have written a part; after that nothing more is written to the connection.
* Handlers do not write to the request buffer, and keep no reference to it (for what happens if they
  do, see property C35).
* All connections exist from the start (a connection without actions is one that was not opened).
-/
import Verif.Rpc.Server
import Verif.Rpc.Stream

namespace Verif.Rpc
open Verif.Xdr

/-- A `[]byte` on buffer number `id`, from its start. -/
structure Slice where
  id : Nat
  len : Nat
  deriving DecidableEq, Repr

/-- Where the loop of `Run` is (server.go:75-95). -/
inductive Phase where
  /-- In `io.ReadFull(sc.rw, hdr[:])`, having read `got`. -/
  | header (got : List UInt8)
  /-- In `io.ReadFull(sc.rw, buf)`.  `got` is *ghost* except for its length: what was read. -/
  | body (buf : Slice) (got : List UInt8)
  /-- Returned. -/
  | stopped (e : RunErr)

/-- `serverConn` (server.go:38-41) with the state of its transport. -/
structure Conn where
  /-- Bytes the transport will still deliver. -/
  input : List UInt8
  phase : Phase
  /-- Bytes written. -/
  output : List UInt8
  /-- A `Write` has failed. -/
  broken : Bool

/-- The result of `handleReqErr` up to its `Write`. -/
abbrev Outcome := Except ServeErr (List UInt8)

/-- Where a request goroutine is (server.go:98-105). -/
inductive JobPhase (σ : Type) where
  /-- In `handleReqErr`, before the `Write`. -/
  | running (p : Proc (List UInt8) σ Outcome)
  /-- In `sc.rw.Write(wbuf)`, with `rest` still to be written. -/
  | writing (rest : List UInt8)
  /-- Before the deferred `putReqBuf(buf)`. -/
  | returning
  | done

/-- A goroutine started by `go sc.handleReq(buf)` (server.go:94). -/
structure Job (σ : Type) where
  conn : Nat
  buf : Slice
  phase : JobPhase σ
  /-- *ghost*: the bytes that were read for this request -/
  req : List UInt8
  /-- *ghost*: the result of `handleReqErr`, once known -/
  res : Option Outcome

/-- Buffers, the pool (server.go:14), connections, goroutines in the order they were started, and the
handlers' shared state. -/
structure Machine (σ : Type) where
  heap : Nat → List UInt8
  next : Nat
  pool : List Slice
  conns : Nat → Conn
  jobs : List (Job σ)
  st : σ

variable {σ : Type}

/-- Overwrite the bytes from `off` on. -/
def writeAt (b : List UInt8) (off : Nat) (d : List UInt8) : List UInt8 :=
  b.take off ++ d ++ b.drop (off + d.length)

/-- One entry of a function replaced. -/
def upd {α : Type} (f : Nat → α) (k : Nat) (a : α) : Nat → α := fun k' => if k' = k then a else f k'

/-- `getReqBuf` (server.go:16-26).  `sync.Pool.Get` may return any element of the pool or nil, as
`choice` says (an index out of range is nil too); a buffer that is too small is given up. -/
def getReqBuf (m : Machine σ) (choice : Option Nat) (buflen : Nat) : Machine σ × Slice :=
  match choice.bind (m.pool[·]?), choice with
  | some s, some i =>
    let m := { m with pool := m.pool.eraseIdx i }
    if buflen ≤ (m.heap s.id).length then (m, ⟨s.id, buflen⟩)
    else ({ m with heap := upd m.heap m.next (zeros buflen), next := m.next + 1 }, ⟨m.next, buflen⟩)
  | _, _ => ({ m with heap := upd m.heap m.next (zeros buflen), next := m.next + 1 }, ⟨m.next, buflen⟩)

/-- `putReqBuf` (server.go:28-30). -/
def putReqBuf (m : Machine σ) (s : Slice) : Machine σ := { m with pool := s :: m.pool }

/-- What may happen next. -/
inductive Act where
  /-- A `Read` on connection `k` returns `n` bytes. -/
  | read (k n : Nat)
  /-- A `Read` on connection `k` returns `io.EOF`. -/
  | eof (k : Nat)
  /-- The record mark of connection `k` is complete: the test and `getReqBuf` (server.go:82-88). -/
  | mark (k : Nat) (choice : Option Nat)
  /-- The body is complete: `go sc.handleReq(buf)` (server.go:94). -/
  | spawn (k : Nat)
  /-- Goroutine `j` takes its next action in `handleReqErr`. -/
  | act (j : Nat)
  /-- Goroutine `j` has reached the `Write`, or returned an error without one. -/
  | ret (j : Nat)
  /-- The transport accepts `n` bytes of the `Write` of goroutine `j`. -/
  | write (j n : Nat)
  /-- The `Write` fails after `n` more bytes. -/
  | fail (j n : Nat)
  /-- Goroutine `j` runs the deferred `putReqBuf(buf)` (server.go:99). -/
  | put (j : Nat)
  /-- The pool gives up an element, as `sync.Pool` may at any time. -/
  | drop (i : Nat)

def Machine.setConn (m : Machine σ) (k : Nat) (c : Conn) : Machine σ := { m with conns := upd m.conns k c }

def Machine.setJob (m : Machine σ) (j : Nat) (J : Job σ) : Machine σ := { m with jobs := m.jobs.set j J }

/-- `Read` stores `d` in a buffer from `off` on. -/
def Machine.fill (m : Machine σ) (b : Slice) (off : Nat) (d : List UInt8) : Machine σ :=
  { m with heap := upd m.heap b.id (writeAt (m.heap b.id) off d) }

/-- The error of `io.ReadFull` at the end of the data, when `got` was read. -/
def fullErr (got : List UInt8) : RunErr := .read (if got.isEmpty then .eof else .unexpectedEOF)

/-- The state after an action, if the action is possible.  `hs k` is the handler table of the server
of connection `k`.  If `whole`, the transport takes each `Write` as a unit, as a `net.Conn` does. -/
def step (hs : Nat → Handlers σ) (whole : Bool) (m : Machine σ) : Act → Option (Machine σ)
  | .read k n =>
    let c := m.conns k
    match c.phase with
    | .header got =>
      if 1 ≤ n ∧ n ≤ 4 - got.length ∧ n ≤ c.input.length then
        some (m.setConn k { c with phase := .header (got ++ c.input.take n), input := c.input.drop n })
      else none
    | .body b got =>
      if 1 ≤ n ∧ n ≤ b.len - got.length ∧ n ≤ c.input.length then
        some ((m.fill b got.length (c.input.take n)).setConn k
          { c with phase := .body b (got ++ c.input.take n), input := c.input.drop n })
      else none
    | .stopped _ => none
  | .eof k =>
    let c := m.conns k
    match c.phase with
    | .header got =>
      if got.length < 4 ∧ c.input = [] then some (m.setConn k { c with phase := .stopped (fullErr got) })
      else none
    | .body b got =>
      if got.length < b.len ∧ c.input = [] then some (m.setConn k { c with phase := .stopped (fullErr got) })
      else none
    | .stopped _ => none
  | .mark k choice =>
    let c := m.conns k
    match c.phase with
    | .header got =>
      if got.length = 4 then
        let hlen := getU32 got
        if hlen &&& ((1 : UInt32) <<< 31) = 0 then some (m.setConn k { c with phase := .stopped .fragment })
        else
          let (m, b) := getReqBuf m choice (hlen &&& 0x7fffffff).toNat
          some (m.setConn k { c with phase := .body b [] })
      else none
    | _ => none
  | .spawn k =>
    let c := m.conns k
    match c.phase with
    | .body b got =>
      if got.length = b.len then
        some ({ m with jobs := m.jobs ++
            [{ conn := k, buf := b, phase := .running (handleReqErr (hs k)), req := got, res := none }] : Machine σ }.setConn k
          { c with phase := .header [] })
      else none
    | _ => none
  | .act j =>
    match m.jobs[j]? with
    | some J =>
      match J.phase with
      | .running (.act u n) =>
        let live := (m.heap J.buf.id).take J.buf.len
        some ({ m with st := u live m.st : Machine σ }.setJob j { J with phase := .running (n live m.st) })
      | _ => none
    | none => none
  | .ret j =>
    match m.jobs[j]? with
    | some J =>
      match J.phase with
      | .running (.ret (.ok w)) => some (m.setJob j { J with phase := .writing w, res := some (.ok w) })
      | .running (.ret (.error e)) => some (m.setJob j { J with phase := .returning, res := some (.error e) })
      | _ => none
    | none => none
  | .write j n =>
    match m.jobs[j]? with
    | some J =>
      match J.phase with
      | .writing rest =>
        let c := m.conns J.conn
        if c.broken = false ∧ n ≤ rest.length ∧ (whole = true → n = rest.length) then
          some ((m.setConn J.conn { c with output := c.output ++ rest.take n }).setJob j
            { J with phase := if n = rest.length then .returning else .writing (rest.drop n) })
        else none
      | _ => none
    | none => none
  | .fail j n =>
    match m.jobs[j]? with
    | some J =>
      match J.phase with
      | .writing rest =>
        let c := m.conns J.conn
        if n ≤ rest.length ∧ (c.broken = true → n = 0) then
          some ((m.setConn J.conn { c with output := c.output ++ rest.take n, broken := true }).setJob j
            { J with phase := .returning })
        else none
      | _ => none
    | none => none
  | .put j =>
    match m.jobs[j]? with
    | some J =>
      match J.phase with
      | .returning => some ((putReqBuf m J.buf).setJob j { J with phase := .done })
      | _ => none
    | none => none
  | .drop i => some { m with pool := m.pool.eraseIdx i }

/-- An execution. -/
def exec (hs : Nat → Handlers σ) (whole : Bool) : Machine σ → List Act → Option (Machine σ)
  | m, [] => some m
  | m, a :: as => (step hs whole m a).bind (exec hs whole · as)

/-- The start: connection `k` will deliver `inp k`, no buffers, no goroutines. -/
def start (inp : Nat → List UInt8) (s : σ) : Machine σ :=
  { heap := fun _ => [], next := 0, pool := [],
    conns := fun k => ⟨inp k, .header [], [], false⟩, jobs := [], st := s }

end Verif.Rpc
