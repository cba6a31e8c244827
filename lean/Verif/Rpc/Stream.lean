/-
Model of the read loop of `Server.Run` (rfc1057/server.go:69-96) over a transport that delivers its
bytes in arbitrary pieces.
-/
import Verif.Xdr.Lib

namespace Verif.Rpc
open Verif.Xdr

/-- What is still to be delivered by an `io.Reader`: each `Read` delivers from the first piece only
(an empty piece is a `Read` returning `0, nil`); after the last piece `Read` returns `io.EOF`. -/
abbrev Chunks := List (List UInt8)

/-- The errors of `io.ReadFull`: `io.EOF` if nothing was read, else `io.ErrUnexpectedEOF`. -/
inductive ReadErr where
  | eof
  | unexpectedEOF
  deriving DecidableEq, Repr

/-- `io.ReadFull` into a buffer that still misses `n` bytes and already holds `got` (Go standard
library, `io.ReadAtLeast`: `for n < min && err == nil { nn, err = r.Read(buf[n:]) }`). -/
def readFullFrom (got : List UInt8) : Nat → Chunks → Except ReadErr (List UInt8) × Chunks
  | 0, cs => (.ok got, cs)
  | _ + 1, [] => (.error (if got.isEmpty then .eof else .unexpectedEOF), [])
  | n + 1, c :: cs =>
    if c.length ≤ n + 1 then readFullFrom (got ++ c) (n + 1 - c.length) cs
    else (.ok (got ++ c.take (n + 1)), c.drop (n + 1) :: cs)

/-- `io.ReadFull(r, buf)` with `len(buf) = n`. -/
def readFull (n : Nat) (cs : Chunks) : Except ReadErr (List UInt8) × Chunks := readFullFrom [] n cs

/-- The errors `Run` returns. -/
inductive RunErr where
  | read (e : ReadErr)
  | fragment
  deriving DecidableEq, Repr

/-- One iteration of the loop of `Run` (server.go:75-94): the request handed to a new goroutine, or
the error returned. -/
def readRequest (cs : Chunks) : Except RunErr (List UInt8) × Chunks :=
  match readFull 4 cs with
  | (.error e, cs) => (.error (.read e), cs)
  | (.ok hdr, cs) =>
    let hlen := getU32 hdr
    if hlen &&& ((1 : UInt32) <<< 31) = 0 then (.error .fragment, cs)
    else
      match readFull (hlen &&& 0x7fffffff).toNat cs with
      | (.error e, cs) => (.error (.read e), cs)
      | (.ok buf, cs) => (.ok buf, cs)

/-- The number of bytes still to be delivered. -/
def Chunks.total (cs : Chunks) : Nat := (cs.map List.length).sum

/-- `n` iterations of the loop at most. -/
def runN : Nat → Chunks → List (List UInt8) × Option RunErr
  | 0, _ => ([], none)
  | n + 1, cs =>
    match readRequest cs with
    | (.error e, _) => ([], some e)
    | (.ok req, cs) =>
      let (reqs, e) := runN n cs
      (req :: reqs, e)

/-- `Run` (server.go:69-96): the requests it starts goroutines for, in order, and the error it
returns.  Every iteration consumes at least four bytes, so the bound is never reached
(C31_records). -/
def run (cs : Chunks) : List (List UInt8) × Option RunErr := runN (cs.total + 1) cs

end Verif.Rpc
