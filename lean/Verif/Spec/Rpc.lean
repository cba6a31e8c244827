/-
SPECIFICATION (not a model of code): the message formats of RFC 1057 §8 (call and reply messages) and
the record marking of §10, as byte strings.  Written without reference to the model.
-/
import Verif.Spec.Bytes

namespace Verif.Spec

/-- RFC 1057 §8.2: `struct opaque_auth { auth_flavor flavor; opaque body<400>; }`. -/
structure Auth where
  flavor : UInt32
  body : List UInt8
  deriving DecidableEq, Repr

/-- `w` is an encoding of `a`; a receiver does not look at the content of the padding. -/
def IsAuth (a : Auth) (w : List UInt8) : Prop :=
  a.body.length ≤ 400 ∧ ∃ q, q.length = pad a.body.length ∧
    w = be 4 a.flavor.toNat ++ be 4 a.body.length ++ a.body ++ q

/-- The encoding a sender produces: zero padding. -/
def authBytes (a : Auth) : List UInt8 := be 4 a.flavor.toNat ++ opaqueVar a.body

/-- `AUTH_NULL` with an empty body. -/
def Auth.null : Auth := ⟨0, []⟩

/-- The header of a call message (RFC 1057 §8: `call_body`). -/
structure Call where
  xid : UInt32
  rpcvers : UInt32
  prog : UInt32
  vers : UInt32
  proc : UInt32
  cred : Auth
  verf : Auth
  deriving DecidableEq, Repr

/-- `b` is the message with call header `c` and procedure parameters `args`. -/
def IsCall (c : Call) (args b : List UInt8) : Prop :=
  ∃ wc wv, IsAuth c.cred wc ∧ IsAuth c.verf wv ∧
    b = be 4 c.xid.toNat ++ be 4 0 ++ be 4 c.rpcvers.toNat ++ be 4 c.prog.toNat ++
      be 4 c.vers.toNat ++ be 4 c.proc.toNat ++ wc ++ wv ++ args

/-- The call message a sender produces. -/
def callBytes (c : Call) (args : List UInt8) : List UInt8 :=
  be 4 c.xid.toNat ++ be 4 0 ++ be 4 c.rpcvers.toNat ++ be 4 c.prog.toNat ++
    be 4 c.vers.toNat ++ be 4 c.proc.toNat ++ authBytes c.cred ++ authBytes c.verf ++ args

/-- What became of an accepted call (RFC 1057 §8: `accept_stat` and the union over it). -/
inductive Accept where
  | success (results : List UInt8)
  | progUnavail
  | progMismatch (low high : UInt32)
  | procUnavail
  | garbageArgs
  deriving DecidableEq, Repr

/-- The discriminant and arm of `reply_data`. -/
def Accept.bytes : Accept → List UInt8
  | .success r => be 4 0 ++ r
  | .progUnavail => be 4 1
  | .progMismatch low high => be 4 2 ++ be 4 low.toNat ++ be 4 high.toNat
  | .procUnavail => be 4 3
  | .garbageArgs => be 4 4

/-- A reply (RFC 1057 §8: `reply_body`). -/
inductive Reply where
  | accepted (verf : Auth) (a : Accept)
  | rpcMismatch (low high : UInt32)
  | authError (why : UInt32)
  deriving DecidableEq, Repr

/-- `b` is the reply message for transaction `xid` saying `r`. -/
def IsReply (xid : UInt32) : Reply → List UInt8 → Prop
  | .accepted verf a, b => ∃ wv, IsAuth verf wv ∧
      b = be 4 xid.toNat ++ be 4 1 ++ be 4 0 ++ wv ++ a.bytes
  | .rpcMismatch low high, b =>
      b = be 4 xid.toNat ++ be 4 1 ++ be 4 1 ++ be 4 0 ++ be 4 low.toNat ++ be 4 high.toNat
  | .authError why, b =>
      b = be 4 xid.toNat ++ be 4 1 ++ be 4 1 ++ be 4 1 ++ be 4 why.toNat

/-- RFC 1057 §10: a message sent as one record of one (last) fragment. -/
def IsRecord (msg b : List UInt8) : Prop :=
  msg.length < 2 ^ 31 ∧ b = be 4 (2 ^ 31 + msg.length) ++ msg

/-- How a byte stream ends after its complete one-fragment records. -/
inductive StreamEnd where
  /-- after a complete record -/
  | clean
  /-- inside a record mark or a record -/
  | truncated
  /-- a fragment that is not the last of its record begins here -/
  | fragment
  deriving DecidableEq, Repr

/-- `Stream b ms e`: the byte stream `b` consists of the one-fragment records `ms`, then `e`. -/
inductive Stream : List UInt8 → List (List UInt8) → StreamEnd → Prop
  | clean : Stream [] [] .clean
  | short (b : List UInt8) : 0 < b.length → b.length < 4 → Stream b [] .truncated
  | fragment (n : Nat) (rest : List UInt8) : n < 2 ^ 31 → Stream (be 4 n ++ rest) [] .fragment
  | shortBody (n : Nat) (part : List UInt8) : n < 2 ^ 31 → part.length < n →
      Stream (be 4 (2 ^ 31 + n) ++ part) [] .truncated
  | record (m r rest : List UInt8) (ms : List (List UInt8)) (e : StreamEnd) :
      IsRecord m r → Stream rest ms e → Stream (r ++ rest) (m :: ms) e

end Verif.Spec
