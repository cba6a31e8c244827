/-
Model of `xdr/lib.go` and `xdr/helper.go`: the run-time library every generated codec calls.

Conventions.  A Go function that mutates its `*XdrState` and a pointee returns the new state and
the new pointee.  A `[]byte` is `Option (List UInt8)`: `none` is the nil slice.  A Go `string` is
its byte list.  Go `int` is 64 bits on every platform this library compiles for (the comparison
`len(*v) > math.MaxUint32` does not compile with a 32-bit `int`), so lengths are modelled as
unbounded naturals and `maxlen` as an integer.  Slice aliasing is not visible here; it is modelled
in `Verif.Rpc.Slices`.
-/
namespace Verif.Xdr

/-- The errors of `xdr/lib.go`: `fmt.Errorf("Not enough bytes: wanted %d, got/have %d")`
(lib.go:84, lib.go:93) and `errors.New(s)` through `SetError` (lib.go:66-68). -/
inductive XErr where
  | notEnough (wanted have' : Nat)
  | msg (s : String)
  deriving DecidableEq, Repr

/-- `type XdrState struct` (lib.go:10-19). -/
structure XdrState where
  err : Option XErr
  reader : Bool
  buf : List UInt8
  deriving DecidableEq, Repr

/-- A Go `[]byte`; `none` is nil. -/
abbrev GoBytes := Option (List UInt8)

/-- Go `len` of a `[]byte`. -/
def goLen (b : GoBytes) : Nat := (b.getD []).length

/-- The elements of a `[]byte` (those of nil are none). -/
def goElems (b : GoBytes) : List UInt8 := b.getD []

/-- `math.MaxUint32`. -/
def maxUint32 : Nat := 4294967295

/-- `binary.BigEndian.PutUint32` into a 4-byte buffer (Go standard library). -/
def putU32 (x : UInt32) : List UInt8 :=
  [(x >>> 24).toUInt8, (x >>> 16).toUInt8, (x >>> 8).toUInt8, x.toUInt8]

/-- `binary.BigEndian.Uint32` of a 4-byte buffer (Go standard library).  Only ever applied to
4-byte buffers; the last case is unreachable. -/
def getU32 : List UInt8 → UInt32
  | [a, b, c, d] =>
    d.toUInt32 ||| (c.toUInt32 <<< 8) ||| (b.toUInt32 <<< 16) ||| (a.toUInt32 <<< 24)
  | _ => 0

/-- `binary.BigEndian.PutUint64` into an 8-byte buffer (Go standard library). -/
def putU64 (x : UInt64) : List UInt8 :=
  [(x >>> 56).toUInt8, (x >>> 48).toUInt8, (x >>> 40).toUInt8, (x >>> 32).toUInt8,
   (x >>> 24).toUInt8, (x >>> 16).toUInt8, (x >>> 8).toUInt8, x.toUInt8]

/-- `binary.BigEndian.Uint64` of an 8-byte buffer (Go standard library).  Only ever applied to
8-byte buffers; the last case is unreachable. -/
def getU64 : List UInt8 → UInt64
  | [a, b, c, d, e, f, g, h] =>
    h.toUInt64 ||| (g.toUInt64 <<< 8) ||| (f.toUInt64 <<< 16) ||| (e.toUInt64 <<< 24) |||
    (d.toUInt64 <<< 32) ||| (c.toUInt64 <<< 40) ||| (b.toUInt64 <<< 48) ||| (a.toUInt64 <<< 56)
  | _ => 0

/-- A zeroed Go byte array of `n` bytes (`var buf [n]byte`, `make([]byte, n)`). -/
def zeros (n : Nat) : List UInt8 := List.replicate n 0

/-- `MakeReader` (lib.go:21-27). -/
def makeReader (buf : List UInt8) : XdrState := { err := none, reader := true, buf := buf }

/-- `MakeWriter` (lib.go:29-35). -/
def makeWriter (buf : List UInt8) : XdrState := { err := none, reader := false, buf := buf }

/-- `WriteBuf` (lib.go:37-39). -/
def writeBuf (xs : XdrState) : List UInt8 := xs.buf

/-- `SetError` (lib.go:66-68). -/
def setError (xs : XdrState) (s : String) : XdrState := { xs with err := some (.msg s) }

/-- `Encoding` (lib.go:58-60). -/
def encoding (xs : XdrState) : Bool := xs.err.isNone && xs.reader == false

/-- `Decoding` (lib.go:62-64). -/
def decoding (xs : XdrState) : Bool := xs.err.isNone && xs.reader == true

/-- `Error` (lib.go:70-72). -/
def error (xs : XdrState) : Option XErr := xs.err

/-- `EncodingSetSize` (lib.go:41-56); the second component is the new `*arraysz`. -/
def encodingSetSize (xs : XdrState) (arraysz : UInt32) (len : Nat) : XdrState × UInt32 :=
  if xs.err.isSome then (xs, arraysz)
  else if xs.reader then (xs, arraysz)
  else if len > maxUint32 then (setError xs "length too large", arraysz)
  else (xs, UInt32.ofNat len)

/-- `xdrRW` (lib.go:74-89).  Reading: `n := copy(v, xs.buf)` overwrites the first `n` bytes of
`v`, where `n` is the smaller length. -/
def xdrRW (xs : XdrState) (v : List UInt8) : XdrState × List UInt8 :=
  if xs.err.isSome then (xs, v)
  else if xs.reader then
    let n := min v.length xs.buf.length
    let v' := xs.buf.take n ++ v.drop n
    let xs' := { xs with buf := xs.buf.drop n }
    if n < v.length then ({ xs' with err := some (.notEnough v.length n) }, v')
    else (xs', v')
  else ({ xs with buf := xs.buf ++ v }, v)

/-- `xdrR` (lib.go:91-103): the next `n` bytes, not copied; nil on error.  Note that the
availability check comes first and overwrites an earlier error. -/
def xdrR (xs : XdrState) (n : Nat) : XdrState × GoBytes :=
  let xs := if xs.buf.length < n then { xs with err := some (.notEnough n xs.buf.length) } else xs
  if xs.err.isSome then (xs, none)
  else ({ xs with buf := xs.buf.drop n }, some (xs.buf.take n))

/-- `XdrBool` (lib.go:105-129). -/
def xdrBool (xs : XdrState) (v : Bool) : XdrState × Bool :=
  if xs.err.isSome then (xs, v)
  else
    let buf := if encoding xs then (if v then putU32 1 else putU32 0) else zeros 4
    let (xs, buf) := xdrRW xs buf
    if decoding xs then (xs, if getU32 buf == 0 then false else true) else (xs, v)

/-- `XdrS32` (lib.go:131-144); `uint32(*v)` and `int32(...)` keep the bits. -/
def xdrS32 (xs : XdrState) (v : Int32) : XdrState × Int32 :=
  if xs.err.isSome then (xs, v)
  else
    let buf := if encoding xs then putU32 v.toUInt32 else zeros 4
    let (xs, buf) := xdrRW xs buf
    if decoding xs then (xs, (getU32 buf).toInt32) else (xs, v)

/-- `XdrU32` (lib.go:146-159). -/
def xdrU32 (xs : XdrState) (v : UInt32) : XdrState × UInt32 :=
  if xs.err.isSome then (xs, v)
  else
    let buf := if encoding xs then putU32 v else zeros 4
    let (xs, buf) := xdrRW xs buf
    if decoding xs then (xs, getU32 buf) else (xs, v)

/-- `XdrS64` (lib.go:161-174). -/
def xdrS64 (xs : XdrState) (v : Int64) : XdrState × Int64 :=
  if xs.err.isSome then (xs, v)
  else
    let buf := if encoding xs then putU64 v.toUInt64 else zeros 8
    let (xs, buf) := xdrRW xs buf
    if decoding xs then (xs, (getU64 buf).toInt64) else (xs, v)

/-- `XdrU64` (lib.go:176-189). -/
def xdrU64 (xs : XdrState) (v : UInt64) : XdrState × UInt64 :=
  if xs.err.isSome then (xs, v)
  else
    let buf := if encoding xs then putU64 v else zeros 8
    let (xs, buf) := xdrRW xs buf
    if decoding xs then (xs, getU64 buf) else (xs, v)

/-- The pad length `(4-len%4)%4` (lib.go:221, 232, 254, 269). -/
def padLen (n : Nat) : Nat := (4 - n % 4) % 4

/-- `XdrVarArray` (lib.go:191-223).  The `sz < 0` test (lib.go:212) is about a 32-bit `int` and
never holds for the natural number `sz`. -/
def xdrVarArray (xs : XdrState) (maxlen : Int) (v : GoBytes) : XdrState × GoBytes :=
  if xs.err.isSome then (xs, v)
  else if encoding xs then
    if goLen v > maxUint32 ∨ (maxlen ≥ 0 ∧ (goLen v : Int) > maxlen) then
      (setError xs "var array too large", v)
    else
      let (xs, _) := xdrRW xs (putU32 (UInt32.ofNat (goLen v)))
      let (xs, _) := xdrRW xs (goElems v)
      let xs := if goLen v % 4 ≠ 0 then (xdrRW xs (zeros (padLen (goLen v)))).1 else xs
      (xs, v)
  else
    let (xs, szbuf) := xdrRW xs (zeros 4)
    let sz := (getU32 szbuf).toNat
    if maxlen ≥ 0 ∧ (sz : Int) > maxlen then
      (setError xs "var array too large", v)
    else
      let (xs, v) := xdrR xs sz
      let xs := if goLen v % 4 ≠ 0 then (xdrRW xs (zeros (padLen (goLen v)))).1 else xs
      (xs, v)

/-- `XdrArray` (lib.go:225-236): `v` is a slice of the caller's fixed-size array. -/
def xdrArray (xs : XdrState) (v : List UInt8) : XdrState × List UInt8 :=
  if xs.err.isSome then (xs, v)
  else
    let (xs, v) := xdrRW xs v
    let xs := if v.length % 4 ≠ 0 then (xdrRW xs (zeros (padLen v.length))).1 else xs
    (xs, v)

/-- `XdrString` (lib.go:238-271).  `string(nil)` is the empty string. -/
def xdrString (xs : XdrState) (maxlen : Int) (v : List UInt8) : XdrState × List UInt8 :=
  if xs.err.isSome then (xs, v)
  else if encoding xs then
    if v.length > maxUint32 ∨ (maxlen ≥ 0 ∧ (v.length : Int) > maxlen) then
      (setError xs "string too large", v)
    else
      let (xs, _) := xdrRW xs (putU32 (UInt32.ofNat v.length))
      let (xs, _) := xdrRW xs v
      let (xs, _) := xdrRW xs (zeros (padLen v.length))
      (xs, v)
  else
    let (xs, szbuf) := xdrRW xs (zeros 4)
    let sz := (getU32 szbuf).toNat
    if maxlen ≥ 0 ∧ (sz : Int) > maxlen then
      (setError xs "string too large", v)
    else
      let (xs, buf) := xdrR xs sz
      let v := goElems buf
      let (xs, _) := xdrRW xs (zeros (padLen v.length))
      (xs, v)

end Verif.Xdr
