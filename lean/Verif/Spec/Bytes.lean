/-
SPECIFICATION (not a model of code): the byte-level vocabulary of RFC 4506.
Written with arithmetic on natural numbers only, so that it can be compared with the RFC without
reading the model.
-/
namespace Verif.Spec

/-- `n`-byte big-endian image of `x mod 256^n` (RFC 4506 §4.1, §4.5: "the most significant byte
first"). -/
def be : Nat → Nat → List UInt8
  | 0, _ => []
  | n + 1, x => be n (x / 256) ++ [UInt8.ofNat (x % 256)]

/-- The number a big-endian byte string denotes. -/
def beVal (b : List UInt8) : Nat := b.foldl (fun acc x => acc * 256 + x.toNat) 0

/-- Number of padding bytes after `n` bytes of data (RFC 4506 §3: "the n bytes are followed by
enough (0 to 3) residual zero bytes, r, such that (n+r) mod 4 = 0"). -/
def pad (n : Nat) : Nat := (n + 3) / 4 * 4 - n

/-- `n` residual zero bytes. -/
def zeroBytes (n : Nat) : List UInt8 := List.replicate n 0

/-- Fixed-length opaque data (RFC 4506 §4.9). -/
def opaqueFixed (b : List UInt8) : List UInt8 := b ++ zeroBytes (pad b.length)

/-- Variable-length opaque data and strings (RFC 4506 §4.10, §4.11). -/
def opaqueVar (b : List UInt8) : List UInt8 :=
  be 4 b.length ++ b ++ zeroBytes (pad b.length)

/-- A declared maximum: `none` means none is given, which RFC 4506 defines as 2^32-1. -/
def withinMax (max : Option Nat) (n : Nat) : Prop :=
  n ≤ 4294967295 ∧ ∀ m, max = some m → n ≤ m

instance (max : Option Nat) (n : Nat) : Decidable (withinMax max n) := by
  unfold withinMax
  cases max with
  | none => exact decidable_of_iff (n ≤ 4294967295) (by simp)
  | some m => exact decidable_of_iff (n ≤ 4294967295 ∧ n ≤ m) (by simp)

/-- RFC 4506 §4.10: the length on the wire is an unsigned integer, two's complement of an integer
`z` in `2^32` or `2^64`. -/
def twos (bits : Nat) (z : Int) : Nat := (z % (2 ^ bits : Int)).toNat

end Verif.Spec
