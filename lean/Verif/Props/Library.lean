/-
PROPERTIES C01–C06 and the library part of C07: the run-time library `xdr/lib.go`.

`be n x` is the `n`-byte big-endian image of the number `x`, `twos b z` the two's complement of `z`
in `b` bits, `opaqueVar`/`opaqueFixed` the RFC 4506 images of opaque data (Spec/Bytes.lean).
`makeWriter w` is a writer that already holds `w`, `makeReader b` a reader whose remaining input is
`b`; both carry no error.
-/
import Verif.Xdr.LibLemmas

namespace Verif.Props
open Verif.Xdr Verif.Spec

/-! ### C01 integers -/

theorem C01_u32_encode (w : List UInt8) (x : UInt32) :
    xdrU32 (makeWriter w) x = (makeWriter (w ++ be 4 x.toNat), x) := u32_writer w x

theorem C01_s32_encode (w : List UInt8) (x : Int32) :
    xdrS32 (makeWriter w) x = (makeWriter (w ++ be 4 (twos 32 x.toInt)), x) := s32_writer w x

theorem C01_u64_encode (w : List UInt8) (x : UInt64) :
    xdrU64 (makeWriter w) x = (makeWriter (w ++ be 8 x.toNat), x) := u64_writer w x

theorem C01_s64_encode (w : List UInt8) (x : Int64) :
    xdrS64 (makeWriter w) x = (makeWriter (w ++ be 8 (twos 64 x.toInt)), x) := s64_writer w x

theorem C01_u32_decode (x old : UInt32) (rest : List UInt8) :
    xdrU32 (makeReader (be 4 x.toNat ++ rest)) old = (makeReader rest, x) := by
  rw [u32_reader _ _ _ (be_length 4 _), ← putU32_eq_be]
  congr 1
  rw [← UInt32.toNat_inj, getU32_toNat (by rfl), putU32_eq_be, beVal_be]
  exact Nat.mod_eq_of_lt x.toNat_lt

theorem C01_s32_decode (x old : Int32) (rest : List UInt8) :
    xdrS32 (makeReader (be 4 (twos 32 x.toInt) ++ rest)) old = (makeReader rest, x) := by
  rw [s32_reader _ _ _ (be_length 4 _), ← int32_toNat]
  have : getU32 (be 4 x.toUInt32.toNat) = x.toUInt32 := by
    rw [← UInt32.toNat_inj, getU32_toNat (be_length 4 _), beVal_be]
    exact Nat.mod_eq_of_lt x.toUInt32.toNat_lt
  rw [this]; simp

theorem C01_u64_decode (x old : UInt64) (rest : List UInt8) :
    xdrU64 (makeReader (be 8 x.toNat ++ rest)) old = (makeReader rest, x) := by
  rw [u64_reader _ _ _ (be_length 8 _)]
  congr 1
  rw [← UInt64.toNat_inj, getU64_toNat (be_length 8 _), beVal_be]
  exact Nat.mod_eq_of_lt x.toNat_lt

theorem C01_s64_decode (x old : Int64) (rest : List UInt8) :
    xdrS64 (makeReader (be 8 (twos 64 x.toInt) ++ rest)) old = (makeReader rest, x) := by
  rw [s64_reader _ _ _ (be_length 8 _), ← int64_toNat]
  have : getU64 (be 8 x.toUInt64.toNat) = x.toUInt64 := by
    rw [← UInt64.toNat_inj, getU64_toNat (be_length 8 _), beVal_be]
    exact Nat.mod_eq_of_lt x.toUInt64.toNat_lt
  rw [this]; simp

/-- The other direction: any four bytes decode, to the number they denote. -/
theorem C01_u32_any (p rest : List UInt8) (old : UInt32) (h : p.length = 4) :
    ∃ x, xdrU32 (makeReader (p ++ rest)) old = (makeReader rest, x) ∧ x.toNat = beVal p :=
  ⟨_, u32_reader p rest old h, getU32_toNat h⟩

/-- Fewer bytes than needed: an error, and the target keeps its value. -/
theorem C01_short (b : List UInt8) :
    (b.length < 4 → ∀ x, (xdrU32 (makeReader b) x).1.err.isSome ∧ (xdrU32 (makeReader b) x).2 = x) ∧
    (b.length < 4 → ∀ x, (xdrS32 (makeReader b) x).1.err.isSome ∧ (xdrS32 (makeReader b) x).2 = x) ∧
    (b.length < 8 → ∀ x, (xdrU64 (makeReader b) x).1.err.isSome ∧ (xdrU64 (makeReader b) x).2 = x) ∧
    (b.length < 8 → ∀ x, (xdrS64 (makeReader b) x).1.err.isSome ∧ (xdrS64 (makeReader b) x).2 = x) := by
  refine ⟨fun h x => ?_, fun h x => ?_, fun h x => ?_, fun h x => ?_⟩
  · rw [u32_short b x h]; exact ⟨rfl, rfl⟩
  · rw [s32_short b x h]; exact ⟨rfl, rfl⟩
  · rw [u64_short b x h]; exact ⟨rfl, rfl⟩
  · rw [s64_short b x h]; exact ⟨rfl, rfl⟩

-- `-2` is `ff ff ff fe`, appended to what the writer held
example : xdrS32 (makeWriter [7]) (-2) = (makeWriter [7, 255, 255, 255, 254], -2) := by
  decide +kernel
example : xdrS64 (makeReader [255, 255, 255, 255, 255, 255, 255, 254, 9]) 5 = (makeReader [9], -2) := by
  decide +kernel

/-! ### C02 booleans -/

theorem C02_encode (w : List UInt8) (x : Bool) :
    xdrBool (makeWriter w) x = (makeWriter (w ++ be 4 (if x then 1 else 0)), x) := bool_writer w x

theorem C02_decode (p rest : List UInt8) (old : Bool) (h : p.length = 4) :
    ∃ x, xdrBool (makeReader (p ++ rest)) old = (makeReader rest, x) ∧ (x = false ↔ p = [0, 0, 0, 0]) := by
  refine ⟨_, bool_reader p rest old h, ?_⟩
  obtain ⟨a, b, c, d, rfl⟩ := length_eq_four h
  simp only [decide_eq_false_iff_not, ne_eq, Classical.not_not, List.cons.injEq, and_true]
  simp only [beVal, List.foldl]
  constructor
  · intro h
    have ha : a.toNat = 0 := by omega
    have hb : b.toNat = 0 := by omega
    have hc : c.toNat = 0 := by omega
    have hd : d.toNat = 0 := by omega
    refine ⟨?_, ?_, ?_, ?_⟩ <;> (apply UInt8.toNat_inj.mp; assumption)
  · rintro ⟨rfl, rfl, rfl, rfl⟩; rfl

theorem C02_short (b : List UInt8) (h : b.length < 4) (x : Bool) :
    (xdrBool (makeReader b) x).1.err.isSome ∧ (xdrBool (makeReader b) x).2 = x := by
  rw [bool_short b x h]; exact ⟨rfl, rfl⟩

example : xdrBool (makeReader [0, 2, 0, 0, 5]) false = (makeReader [5], true) := by decide +kernel

/-! ### C03 variable-length opaque data.  `maxInt` is the `maxlen` argument: `-1` for no maximum. -/

theorem C03_encode (w : List UInt8) (max : Option Nat) (v : GoBytes) (h : withinMax max (goLen v)) :
    xdrVarArray (makeWriter w) (maxInt max) v = (makeWriter (w ++ opaqueVar (goElems v)), v) :=
  varArray_writer w max v h

theorem C03_decode (d rest : List UInt8) (max : Option Nat) (old : GoBytes)
    (h : withinMax max d.length) :
    xdrVarArray (makeReader (opaqueVar d ++ rest)) (maxInt max) old = (makeReader rest, some d) := by
  have := varArray_reader d (zeroBytes (pad d.length)) rest max old h (by simp [zeroBytes])
  rw [← this]; simp [opaqueVar]

/-- What is accepted: exactly a length word within the maximum, that many bytes, and any padding. -/
theorem C03_accepts (b : List UInt8) (max : Option Nat) (old : GoBytes) :
    (xdrVarArray (makeReader b) (maxInt max) old).1.err = none ↔
      ∃ d q rest, b = be 4 d.length ++ (d ++ q) ++ rest ∧ withinMax max d.length ∧
        q.length = pad d.length := by
  constructor
  · intro h
    by_cases hc : ∃ d q rest, b = be 4 d.length ++ (d ++ q) ++ rest ∧ withinMax max d.length ∧
        q.length = pad d.length
    · exact hc
    · have := (varArray_fail b max old hc).1
      rw [h] at this; cases this
  · rintro ⟨d, q, rest, rfl, h1, h2⟩
    rw [varArray_reader d q rest max old h1 h2]; rfl

example : xdrVarArray (makeWriter []) (maxInt (some 5)) (some [1, 2, 3, 4, 5]) =
    (makeWriter [0, 0, 0, 5, 1, 2, 3, 4, 5, 0, 0, 0], some [1, 2, 3, 4, 5]) := by decide +kernel

/-! ### C04 strings -/

theorem C04_encode (w : List UInt8) (max : Option Nat) (v : List UInt8) (h : withinMax max v.length) :
    xdrString (makeWriter w) (maxInt max) v = (makeWriter (w ++ opaqueVar v), v) :=
  string_writer w max v h

theorem C04_decode (d rest : List UInt8) (max : Option Nat) (old : List UInt8)
    (h : withinMax max d.length) :
    xdrString (makeReader (opaqueVar d ++ rest)) (maxInt max) old = (makeReader rest, d) := by
  have := string_reader d (zeroBytes (pad d.length)) rest max old h (by simp [zeroBytes])
  rw [← this]; simp [opaqueVar]

theorem C04_accepts (b : List UInt8) (max : Option Nat) (old : List UInt8) :
    (xdrString (makeReader b) (maxInt max) old).1.err = none ↔
      ∃ d q rest, b = be 4 d.length ++ (d ++ q) ++ rest ∧ withinMax max d.length ∧
        q.length = pad d.length := by
  constructor
  · intro h
    by_cases hc : ∃ d q rest, b = be 4 d.length ++ (d ++ q) ++ rest ∧ withinMax max d.length ∧
        q.length = pad d.length
    · exact hc
    · have := (string_fail b max old hc).1
      rw [h] at this; cases this
  · rintro ⟨d, q, rest, rfl, h1, h2⟩
    rw [string_reader d q rest max old h1 h2]; rfl

example : xdrString (makeReader [0, 0, 0, 2, 104, 105, 1, 2, 9]) (maxInt none) [88] =
    (makeReader [9], [104, 105]) := by decide +kernel

/-! ### C05 fixed-length opaque data -/

theorem C05_encode (w v : List UInt8) :
    xdrArray (makeWriter w) v = (makeWriter (w ++ opaqueFixed v), v) := array_writer w v

theorem C05_decode (d rest old : List UInt8) (h : d.length = old.length) :
    xdrArray (makeReader (opaqueFixed d ++ rest)) old = (makeReader rest, d) := by
  have := array_reader d (zeroBytes (pad d.length)) rest old h (by simp [zeroBytes])
  rw [← this]; simp [opaqueFixed]

/-- Too little data is reported; a fixed-size array keeps its size in any case. -/
theorem C05_accepts (b old : List UInt8) :
    ((xdrArray (makeReader b) old).1.err = none ↔ old.length + pad old.length ≤ b.length) ∧
    (xdrArray (makeReader b) old).2.length = old.length := by
  by_cases h : b.length < old.length + pad old.length
  · have := array_fail b old h
    refine ⟨⟨fun h' => ?_, fun h' => by omega⟩, this.2⟩
    have h1 := this.1.1
    rw [h'] at h1; cases h1
  · rcases short_or_split b old.length with h' | ⟨d, s, rfl, hd⟩
    · omega
    rcases short_or_split s (pad d.length) with h' | ⟨q, rest, rfl, hq⟩
    · simp only [List.length_append] at h; rw [hd] at h'; omega
    have := array_reader d q rest old hd hq
    rw [List.append_assoc] at this
    rw [this]
    exact ⟨⟨fun _ => by omega, fun _ => rfl⟩, hd⟩

example : xdrArray (makeReader [1, 2, 3, 99, 4]) [7, 7, 7] = (makeReader [4], [1, 2, 3]) := by
  decide +kernel

/-! ### C06 maximum lengths -/

/-- The encoder refuses and writes nothing. -/
theorem C06_encode_refuses (w : List UInt8) (max : Option Nat) :
    (∀ v : GoBytes, ¬ withinMax max (goLen v) →
      ∃ xs, xdrVarArray (makeWriter w) (maxInt max) v = (xs, v) ∧ xs.err.isSome ∧ xs.buf = w) ∧
    (∀ v : List UInt8, ¬ withinMax max v.length →
      ∃ xs, xdrString (makeWriter w) (maxInt max) v = (xs, v) ∧ xs.err.isSome ∧ xs.buf = w) :=
  ⟨fun v h => ⟨_, varArray_writer_large w max v h, rfl, rfl⟩,
   fun v h => ⟨_, string_writer_large w max v h, rfl, rfl⟩⟩

/-- The decoder refuses a length word above the maximum, whatever follows. -/
theorem C06_decode_refuses (m n : Nat) (rest : List UInt8) (hn : n < 2 ^ 32) (h : m < n) :
    (∀ old, (xdrVarArray (makeReader (be 4 n ++ rest)) (maxInt (some m)) old).1.err.isSome) ∧
    (∀ old, (xdrString (makeReader (be 4 n ++ rest)) (maxInt (some m)) old).1.err.isSome) := by
  have key : ¬ ∃ d q r, be 4 n ++ rest = be 4 d.length ++ (d ++ q) ++ r ∧
      withinMax (some m) d.length ∧ q.length = pad d.length := by
    rintro ⟨d, q, r, he, hw, _⟩
    rw [List.append_assoc] at he
    have h1 := (List.append_inj he (by simp [be_length])).1
    have := be_inj (by omega) (by have := hw.1; omega) h1
    have := hw.2 m rfl
    omega
  exact ⟨fun old => (varArray_fail _ _ old key).1, fun old => (string_fail _ _ old key).1⟩

/-- No successful decode delivers more than the maximum (or more than the input holds). -/
theorem C06_decode_bound (b : List UInt8) (max : Option Nat) :
    (∀ old, (xdrVarArray (makeReader b) (maxInt max) old).1.err = none →
      withinMax max (goLen (xdrVarArray (makeReader b) (maxInt max) old).2) ∧
      goLen (xdrVarArray (makeReader b) (maxInt max) old).2 + 4 ≤ b.length) ∧
    (∀ old, (xdrString (makeReader b) (maxInt max) old).1.err = none →
      withinMax max (xdrString (makeReader b) (maxInt max) old).2.length ∧
      (xdrString (makeReader b) (maxInt max) old).2.length + 4 ≤ b.length) := by
  constructor
  · intro old h
    obtain ⟨d, q, rest, rfl, h1, h2⟩ := (C03_accepts b max old).mp h
    rw [varArray_reader d q rest max old h1 h2]
    exact ⟨h1, by simp [goLen, be_length]; omega⟩
  · intro old h
    obtain ⟨d, q, rest, rfl, h1, h2⟩ := (C04_accepts b max old).mp h
    rw [string_reader d q rest max old h1 h2]
    exact ⟨h1, by simp [be_length]; omega⟩

example : ¬ withinMax (some 3) (goLen (some [1, 2, 3, 4])) := by decide
example : xdrVarArray (makeReader [0, 0, 0, 4, 1, 2, 3, 4]) (maxInt (some 3)) none =
    ({ err := some (.msg "var array too large"), reader := true, buf := [1, 2, 3, 4] }, none) := by
  decide +kernel

/-! ### C07, library part: errors are sticky -/

theorem C07_library (xs : XdrState) (h : xs.err.isSome) :
    (∀ x, xdrBool xs x = (xs, x)) ∧ (∀ x, xdrU32 xs x = (xs, x)) ∧ (∀ x, xdrS32 xs x = (xs, x)) ∧
    (∀ x, xdrU64 xs x = (xs, x)) ∧ (∀ x, xdrS64 xs x = (xs, x)) ∧ (∀ x, xdrArray xs x = (xs, x)) ∧
    (∀ m x, xdrVarArray xs m x = (xs, x)) ∧ (∀ m x, xdrString xs m x = (xs, x)) ∧
    (∀ n len, encodingSetSize xs n len = (xs, n)) :=
  ⟨fun x => bool_err x h, fun x => u32_err x h, fun x => s32_err x h, fun x => u64_err x h,
   fun x => s64_err x h, fun x => array_err x h, fun m x => varArray_err m x h,
   fun m x => string_err m x h, fun n k => setSize_err n k h⟩

example : (xdrU32 (makeReader [1, 2]) 5).1.err.isSome := by decide +kernel

end Verif.Props
