/-
What each library function does on a writer, on a reader and on a state in error.
-/
import Verif.Xdr.BytesLemmas

namespace Verif.Xdr
open Verif.Spec

/-! ### The two primitives -/

theorem rw_writer (w v : List UInt8) : xdrRW (makeWriter w) v = (makeWriter (w ++ v), v) := by
  simp [xdrRW, makeWriter]

theorem rw_reader (p rest v : List UInt8) (h : p.length = v.length) :
    xdrRW (makeReader (p ++ rest)) v = (makeReader rest, p) := by
  have h1 : min v.length (p ++ rest).length = p.length := by simp; omega
  simp [xdrRW, makeReader, ← h]

theorem rw_short (b v : List UInt8) (h : b.length < v.length) :
    xdrRW (makeReader b) v =
      (⟨some (.notEnough v.length b.length), true, []⟩, b ++ v.drop b.length) := by
  have h1 : min v.length b.length = b.length := by omega
  simp [xdrRW, makeReader, h1, h]

theorem rw_err (xs : XdrState) (v : List UInt8) (h : xs.err.isSome) : xdrRW xs v = (xs, v) := by
  simp [xdrRW, h]

theorem r_reader (p rest : List UInt8) :
    xdrR (makeReader (p ++ rest)) p.length = (makeReader rest, some p) := by
  have h : ¬ p.length + rest.length < p.length := by omega
  simp [xdrR, makeReader, h]

theorem r_short (b : List UInt8) (n : Nat) (h : b.length < n) :
    xdrR (makeReader b) n = (⟨some (.notEnough n b.length), true, b⟩, none) := by
  simp [xdrR, makeReader, h]

theorem r_err (xs : XdrState) (n : Nat) (h : xs.err.isSome) :
    (xdrR xs n).1.err.isSome ∧ (xdrR xs n).1.reader = xs.reader ∧ (xdrR xs n).2 = none := by
  unfold xdrR
  by_cases hn : xs.buf.length < n <;> simp [hn, h]

theorem encoding_writer (w : List UInt8) : encoding (makeWriter w) = true := rfl
theorem decoding_writer (w : List UInt8) : decoding (makeWriter w) = false := rfl
theorem encoding_reader (b : List UInt8) : encoding (makeReader b) = false := rfl
theorem decoding_reader (b : List UInt8) : decoding (makeReader b) = true := rfl
theorem encoding_err {xs : XdrState} (h : xs.err.isSome) : encoding xs = false := by
  simp [encoding]; intro h'; simp [h'] at h
theorem decoding_err {xs : XdrState} (h : xs.err.isSome) : decoding xs = false := by
  simp [decoding]; intro h'; simp [h'] at h

theorem err_reader (b : List UInt8) : (makeReader b).err.isSome = false := rfl
theorem err_writer (b : List UInt8) : (makeWriter b).err.isSome = false := rfl

/-! ### Integers and booleans -/

theorem u32_writer (w : List UInt8) (x : UInt32) :
    xdrU32 (makeWriter w) x = (makeWriter (w ++ be 4 x.toNat), x) := by
  simp only [xdrU32, encoding_writer, if_true, rw_writer, decoding_writer, putU32_eq_be]
  simp [makeWriter]

theorem s32_writer (w : List UInt8) (x : Int32) :
    xdrS32 (makeWriter w) x = (makeWriter (w ++ be 4 (twos 32 x.toInt)), x) := by
  simp only [xdrS32, encoding_writer, if_true, rw_writer, decoding_writer, putU32_eq_be,
    int32_toNat]
  simp [makeWriter]

theorem u64_writer (w : List UInt8) (x : UInt64) :
    xdrU64 (makeWriter w) x = (makeWriter (w ++ be 8 x.toNat), x) := by
  simp only [xdrU64, encoding_writer, if_true, rw_writer, decoding_writer, putU64_eq_be]
  simp [makeWriter]

theorem s64_writer (w : List UInt8) (x : Int64) :
    xdrS64 (makeWriter w) x = (makeWriter (w ++ be 8 (twos 64 x.toInt)), x) := by
  simp only [xdrS64, encoding_writer, if_true, rw_writer, decoding_writer, putU64_eq_be,
    int64_toNat]
  simp [makeWriter]

theorem bool_writer (w : List UInt8) (x : Bool) :
    xdrBool (makeWriter w) x = (makeWriter (w ++ be 4 (if x then 1 else 0)), x) := by
  cases x <;>
  simp only [xdrBool, encoding_writer, if_true, rw_writer, decoding_writer, putU32_eq_be] <;>
  simp [makeWriter]


/-- Case distinction on the input of a reader that needs `n` bytes. -/
theorem short_or_split (b : List UInt8) (n : Nat) :
    b.length < n ∨ ∃ p rest, b = p ++ rest ∧ p.length = n := by
  by_cases h : b.length < n
  · exact .inl h
  · exact .inr ⟨b.take n, b.drop n, (List.take_append_drop n b).symm, by simp; omega⟩

theorem zeros_length (n : Nat) : (zeros n).length = n := by simp [zeros]

theorem u32_reader (p rest : List UInt8) (x : UInt32) (h : p.length = 4) :
    xdrU32 (makeReader (p ++ rest)) x = (makeReader rest, getU32 p) := by
  simp only [xdrU32, encoding_reader, err_reader, Bool.false_eq_true, if_false, if_true,
    rw_reader p rest (zeros 4) (h.trans (zeros_length 4).symm), decoding_reader]

theorem s32_reader (p rest : List UInt8) (x : Int32) (h : p.length = 4) :
    xdrS32 (makeReader (p ++ rest)) x = (makeReader rest, (getU32 p).toInt32) := by
  simp only [xdrS32, encoding_reader, err_reader, Bool.false_eq_true, if_false, if_true,
    rw_reader p rest (zeros 4) (h.trans (zeros_length 4).symm), decoding_reader]

theorem u64_reader (p rest : List UInt8) (x : UInt64) (h : p.length = 8) :
    xdrU64 (makeReader (p ++ rest)) x = (makeReader rest, getU64 p) := by
  simp only [xdrU64, encoding_reader, err_reader, Bool.false_eq_true, if_false, if_true,
    rw_reader p rest (zeros 8) (h.trans (zeros_length 8).symm), decoding_reader]

theorem s64_reader (p rest : List UInt8) (x : Int64) (h : p.length = 8) :
    xdrS64 (makeReader (p ++ rest)) x = (makeReader rest, (getU64 p).toInt64) := by
  simp only [xdrS64, encoding_reader, err_reader, Bool.false_eq_true, if_false, if_true,
    rw_reader p rest (zeros 8) (h.trans (zeros_length 8).symm), decoding_reader]

theorem bool_reader (p rest : List UInt8) (x : Bool) (h : p.length = 4) :
    xdrBool (makeReader (p ++ rest)) x = (makeReader rest, decide (beVal p ≠ 0)) := by
  simp only [xdrBool, encoding_reader, err_reader, Bool.false_eq_true, if_false, if_true,
    rw_reader p rest (zeros 4) (h.trans (zeros_length 4).symm), decoding_reader]
  have h1 := getU32_toNat h
  by_cases h0 : beVal p = 0
  · have : getU32 p = 0 := by rw [← UInt32.toNat_inj, h1, h0]; rfl
    simp [this, h0]
  · have : getU32 p ≠ 0 := by intro h2; rw [h2] at h1; exact h0 h1.symm
    simp [this, h0]

/-- The state after a read that did not find its `n` bytes. -/
def shortState (n : Nat) (b : List UInt8) : XdrState := ⟨some (.notEnough n b.length), true, []⟩

theorem u32_short (b : List UInt8) (x : UInt32) (h : b.length < 4) :
    xdrU32 (makeReader b) x = (shortState 4 b, x) := by
  simp only [xdrU32, encoding_reader, err_reader, Bool.false_eq_true, if_false,
    rw_short b (zeros 4) (by simpa [zeros_length] using h), zeros_length]
  rfl

theorem s32_short (b : List UInt8) (x : Int32) (h : b.length < 4) :
    xdrS32 (makeReader b) x = (shortState 4 b, x) := by
  simp only [xdrS32, encoding_reader, err_reader, Bool.false_eq_true, if_false,
    rw_short b (zeros 4) (by simpa [zeros_length] using h), zeros_length]
  rfl

theorem u64_short (b : List UInt8) (x : UInt64) (h : b.length < 8) :
    xdrU64 (makeReader b) x = (shortState 8 b, x) := by
  simp only [xdrU64, encoding_reader, err_reader, Bool.false_eq_true, if_false,
    rw_short b (zeros 8) (by simpa [zeros_length] using h), zeros_length]
  rfl

theorem s64_short (b : List UInt8) (x : Int64) (h : b.length < 8) :
    xdrS64 (makeReader b) x = (shortState 8 b, x) := by
  simp only [xdrS64, encoding_reader, err_reader, Bool.false_eq_true, if_false,
    rw_short b (zeros 8) (by simpa [zeros_length] using h), zeros_length]
  rfl

theorem bool_short (b : List UInt8) (x : Bool) (h : b.length < 4) :
    xdrBool (makeReader b) x = (shortState 4 b, x) := by
  simp only [xdrBool, encoding_reader, err_reader, Bool.false_eq_true, if_false,
    rw_short b (zeros 4) (by simpa [zeros_length] using h), zeros_length]
  rfl

/-! ### Errors are sticky -/

theorem u32_err {xs : XdrState} (x : UInt32) (h : xs.err.isSome) : xdrU32 xs x = (xs, x) := by
  simp [xdrU32, h]
theorem s32_err {xs : XdrState} (x : Int32) (h : xs.err.isSome) : xdrS32 xs x = (xs, x) := by
  simp [xdrS32, h]
theorem u64_err {xs : XdrState} (x : UInt64) (h : xs.err.isSome) : xdrU64 xs x = (xs, x) := by
  simp [xdrU64, h]
theorem s64_err {xs : XdrState} (x : Int64) (h : xs.err.isSome) : xdrS64 xs x = (xs, x) := by
  simp [xdrS64, h]
theorem bool_err {xs : XdrState} (x : Bool) (h : xs.err.isSome) : xdrBool xs x = (xs, x) := by
  simp [xdrBool, h]
theorem varArray_err {xs : XdrState} (m : Int) (x : GoBytes) (h : xs.err.isSome) :
    xdrVarArray xs m x = (xs, x) := by
  simp [xdrVarArray, h]
theorem string_err {xs : XdrState} (m : Int) (x : List UInt8) (h : xs.err.isSome) :
    xdrString xs m x = (xs, x) := by
  simp [xdrString, h]
theorem array_err {xs : XdrState} (x : List UInt8) (h : xs.err.isSome) :
    xdrArray xs x = (xs, x) := by
  simp [xdrArray, h]
theorem setSize_err {xs : XdrState} (n : UInt32) (k : Nat) (h : xs.err.isSome) :
    encodingSetSize xs n k = (xs, n) := by
  simp [encodingSetSize, h]

/-! ### Lengths -/

theorem setSize_reader (b : List UInt8) (n : UInt32) (k : Nat) :
    encodingSetSize (makeReader b) n k = (makeReader b, n) := rfl

theorem setSize_writer (w : List UInt8) (n : UInt32) (k : Nat) (h : k ≤ 4294967295) :
    encodingSetSize (makeWriter w) n k = (makeWriter w, UInt32.ofNat k) := by
  have : ¬ k > maxUint32 := by unfold maxUint32; omega
  simp [encodingSetSize, this, makeWriter]

theorem setSize_writer_large (w : List UInt8) (n : UInt32) (k : Nat) (h : ¬ k ≤ 4294967295) :
    encodingSetSize (makeWriter w) n k = (setError (makeWriter w) "length too large", n) := by
  have : k > maxUint32 := by unfold maxUint32; omega
  simp [encodingSetSize, this, makeWriter]

/-- `maxlen` of the library for an optional declared maximum. -/
def maxInt : Option Nat → Int
  | none => -1
  | some m => m

theorem within_iff (mx : Option Nat) (n : Nat) :
    withinMax mx n ↔ ¬ (n > maxUint32 ∨ (maxInt mx ≥ 0 ∧ (n : Int) > maxInt mx)) := by
  cases mx with
  | none => simp only [withinMax, maxInt, maxUint32]; simp
  | some m => simp only [withinMax, maxInt, maxUint32]; simp

/-! ### Opaque data and strings: encoding -/

theorem toNat_ofNat_le {n : Nat} (h : n ≤ 4294967295) : (UInt32.ofNat n).toNat = n := by
  rw [UInt32.toNat_ofNat']; exact Nat.mod_eq_of_lt (by omega)

theorem varArray_writer (w : List UInt8) (mx : Option Nat) (v : GoBytes)
    (h : withinMax mx (goLen v)) :
    xdrVarArray (makeWriter w) (maxInt mx) v = (makeWriter (w ++ opaqueVar (goElems v)), v) := by
  have h1 := (within_iff mx (goLen v)).mp h
  have h3 : goLen v = (goElems v).length := rfl
  simp only [xdrVarArray, err_writer, encoding_writer, Bool.false_eq_true, if_false, if_true,
    if_neg h1, rw_writer, putU32_eq_be, toNat_ofNat_le h.1]
  by_cases h0 : goLen v % 4 = 0
  · have hp : pad (goElems v).length = 0 := (pad_zero_iff _).mpr (by rw [← h3]; exact h0)
    rw [h3] at h0 ⊢
    simp [h0, opaqueVar, hp, zeroBytes]
  · rw [h3] at h0 ⊢
    simp [h0, opaqueVar, padLen_eq, zeros_eq]

theorem varArray_writer_large (w : List UInt8) (mx : Option Nat) (v : GoBytes)
    (h : ¬ withinMax mx (goLen v)) :
    xdrVarArray (makeWriter w) (maxInt mx) v =
      (setError (makeWriter w) "var array too large", v) := by
  have h1 := (not_congr (within_iff mx (goLen v))).mp h
  simp only [Classical.not_not] at h1
  simp only [xdrVarArray, err_writer, encoding_writer, Bool.false_eq_true, if_false, if_true,
    if_pos h1]

theorem string_writer (w : List UInt8) (mx : Option Nat) (v : List UInt8)
    (h : withinMax mx v.length) :
    xdrString (makeWriter w) (maxInt mx) v = (makeWriter (w ++ opaqueVar v), v) := by
  have h1 := (within_iff mx v.length).mp h
  simp only [xdrString, err_writer, encoding_writer, Bool.false_eq_true, if_false, if_true,
    if_neg h1, rw_writer, putU32_eq_be, toNat_ofNat_le h.1]
  simp [opaqueVar, padLen_eq, zeros_eq]

theorem string_writer_large (w : List UInt8) (mx : Option Nat) (v : List UInt8)
    (h : ¬ withinMax mx v.length) :
    xdrString (makeWriter w) (maxInt mx) v = (setError (makeWriter w) "string too large", v) := by
  have h1 := (not_congr (within_iff mx v.length)).mp h
  simp only [Classical.not_not] at h1
  simp only [xdrString, err_writer, encoding_writer, Bool.false_eq_true, if_false, if_true,
    if_pos h1]

theorem array_writer (w v : List UInt8) :
    xdrArray (makeWriter w) v = (makeWriter (w ++ opaqueFixed v), v) := by
  simp only [xdrArray, err_writer, Bool.false_eq_true, if_false, rw_writer]
  by_cases h0 : v.length % 4 = 0
  · have hp := (pad_zero_iff _).mpr h0
    simp [h0, opaqueFixed, hp, zeroBytes]
  · simp [h0, opaqueFixed, padLen_eq, zeros_eq]

/-! ### Opaque data and strings: decoding -/

/-- `xs` is a reader that reported an error. -/
def Failed (xs : XdrState) : Prop := xs.err.isSome ∧ xs.reader = true

theorem failed_short (n : Nat) (b : List UInt8) : Failed (shortState n b) := ⟨rfl, rfl⟩

theorem failed_rw {xs : XdrState} (v : List UInt8) (h : Failed xs) : Failed (xdrRW xs v).1 := by
  rw [rw_err xs v h.1]; exact h

theorem failed_setError {xs : XdrState} (s : String) (h : xs.reader = true) :
    Failed (setError xs s) := ⟨rfl, h⟩

theorem failed_r {xs : XdrState} (n : Nat) (h : Failed xs) :
    Failed (xdrR xs n).1 ∧ (xdrR xs n).2 = none := by
  obtain ⟨h1, h2, h3⟩ := r_err xs n h.1
  exact ⟨⟨h1, h2.trans h.2⟩, h3⟩

/-- A length word above the maximum. -/
theorem not_within {mx : Option Nat} {n : Nat} (hn : n ≤ 4294967295) :
    (maxInt mx ≥ 0 ∧ (n : Int) > maxInt mx) ↔ ¬ withinMax mx n := by
  rw [within_iff, Classical.not_not]
  constructor
  · exact .inr
  · rintro (h | h)
    · unfold maxUint32 at h; omega
    · exact h

theorem getU32_le (b : List UInt8) : (getU32 b).toNat ≤ 4294967295 := by
  have := (getU32 b).toNat_lt; omega

/-- Reading `n` pad bytes. -/
theorem pad_reader (q rest : List UInt8) (n : Nat) (h : q.length = pad n) :
    (xdrRW (makeReader (q ++ rest)) (zeros (padLen n))).1 = makeReader rest := by
  rw [rw_reader q rest _ (by rw [zeros_length, padLen_eq, h])]

theorem varArray_reader (d q rest : List UInt8) (mx : Option Nat) (v : GoBytes)
    (h : withinMax mx d.length) (hq : q.length = pad d.length) :
    xdrVarArray (makeReader (be 4 d.length ++ (d ++ q) ++ rest)) (maxInt mx) v =
      (makeReader rest, some d) := by
  have h2 : (getU32 (be 4 d.length)).toNat = d.length := by
    rw [getU32_toNat (by simp [be_length]), beVal_be]; exact Nat.mod_eq_of_lt (by have := h.1; omega)
  have h3 : ¬ (maxInt mx ≥ 0 ∧ (d.length : Int) > maxInt mx) := by
    rw [not_within h.1]; exact fun hn => hn h
  rw [List.append_assoc]
  simp only [xdrVarArray, err_reader, encoding_reader, Bool.false_eq_true, if_false,
    rw_reader (be 4 d.length) _ (zeros 4) (by simp [be_length, zeros_length]), h2, if_neg h3]
  rw [List.append_assoc, r_reader]
  simp only [goLen, Option.getD_some]
  by_cases h0 : d.length % 4 = 0
  · have hp : q = [] := by
      rw [(pad_zero_iff _).mpr h0] at hq; exact List.eq_nil_of_length_eq_zero hq
    simp [h0, hp]
  · simp only [ne_eq, h0, not_false_eq_true, if_true, pad_reader q rest _ hq]

theorem string_reader (d q rest : List UInt8) (mx : Option Nat) (v : List UInt8)
    (h : withinMax mx d.length) (hq : q.length = pad d.length) :
    xdrString (makeReader (be 4 d.length ++ (d ++ q) ++ rest)) (maxInt mx) v =
      (makeReader rest, d) := by
  have h2 : (getU32 (be 4 d.length)).toNat = d.length := by
    rw [getU32_toNat (by simp [be_length]), beVal_be]; exact Nat.mod_eq_of_lt (by have := h.1; omega)
  have h3 : ¬ (maxInt mx ≥ 0 ∧ (d.length : Int) > maxInt mx) := by
    rw [not_within h.1]; exact fun hn => hn h
  rw [List.append_assoc]
  simp only [xdrString, err_reader, encoding_reader, Bool.false_eq_true, if_false,
    rw_reader (be 4 d.length) _ (zeros 4) (by simp [be_length, zeros_length]), h2, if_neg h3]
  rw [List.append_assoc, r_reader]
  simp only [goElems, Option.getD_some]
  rw [pad_reader q rest _ hq]

/-- A reader's input either starts with a well-formed opaque or string, or does not. -/
theorem var_split (b : List UInt8) (mx : Option Nat) :
    (∃ d q rest, b = be 4 d.length ++ (d ++ q) ++ rest ∧ withinMax mx d.length ∧
      q.length = pad d.length) ∨
    b.length < 4 ∨
    (∃ p r, b = p ++ r ∧ p.length = 4 ∧
      (¬ withinMax mx (getU32 p).toNat ∨
       r.length < (getU32 p).toNat ∨
       (∃ d s, r = d ++ s ∧ d.length = (getU32 p).toNat ∧ s.length < pad d.length))) := by
  rcases short_or_split b 4 with h | ⟨p, r, rfl, hp⟩
  · exact .inr (.inl h)
  by_cases hw : withinMax mx (getU32 p).toNat
  · rcases short_or_split r (getU32 p).toNat with h | ⟨d, s, rfl, hd⟩
    · exact .inr (.inr ⟨p, r, rfl, hp, .inr (.inl h)⟩)
    rcases short_or_split s (pad d.length) with h | ⟨q, rest, rfl, hq⟩
    · exact .inr (.inr ⟨p, _, rfl, hp, .inr (.inr ⟨d, s, rfl, hd, h⟩)⟩)
    · refine .inl ⟨d, q, rest, ?_, hd ▸ hw, hq⟩
      have : be 4 d.length = p := by
        rw [hd, ← putU32_eq_be, putU32_getU32 hp]
      rw [this]; simp
  · exact .inr (.inr ⟨p, r, rfl, hp, .inl hw⟩)

theorem varArray_fail (b : List UInt8) (mx : Option Nat) (v : GoBytes)
    (h : ¬ ∃ d q rest, b = be 4 d.length ++ (d ++ q) ++ rest ∧ withinMax mx d.length ∧
      q.length = pad d.length) :
    Failed (xdrVarArray (makeReader b) (maxInt mx) v).1 := by
  rcases var_split b mx with h' | h' | ⟨p, r, rfl, hp, h'⟩
  · exact absurd h' h
  · simp only [xdrVarArray, err_reader, encoding_reader, Bool.false_eq_true, if_false,
      rw_short b (zeros 4) (by simpa [zeros_length] using h')]
    split
    · exact failed_setError _ rfl
    · have hf := failed_r (xs := ⟨some (.notEnough (zeros 4).length b.length), true, []⟩)
        (getU32 (b ++ List.drop b.length (zeros 4))).toNat ⟨rfl, rfl⟩
      split
      · exact failed_rw _ hf.1
      · exact hf.1
  · simp only [xdrVarArray, err_reader, encoding_reader, Bool.false_eq_true, if_false,
      rw_reader p r (zeros 4) (by simp [hp, zeros_length])]
    simp only [not_within (getU32_le p)]
    split
    · exact failed_setError _ rfl
    · rename_i hw
      rcases h' with h' | h' | ⟨d, s, rfl, hd, h'⟩
      · exact absurd h' hw
      · rw [r_short r _ h']
        split
        · exact failed_rw _ ⟨rfl, rfl⟩
        · exact ⟨rfl, rfl⟩
      · rw [← hd, r_reader]
        have h0 : d.length % 4 ≠ 0 := by
          intro h0; rw [(pad_zero_iff _).mpr h0] at h'; omega
        simp only [goLen, Option.getD_some, ne_eq, h0, not_false_eq_true, if_true]
        rw [rw_short s _ (by rw [zeros_length, padLen_eq]; exact h')]
        exact ⟨rfl, rfl⟩

theorem string_fail (b : List UInt8) (mx : Option Nat) (v : List UInt8)
    (h : ¬ ∃ d q rest, b = be 4 d.length ++ (d ++ q) ++ rest ∧ withinMax mx d.length ∧
      q.length = pad d.length) :
    Failed (xdrString (makeReader b) (maxInt mx) v).1 := by
  rcases var_split b mx with h' | h' | ⟨p, r, rfl, hp, h'⟩
  · exact absurd h' h
  · simp only [xdrString, err_reader, encoding_reader, Bool.false_eq_true, if_false,
      rw_short b (zeros 4) (by simpa [zeros_length] using h')]
    split
    · exact failed_setError _ rfl
    · have hf := failed_r (xs := ⟨some (.notEnough (zeros 4).length b.length), true, []⟩)
        (getU32 (b ++ List.drop b.length (zeros 4))).toNat ⟨rfl, rfl⟩
      exact failed_rw _ hf.1
  · simp only [xdrString, err_reader, encoding_reader, Bool.false_eq_true, if_false,
      rw_reader p r (zeros 4) (by simp [hp, zeros_length])]
    simp only [not_within (getU32_le p)]
    split
    · exact failed_setError _ rfl
    · rename_i hw
      rcases h' with h' | h' | ⟨d, s, rfl, hd, h'⟩
      · exact absurd h' hw
      · rw [r_short r _ h']
        exact failed_rw _ ⟨rfl, rfl⟩
      · rw [← hd, r_reader]
        simp only [goElems, Option.getD_some]
        rw [rw_short s _ (by rw [zeros_length, padLen_eq]; exact h')]
        exact ⟨rfl, rfl⟩

theorem array_reader (d q rest v : List UInt8) (h : d.length = v.length)
    (hq : q.length = pad d.length) :
    xdrArray (makeReader (d ++ q ++ rest)) v = (makeReader rest, d) := by
  rw [List.append_assoc]
  simp only [xdrArray, err_reader, Bool.false_eq_true, if_false, rw_reader d _ v h]
  by_cases h0 : d.length % 4 = 0
  · have hp : q = [] := by
      rw [(pad_zero_iff _).mpr h0] at hq; exact List.eq_nil_of_length_eq_zero hq
    simp [h0, hp]
  · simp only [ne_eq, h0, not_false_eq_true, if_true, pad_reader q rest _ hq]

theorem array_fail (b v : List UInt8) (h : b.length < v.length + pad v.length) :
    Failed (xdrArray (makeReader b) v).1 ∧ (xdrArray (makeReader b) v).2.length = v.length := by
  simp only [xdrArray, err_reader, Bool.false_eq_true, if_false]
  rcases short_or_split b v.length with h' | ⟨d, s, rfl, hd⟩
  · rw [rw_short b v h']
    refine ⟨?_, by simp; omega⟩
    simp only []
    split
    · exact failed_rw _ ⟨rfl, rfl⟩
    · exact ⟨rfl, rfl⟩
  · rw [rw_reader d s v hd]
    refine ⟨?_, hd⟩
    have h1 : s.length < pad d.length := by rw [hd]; simp at h; omega
    have h0 : d.length % 4 ≠ 0 := by
      intro h0; rw [(pad_zero_iff _).mpr h0] at h1; omega
    simp only [ne_eq, h0, not_false_eq_true, if_true]
    rw [rw_short s _ (by rw [zeros_length, padLen_eq]; exact h1)]
    exact ⟨rfl, rfl⟩

end Verif.Xdr
