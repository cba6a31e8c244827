/-
Lemmas on reading records from a transport.
-/
import Verif.Rpc.Stream
import Verif.Spec.Rpc
import Verif.Xdr.LibLemmas
import Mathlib.Data.Nat.Bitwise

namespace Verif.Rpc
open Verif.Xdr Verif.Spec

theorem readFullFrom_ok (got : List UInt8) (n : Nat) (cs : Chunks) (h : n ≤ cs.flatten.length) :
    (readFullFrom got n cs).1 = .ok (got ++ cs.flatten.take n) ∧
    (readFullFrom got n cs).2.flatten = cs.flatten.drop n := by
  induction cs generalizing got n with
  | nil =>
    have : n = 0 := by simpa using h
    subst this; simp [readFullFrom]
  | cons c cs ih =>
    cases n with
    | zero => simp [readFullFrom]
    | succ n =>
      simp only [readFullFrom]
      by_cases hc : c.length ≤ n + 1
      · rw [if_pos hc]
        have := ih (got ++ c) (n + 1 - c.length) (by rw [List.flatten_cons, List.length_append] at h; omega)
        rw [this.1, this.2]
        simp only [List.flatten_cons, List.take_append, List.drop_append, List.append_assoc]
        simp [List.take_of_length_le hc, List.drop_eq_nil_of_le hc]
      · rw [if_neg hc]
        have h0 : n + 1 - c.length = 0 := by omega
        simp [List.take_append, List.drop_append, h0]

theorem readFullFrom_err (got : List UInt8) (n : Nat) (cs : Chunks) (h : cs.flatten.length < n) :
    readFullFrom got n cs =
      (.error (if (got ++ cs.flatten).isEmpty then .eof else .unexpectedEOF), []) := by
  induction cs generalizing got n with
  | nil =>
    cases n with
    | zero => simp at h
    | succ n => simp [readFullFrom]
  | cons c cs ih =>
    cases n with
    | zero => simp at h
    | succ n =>
      simp only [readFullFrom]
      simp only [List.flatten_cons, List.length_append] at h
      rw [if_pos (by omega), ih _ _ (by omega)]
      simp [List.append_assoc]

theorem readFull_ok {n : Nat} {cs : Chunks} (p rest : List UInt8) (h : cs.flatten = p ++ rest)
    (hp : p.length = n) : ∃ cs', readFull n cs = (.ok p, cs') ∧ cs'.flatten = rest := by
  have := readFullFrom_ok [] n cs (by rw [h]; simp; omega)
  refine ⟨(readFull n cs).2, ?_, ?_⟩
  · unfold readFull
    ext1
    · rw [this.1, h, ← hp]; simp
    · rfl
  · unfold readFull; rw [this.2, h, ← hp]; simp

theorem readFull_err {n : Nat} {cs : Chunks} (h : cs.flatten.length < n) :
    readFull n cs = (.error (if cs.flatten.isEmpty then .eof else .unexpectedEOF), []) :=
  readFullFrom_err [] n cs h

/-! ### The record mark -/

theorem getU32_be (x : Nat) : getU32 (be 4 x) = UInt32.ofNat x := by
  rw [← UInt32.toNat_inj, getU32_toNat (be_length _ _), beVal_be, UInt32.toNat_ofNat']

theorem mark_bit {x : Nat} (h : x < 2 ^ 32) :
    (UInt32.ofNat x &&& ((1 : UInt32) <<< 31) = 0) ↔ x < 2 ^ 31 := by
  have h1 : ((1 : UInt32) <<< 31).toNat = 2 ^ 31 := by decide
  rw [← UInt32.toNat_inj, UInt32.toNat_and, h1, UInt32.toNat_ofNat', Nat.mod_eq_of_lt h, Nat.and_two_pow,
    Nat.testBit_eq_decide_div_mod_eq]
  show _ = 0 ↔ _
  simp
  omega

theorem mark_len {x : Nat} (h : x < 2 ^ 32) :
    (UInt32.ofNat x &&& 0x7fffffff).toNat = x % 2 ^ 31 := by
  have h1 : (0x7fffffff : UInt32).toNat = 2 ^ 31 - 1 := by decide
  rw [UInt32.toNat_and, h1, UInt32.toNat_ofNat', Nat.mod_eq_of_lt h, Nat.and_two_pow_sub_one_eq_mod]

/-! ### One iteration of the loop -/

theorem readRequest_short {cs : Chunks} (h : cs.flatten.length < 4) :
    (readRequest cs).1 = .error (.read (if cs.flatten.isEmpty then .eof else .unexpectedEOF)) := by
  simp only [readRequest, readFull_err h]

theorem readRequest_fragment {cs : Chunks} {n : Nat} {rest : List UInt8} (h : cs.flatten = be 4 n ++ rest)
    (hn : n < 2 ^ 31) : (readRequest cs).1 = .error .fragment := by
  obtain ⟨cs', h1, -⟩ := readFull_ok (be 4 n) rest h (be_length _ _)
  simp only [readRequest, h1, getU32_be, mark_bit (show n < 2 ^ 32 by omega), hn,
    if_true]

theorem readRequest_shortBody {cs : Chunks} {n : Nat} {part : List UInt8}
    (h : cs.flatten = be 4 (2 ^ 31 + n) ++ part) (hn : n < 2 ^ 31) (hp : part.length < n) :
    (readRequest cs).1 = .error (.read (if part.isEmpty then .eof else .unexpectedEOF)) := by
  obtain ⟨cs', h1, h2⟩ := readFull_ok (be 4 (2 ^ 31 + n)) part h (be_length _ _)
  have hx : 2 ^ 31 + n < 2 ^ 32 := by omega
  have h3 : ¬ 2 ^ 31 + n < 2 ^ 31 := by omega
  have h4 : (2 ^ 31 + n) % 2 ^ 31 = n := by omega
  have h5 : readFull n cs' = _ := readFull_err (by rw [h2]; exact hp)
  simp only [readRequest, h1, getU32_be, mark_bit hx, h3, if_false, mark_len hx, h4, h5, h2]

theorem readRequest_record {cs : Chunks} {m r rest : List UInt8} (hr : IsRecord m r)
    (h : cs.flatten = r ++ rest) : ∃ cs', readRequest cs = (.ok m, cs') ∧ cs'.flatten = rest := by
  obtain ⟨hm, rfl⟩ := hr
  rw [List.append_assoc] at h
  obtain ⟨cs', h1, h2⟩ := readFull_ok (be 4 (2 ^ 31 + m.length)) (m ++ rest) h (be_length _ _)
  have hx : 2 ^ 31 + m.length < 2 ^ 32 := by omega
  have h3 : ¬ 2 ^ 31 + m.length < 2 ^ 31 := by omega
  have h4 : (2 ^ 31 + m.length) % 2 ^ 31 = m.length := by omega
  obtain ⟨cs'', h5, h6⟩ := readFull_ok m rest h2 rfl
  refine ⟨cs'', ?_, h6⟩
  simp only [readRequest, h1, getU32_be, mark_bit hx, h3, if_false, mark_len hx, h4, h5]

/-- Every byte string is a sequence of records and an end. -/
theorem stream_total (b : List UInt8) : ∃ ms e, Stream b ms e := by
  induction hn : b.length using Nat.strongRecOn generalizing b with
  | _ n ih =>
    by_cases h0 : b.length = 0
    · have : b = [] := List.eq_nil_of_length_eq_zero h0
      subst this; exact ⟨_, _, .clean⟩
    rcases short_or_split b 4 with h | ⟨p, r, rfl, hp⟩
    · exact ⟨_, _, .short b (by omega) h⟩
    have hpb : p = be 4 (beVal p) := by rw [← hp, be_beVal]
    have hlt : beVal p < 2 ^ 32 := by have := beVal_lt p; rw [hp] at this; omega
    by_cases hx : beVal p < 2 ^ 31
    · rw [hpb]; exact ⟨_, _, .fragment _ _ hx⟩
    obtain ⟨k, hk⟩ : ∃ k, beVal p = 2 ^ 31 + k := ⟨beVal p - 2 ^ 31, by omega⟩
    rw [hpb, hk]
    rcases short_or_split r k with h | ⟨m, rest, rfl, hm⟩
    · exact ⟨_, _, .shortBody k r (by omega) h⟩
    · obtain ⟨ms, e, hs⟩ := ih rest.length (by simp at hn; omega) rest rfl
      subst hm
      exact ⟨_, _, by
        rw [← List.append_assoc]; exact .record m _ rest ms e ⟨by omega, rfl⟩ hs⟩

theorem total_eq (cs : Chunks) : cs.total = cs.flatten.length := by
  simp [Chunks.total, List.length_flatten]

end Verif.Rpc
