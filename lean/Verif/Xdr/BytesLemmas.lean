/- Helper lemmas: the library's shifts and masks compute the big-endian images of the spec. -/
import Verif.Xdr.Lib
import Verif.Spec.Bytes

namespace Verif.Xdr
open Verif.Spec

@[simp] theorem be_length (n x : Nat) : (be n x).length = n := by
  induction n generalizing x with
  | zero => rfl
  | succ n ih => simp [be, ih]

theorem beVal_append (b : List UInt8) (c : UInt8) : beVal (b ++ [c]) = beVal b * 256 + c.toNat := by
  simp [beVal]

theorem beVal_be (n x : Nat) : beVal (be n x) = x % 256 ^ n := by
  induction n generalizing x with
  | zero => simp [be, beVal, Nat.mod_one]
  | succ n ih =>
    rw [be, beVal_append, ih]
    simp
    rw [Nat.pow_succ', Nat.mod_mul]
    omega

theorem beVal_lt (b : List UInt8) : beVal b < 256 ^ b.length := by
  suffices h : ∀ r : List UInt8, beVal r.reverse < 256 ^ r.length by
    simpa using h b.reverse
  intro r
  induction r with
  | nil => simp [beVal]
  | cons c r ih =>
    rw [List.reverse_cons, beVal_append, List.length_cons, Nat.pow_succ']
    have := c.toNat_lt
    simp at this
    omega

theorem be_beVal (b : List UInt8) : be b.length (beVal b) = b := by
  suffices h : ∀ r : List UInt8, be r.length (beVal r.reverse) = r.reverse by
    simpa using h b.reverse
  intro r
  induction r with
  | nil => simp [be]
  | cons c r ih =>
    have hc := c.toNat_lt
    simp at hc
    rw [List.reverse_cons, beVal_append, List.length_cons, be]
    have h1 : (beVal r.reverse * 256 + c.toNat) / 256 = beVal r.reverse := by omega
    have h2 : (beVal r.reverse * 256 + c.toNat) % 256 = c.toNat := by omega
    rw [h1, h2, ih]
    simp

theorem be_inj {n x y : Nat} (hx : x < 256 ^ n) (hy : y < 256 ^ n) (h : be n x = be n y) :
    x = y := by
  have := congrArg beVal h
  rwa [beVal_be, beVal_be, Nat.mod_eq_of_lt hx, Nat.mod_eq_of_lt hy] at this

theorem putU32_eq_be (x : UInt32) : putU32 x = be 4 x.toNat := by
  simp [putU32, be]
  refine ⟨?_, ?_, ?_, ?_⟩ <;>
    (apply UInt8.toNat.inj; simp [Nat.shiftRight_eq_div_pow]) <;> omega

theorem putU64_eq_be (x : UInt64) : putU64 x = be 8 x.toNat := by
  simp [putU64, be]
  refine ⟨?_, ?_, ?_, ?_, ?_, ?_, ?_, ?_⟩ <;>
    (apply UInt8.toNat.inj; simp [Nat.shiftRight_eq_div_pow]) <;> omega

theorem or_shift (x y k : Nat) (h : x < 2 ^ k) : x ||| (y <<< k) = x + y * 2 ^ k := by
  rw [Nat.or_comm, ← Nat.shiftLeft_add_eq_or_of_lt h, Nat.shiftLeft_eq]; omega

theorem getU32_toNat' (a b c d : UInt8) :
    (getU32 [a, b, c, d]).toNat = beVal [a, b, c, d] := by
  have ha := a.toNat_lt; have hb := b.toNat_lt; have hc := c.toNat_lt; have hd := d.toNat_lt
  simp [getU32, beVal]
  repeat rw [Nat.mod_eq_of_lt (by simp [Nat.shiftLeft_eq]; omega)]
  rw [or_shift _ _ 8 (by omega), or_shift _ _ 16 (by omega), or_shift _ _ 24 (by omega)]
  omega

theorem getU64_toNat' (a b c d e f g h : UInt8) :
    (getU64 [a, b, c, d, e, f, g, h]).toNat = beVal [a, b, c, d, e, f, g, h] := by
  have ha := a.toNat_lt; have hb := b.toNat_lt; have hc := c.toNat_lt; have hd := d.toNat_lt
  have he := e.toNat_lt; have hf := f.toNat_lt; have hg := g.toNat_lt; have hh := h.toNat_lt
  simp [getU64, beVal]
  repeat rw [Nat.mod_eq_of_lt (by simp [Nat.shiftLeft_eq]; omega)]
  rw [or_shift _ _ 8 (by omega), or_shift _ _ 16 (by omega), or_shift _ _ 24 (by omega),
    or_shift _ _ 32 (by omega), or_shift _ _ 40 (by omega), or_shift _ _ 48 (by omega),
    or_shift _ _ 56 (by omega)]
  omega

theorem length_eq_four {b : List UInt8} (h : b.length = 4) :
    ∃ x y z w, b = [x, y, z, w] := by
  match b, h with
  | [x, y, z, w], _ => exact ⟨x, y, z, w, rfl⟩

theorem length_eq_eight {b : List UInt8} (h : b.length = 8) :
    ∃ x y z w p q r s, b = [x, y, z, w, p, q, r, s] := by
  match b, h with
  | [x, y, z, w, p, q, r, s], _ => exact ⟨x, y, z, w, p, q, r, s, rfl⟩

theorem getU32_toNat {b : List UInt8} (h : b.length = 4) : (getU32 b).toNat = beVal b := by
  obtain ⟨x, y, z, w, rfl⟩ := length_eq_four h
  exact getU32_toNat' ..

theorem getU64_toNat {b : List UInt8} (h : b.length = 8) : (getU64 b).toNat = beVal b := by
  obtain ⟨x, y, z, w, p, q, r, s, rfl⟩ := length_eq_eight h
  exact getU64_toNat' ..

@[simp] theorem putU32_length (x : UInt32) : (putU32 x).length = 4 := rfl
@[simp] theorem putU64_length (x : UInt64) : (putU64 x).length = 8 := rfl

@[simp] theorem getU32_putU32 (x : UInt32) : getU32 (putU32 x) = x := by
  apply UInt32.toNat.inj
  rw [getU32_toNat (by simp), putU32_eq_be, beVal_be]
  have := x.toNat_lt
  omega

@[simp] theorem getU64_putU64 (x : UInt64) : getU64 (putU64 x) = x := by
  apply UInt64.toNat.inj
  rw [getU64_toNat (by simp), putU64_eq_be, beVal_be]
  have := x.toNat_lt
  omega

theorem putU32_getU32 {b : List UInt8} (h : b.length = 4) : putU32 (getU32 b) = b := by
  rw [putU32_eq_be, getU32_toNat h, ← h, be_beVal]

theorem putU64_getU64 {b : List UInt8} (h : b.length = 8) : putU64 (getU64 b) = b := by
  rw [putU64_eq_be, getU64_toNat h, ← h, be_beVal]

theorem padLen_eq (n : Nat) : padLen n = pad n := by
  unfold padLen pad; omega

theorem pad_zero_iff (n : Nat) : pad n = 0 ↔ n % 4 = 0 := by
  unfold pad; omega

@[simp] theorem zeros_eq (n : Nat) : zeros n = zeroBytes n := rfl

@[simp] theorem zeroBytes_length (n : Nat) : (zeroBytes n).length = n := by simp [zeroBytes]

theorem int32_toNat (x : Int32) : x.toUInt32.toNat = twos 32 x.toInt := by
  unfold twos
  have h := Int32.toInt_toBitVec x
  have : x.toUInt32.toNat = x.toBitVec.toNat := rfl
  rw [this, ← h, BitVec.toInt_eq_toNat_cond]
  have := x.toBitVec.isLt
  split <;> omega

theorem int64_toNat (x : Int64) : x.toUInt64.toNat = twos 64 x.toInt := by
  unfold twos
  have h := Int64.toInt_toBitVec x
  have : x.toUInt64.toNat = x.toBitVec.toNat := rfl
  rw [this, ← h, BitVec.toInt_eq_toNat_cond]
  have := x.toBitVec.isLt
  split <;> omega

end Verif.Xdr
