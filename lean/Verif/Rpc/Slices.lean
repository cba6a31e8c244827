/-
Decoding with aliasing visible: readers and decoded `[]byte` values as ranges of one memory, the
request buffer.  `Verif.Xdr.Lib` has the same functions on values; `xdrVarArrayV_eq` says that they
agree as long as the memory is the one the decoding saw.

Only what C35 needs: `xdrR` (which is the one function of /repo/xdr/lib.go that does not copy) and
its caller `XdrVarArray` while decoding.  `XdrString` converts to a string, which copies.
-/
import Verif.Xdr.LibLemmas
import Verif.Spec.Bytes

namespace Verif.Rpc
open Verif.Xdr Verif.Spec

/-- A part of the memory. -/
structure Range where
  off : Nat
  len : Nat
  deriving DecidableEq, Repr

/-- Its contents. -/
def Range.get (mem : List UInt8) (r : Range) : List UInt8 := (mem.drop r.off).take r.len

/-- An `*XdrState` (lib.go:10-19) that reads from the memory: `buf` is a range of it. -/
structure View where
  err : Option XErr
  buf : Range
  deriving DecidableEq, Repr

/-- The state as `Verif.Xdr.Lib` has it. -/
def View.state (mem : List UInt8) (x : View) : XdrState := ⟨x.err, true, x.buf.get mem⟩

/-- `xdrRW` (lib.go:74-89) of a zeroed array of `n` bytes: copies out of the memory. -/
def xdrRWV (mem : List UInt8) (x : View) (n : Nat) : View × List UInt8 :=
  if x.err.isSome then (x, zeros n)
  else
    let k := min n x.buf.len
    let v := (x.buf.get mem).take k ++ zeros (n - k)
    let x' := { x with buf := ⟨x.buf.off + k, x.buf.len - k⟩ }
    if k < n then ({ x' with err := some (.notEnough n k) }, v) else (x', v)

/-- `xdrR` (lib.go:91-103): `xs.buf[:n:n]` is a part of the memory. -/
def xdrRV (x : View) (n : Nat) : View × Option Range :=
  let x := if x.buf.len < n then { x with err := some (.notEnough n x.buf.len) } else x
  if x.err.isSome then (x, none)
  else ({ x with buf := ⟨x.buf.off + n, x.buf.len - n⟩ }, some ⟨x.buf.off, n⟩)

/-- The decoding part of `XdrVarArray` (lib.go:191-223). -/
def xdrVarArrayV (mem : List UInt8) (x : View) (maxlen : Int) (v : Option Range) : View × Option Range :=
  if x.err.isSome then (x, v)
  else
    let (x, szbuf) := xdrRWV mem x 4
    let sz := (getU32 szbuf).toNat
    if maxlen ≥ 0 ∧ (sz : Int) > maxlen then ({ x with err := some (.msg "var array too large") }, v)
    else
      let (x, v) := xdrRV x sz
      let n := (v.map Range.len).getD 0
      let x := if n % 4 ≠ 0 then (xdrRWV mem x (padLen n)).1 else x
      (x, v)

/-- The range lies in the memory. -/
def Range.In (mem : List UInt8) (r : Range) : Prop := r.off + r.len ≤ mem.length

theorem Range.get_length {mem : List UInt8} {r : Range} (h : r.In mem) : (r.get mem).length = r.len := by
  simp only [Range.get, Range.In] at *
  simp; omega

theorem Range.get_drop (mem : List UInt8) (r : Range) (k : Nat) :
    (⟨r.off + k, r.len - k⟩ : Range).get mem = (r.get mem).drop k := by
  simp only [Range.get, List.drop_take, List.drop_drop]

theorem Range.get_take (mem : List UInt8) (r : Range) {k : Nat} (h : k ≤ r.len) :
    (⟨r.off, k⟩ : Range).get mem = (r.get mem).take k := by
  simp only [Range.get, List.take_take, Nat.min_eq_left h]

theorem xdrRWV_eq {mem : List UInt8} {x : View} (h : x.buf.In mem) (n : Nat) :
    xdrRW (x.state mem) (zeros n) = ((xdrRWV mem x n).1.state mem, (xdrRWV mem x n).2) ∧
      (xdrRWV mem x n).1.buf.In mem := by
  have hl := Range.get_length h
  have hz : (zeros n).length = n := by simp [zeros]
  have hd : ∀ k, (zeros n).drop k = zeros (n - k) := fun k => by simp [zeros]
  unfold xdrRW xdrRWV
  cases he : x.err.isSome with
  | true => simp [View.state, he, h]
  | false =>
    have hin : (⟨x.buf.off + min n x.buf.len, x.buf.len - min n x.buf.len⟩ : Range).In mem := by
      simp only [Range.In] at *; omega
    simp only [View.state, he, Bool.false_eq_true, if_false, if_true, hz, hl, hd]
    by_cases hn : min n x.buf.len < n
    · simp only [hn, if_true, Range.get_drop]; exact ⟨trivial, hin⟩
    · simp only [hn, if_false, Range.get_drop]; exact ⟨trivial, hin⟩

theorem xdrRV_eq {mem : List UInt8} {x : View} (h : x.buf.In mem) (n : Nat) :
    xdrR (x.state mem) n = ((xdrRV x n).1.state mem, (xdrRV x n).2.map (·.get mem)) ∧
      (xdrRV x n).1.buf.In mem ∧ ∀ r, (xdrRV x n).2 = some r → r.len = n ∧ r.In mem := by
  have hl := Range.get_length h
  unfold xdrR xdrRV
  by_cases hn : x.buf.len < n
  · simp [View.state, hl, hn, h]
  · cases he : x.err.isSome with
    | true => simp [View.state, hl, hn, he, h]
    | false =>
      have h1 : (⟨x.buf.off + n, x.buf.len - n⟩ : Range).In mem := by simp only [Range.In] at *; omega
      have h2 : (⟨x.buf.off, n⟩ : Range).In mem := by simp only [Range.In] at *; omega
      simp only [View.state, hl, hn, he, if_false, Bool.false_eq_true, Range.get_drop, Option.map_some,
        Range.get_take mem x.buf (Nat.le_of_not_lt hn), Option.some.injEq]
      exact ⟨trivial, h1, fun r hr => by subst hr; exact ⟨rfl, h2⟩⟩

/-- `XdrVarArray` on values is `XdrVarArray` on ranges, read. -/
theorem xdrVarArrayV_eq {mem : List UInt8} {x : View} (h : x.buf.In mem) (mx : Int) (v : Option Range)
    (hv : ∀ r, v = some r → r.In mem) :
    xdrVarArray (x.state mem) mx (v.map (·.get mem)) =
      ((xdrVarArrayV mem x mx v).1.state mem, (xdrVarArrayV mem x mx v).2.map (·.get mem)) ∧
    ∀ r, (xdrVarArrayV mem x mx v).2 = some r → r.In mem := by
  unfold xdrVarArray xdrVarArrayV
  cases he : x.err.isSome with
  | true => simp only [View.state, he, if_true]; exact ⟨trivial, hv⟩
  | false =>
    have henc : encoding (x.state mem) = false := by simp [encoding, View.state]
    have he' : (x.state mem).err.isSome = false := he
    simp only [he', henc, Bool.false_eq_true, if_false]
    obtain ⟨h1, h2⟩ := xdrRWV_eq h 4
    rw [h1]
    generalize xdrRWV mem x 4 = y at h2
    obtain ⟨y, sz⟩ := y
    dsimp only at h2 ⊢
    by_cases hm : mx ≥ 0 ∧ ((getU32 sz).toNat : Int) > mx
    · simp only [hm, and_self, if_true]
      exact ⟨rfl, hv⟩
    · simp only [hm, if_false]
      obtain ⟨g1, g2, g3⟩ := xdrRV_eq h2 (getU32 sz).toNat
      rw [g1]
      generalize xdrRV y (getU32 sz).toNat = z at g2 g3
      obtain ⟨z, r⟩ := z
      dsimp only at g2 g3 ⊢
      have hlen : goLen (r.map (·.get mem)) = (r.map Range.len).getD 0 := by
        cases r with
        | none => rfl
        | some r => exact Range.get_length (g3 r rfl).2
      rw [hlen]
      refine ⟨?_, fun r' hr => (g3 r' hr).2⟩
      by_cases hn : (r.map Range.len).getD 0 % 4 ≠ 0
      · rw [if_pos hn, if_pos hn, (xdrRWV_eq g2 _).1]
      · rw [if_neg hn, if_neg hn]

/-- An argument of type `opaque<>` is decoded to a range of the request, right behind its length. -/
theorem xdrVarArrayV_opaque (mem d rest : List UInt8) (off : Nat) (hd : d.length < 2 ^ 32)
    (hm : mem.drop off = opaqueVar d ++ rest) :
    (xdrVarArrayV mem ⟨none, ⟨off, mem.length - off⟩⟩ (-1) none).2 = some ⟨off + 4, d.length⟩ := by
  have h4 : (be 4 d.length).length = 4 := be_length _ _
  have hget : (⟨off, mem.length - off⟩ : Range).get mem = opaqueVar d ++ rest := by
    rw [Range.get, hm, List.take_of_length_le]
    rw [← hm, List.length_drop]; exact Nat.le_refl _
  have hlen : mem.length - off = (opaqueVar d ++ rest).length := by rw [← hm, List.length_drop]
  have hge : 4 + d.length ≤ mem.length - off := by rw [hlen]; simp [opaqueVar]
  have hz : zeros (4 - 4) = [] := rfl
  have h1 : xdrRWV mem ⟨none, ⟨off, mem.length - off⟩⟩ 4 =
      (⟨none, ⟨off + 4, mem.length - off - 4⟩⟩, be 4 d.length) := by
    simp only [xdrRWV, Option.isSome_none, Bool.false_eq_true, if_false, hget]
    rw [Nat.min_eq_left (by omega), if_neg (by omega), hz]
    rw [List.append_nil, opaqueVar, List.append_assoc, List.append_assoc, List.take_left' h4]
  have h2 : (getU32 (be 4 d.length)).toNat = d.length := by
    rw [getU32_toNat h4, beVal_be]; exact Nat.mod_eq_of_lt (by omega)
  have h3 : ∀ y : View, y.err = none → y.buf = ⟨off + 4, mem.length - off - 4⟩ →
      (xdrRV y d.length).2 = some ⟨off + 4, d.length⟩ := by
    intro y he hb
    have : ¬ mem.length - off - 4 < d.length := by omega
    simp only [xdrRV, hb, this, if_false, he, Option.isSome_none, Bool.false_eq_true]
  simp only [xdrVarArrayV, Option.isSome_none, Bool.false_eq_true, if_false, h1]
  rw [if_neg (by omega), h2]
  exact h3 _ rfl rfl

end Verif.Rpc
