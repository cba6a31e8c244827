/-
PROPERTY C53: the text of package xdr.

The earlier properties are about definitions written by hand after the code.  Those from here on are about the text
of the files itself: `goProg` is what xdr/lib.go, xdr/types.go, xdr/helper.go, rfc1057/xdr.go, rfc1057/client.go and
rfc1057/server.go parse to (Verif.Lang.Ast), and `callN` runs it.
-/
import Verif.Lang.TypesSpec
import Verif.Lang.Read
import Verif.Lang.DemoNet
import Verif.Props.Library

namespace Verif.Props
open Verif.Xdr Verif.Spec Verif.Lang

variable {ω : Type} [Others]

/-- The program: the packages made of what the files parse to, and any others. -/
theorem C53_program : ∃ lib helper types rpcTypes rpcXdr client server,
    readFile libText.flatten = some lib ∧ readFile helperText.flatten = some helper ∧ readFile typesText.flatten = some types ∧
    readFile Inst.Rfc1057.typesText.flatten.flatten = some rpcTypes ∧ readFile Inst.Rfc1057.codeText.flatten.flatten = some rpcXdr ∧
    readFile clientText.flatten = some client ∧ readFile serverText.flatten = some server ∧
    goProg = mkPkg "xdr" [lib, helper, types] :: mkPkg "rfc1057" [rpcTypes, rpcXdr, client, server] :: Others.ps :=
  ⟨_, _, _, _, _, _, _, readLib, readHelper, readTypes, readRpcTypes, readRpcXdr, readClient, readServer, rfl⟩

/-- Calling the function (with calls nested at most `n` deep) ends without panic, and `Q` holds of the results and the
state then. -/
def Ends (E : Ext ω) (n : Nat) (key : FKey) (args : List V) (st : St ω) (Q : List V → St ω → Prop) : Prop :=
  ∃ r st', callN goProg E n key args st = .ok (r, st') ∧ Q r st'

theorem ends_iff {E : Ext ω} {n : Nat} {key : FKey} {args : List V} {st : St ω} {Q : List V → St ω → Prop} :
    Ends E n key args st Q ↔ wp (callN goProg E n key args) Q st := wp_iff.symm

attribute [local irreducible] wp

theorem encode_scalar {τ : Type} {E : Ext ω} {T : String} {c : τ → V} {f : XdrState → τ → XdrState × τ}
    (h : Codec E 3 (.meth T "Xdr") (Scalar c) f) (hf : ∀ xs y, (f xs y).1.reader = xs.reader) (hT : T ≠ "") {y : τ} {l : List UInt8}
    (hw : f (makeWriter []) y = (makeWriter l, y)) {st : St ω} {t : Nat} (ht : st.heap t = c y) (hlt : t < st.next) :
    Ends E 4 (.fn "xdr" "EncodeBuf") [.ptr T ⟨t, []⟩] st fun r st' => ∃ b c, r = [b, .nil] ∧ st.next ≤ c ∧ BytesAt st' c b l ∧
      (∀ j, j < st.next → st'.heap j = st.heap j) ∧ st.next ≤ st'.next ∧ st'.world = st.world := by
  refine ends_iff.2 (wp_mono (EncodeBuf_spec E 2 (h.xdrs hf hT t) ⟨hlt, ht⟩) ?_)
  rintro _ st' ⟨b, e, k, rfl, hk, hb, he, hR, hfr, hn, hwo⟩
  rw [hw] at hb he hR
  cases he
  refine ⟨b, k, rfl, hk, hb, fun j hj => ?_, hn, hwo⟩
  by_cases hjt : j = t
  · subst hjt; exact hR.trans ht.symm
  · exact hfr j hj hjt

theorem decode_scalar {τ : Type} {E : Ext ω} {T : String} {c : τ → V} {f : XdrState → τ → XdrState × τ}
    (h : Codec E 3 (.meth T "Xdr") (Scalar c) f) (hf : ∀ xs y, (f xs y).1.reader = xs.reader) (hT : T ≠ "") {y : τ} {l : List UInt8}
    {st : St ω} {t k : Nat} {b : V} (ht : st.heap t = c y) (hlt : t < st.next) (hb : BytesAt st k b l) (hc : k < st.next) (hne : t ≠ k) :
    Ends E 4 (.fn "xdr" "DecodeBuf") [b, .ptr T ⟨t, []⟩] st fun r st' => ∃ e, r = [e] ∧ ErrRel e (f (makeReader l) y).1.err ∧
      st'.heap t = c (f (makeReader l) y).2 ∧
      (∀ j, j < st.next → j ≠ t → st'.heap j = st.heap j) ∧ st.next ≤ st'.next ∧ st'.world = st.world :=
  ends_iff.2 (DecodeBuf_spec E 2 (h.xdrs hf hT t) ⟨hlt, ht⟩ hb hc (Ne.symm hne))

theorem Ends.mono {E : Ext ω} {n : Nat} {key : FKey} {args : List V} {st : St ω} {Q Q' : List V → St ω → Prop} (h : Ends E n key args st Q)
    (hq : ∀ r st', Q r st' → Q' r st') : Ends E n key args st Q' := by
  obtain ⟨r, st', h1, h2⟩ := h
  exact ⟨r, st', h1, hq _ _ h2⟩

section
variable (xs : XdrState)
theorem reader_bool (y : Bool) : (xdrBool xs y).1.reader = xs.reader := by
  simp only [xdrBool]
  split
  · rfl
  · split <;> split <;> (try split) <;> exact rw_reader_eq _ _
theorem reader_s32 (y : Int32) : (xdrS32 xs y).1.reader = xs.reader := by
  simp only [xdrS32]
  split
  · rfl
  · split <;> split <;> exact rw_reader_eq _ _
theorem reader_u64 (y : UInt64) : (xdrU64 xs y).1.reader = xs.reader := by
  simp only [xdrU64]
  split
  · rfl
  · split <;> split <;> exact rw_reader_eq _ _
theorem reader_s64 (y : Int64) : (xdrS64 xs y).1.reader = xs.reader := by
  simp only [xdrS64]
  split
  · rfl
  · split <;> split <;> exact rw_reader_eq _ _
end

/-- The values of the types of xdr/types.go, and their encodings (RFC 4506). -/
inductive IsScalar : String → V → List UInt8 → Prop
  | bool (b : Bool) : IsScalar "xdr.Bool" (.bool b) (be 4 (if b then 1 else 0))
  | u32 (x : UInt32) : IsScalar "xdr.Uint32" (.u32 x) (be 4 x.toNat)
  | i32 (x : Int32) : IsScalar "xdr.Int32" (.i32 x) (be 4 (twos 32 x.toInt))
  | u64 (x : UInt64) : IsScalar "xdr.Uint64" (.u64 x) (be 8 x.toNat)
  | i64 (x : Int64) : IsScalar "xdr.Int64" (.i64 x) (be 8 (twos 64 x.toInt))
  | void : IsScalar "xdr.Void" (.struct "xdr.Void" []) []

theorem IsScalar.bool_inv {v : V} {l : List UInt8} (h : IsScalar "xdr.Bool" v l) : ∃ x, v = .bool x ∧ l = be 4 (if x then 1 else 0) := by
  generalize hT : "xdr.Bool" = U at h
  cases h <;> first | exact absurd hT (by decide) | exact ⟨_, rfl, rfl⟩

theorem IsScalar.u32_inv {v : V} {l : List UInt8} (h : IsScalar "xdr.Uint32" v l) : ∃ x, v = .u32 x ∧ l = be 4 x.toNat := by
  generalize hT : "xdr.Uint32" = U at h
  cases h <;> first | exact absurd hT (by decide) | exact ⟨_, rfl, rfl⟩

theorem IsScalar.i32_inv {v : V} {l : List UInt8} (h : IsScalar "xdr.Int32" v l) : ∃ x, v = .i32 x ∧ l = be 4 (twos 32 x.toInt) := by
  generalize hT : "xdr.Int32" = U at h
  cases h <;> first | exact absurd hT (by decide) | exact ⟨_, rfl, rfl⟩

theorem IsScalar.u64_inv {v : V} {l : List UInt8} (h : IsScalar "xdr.Uint64" v l) : ∃ x, v = .u64 x ∧ l = be 8 x.toNat := by
  generalize hT : "xdr.Uint64" = U at h
  cases h <;> first | exact absurd hT (by decide) | exact ⟨_, rfl, rfl⟩

theorem IsScalar.i64_inv {v : V} {l : List UInt8} (h : IsScalar "xdr.Int64" v l) : ∃ x, v = .i64 x ∧ l = be 8 (twos 64 x.toInt) := by
  generalize hT : "xdr.Int64" = U at h
  cases h <;> first | exact absurd hT (by decide) | exact ⟨_, rfl, rfl⟩

theorem IsScalar.void_inv {v : V} {l : List UInt8} (h : IsScalar "xdr.Void" v l) : v = .struct "xdr.Void" [] ∧ l = [] := by
  generalize hT : "xdr.Void" = U at h
  cases h <;> first | exact absurd hT (by decide) | exact ⟨rfl, rfl⟩

/-- `data, err := xdr.EncodeBuf(&v)` for a variable `v` of such a type, in the cell `t`: the bytes are those of the RFC,
there is no error, and no memory that there was changes. -/
theorem C53_encode (E : Ext ω) {T : String} {v : V} {l : List UInt8} (hv : IsScalar T v l) {st : St ω} {t : Nat}
    (ht : st.heap t = v) (hlt : t < st.next) :
    Ends E 4 (.fn "xdr" "EncodeBuf") [.ptr T ⟨t, []⟩] st fun r st' => ∃ b c, r = [b, .nil] ∧ st.next ≤ c ∧ BytesAt st' c b l ∧
      (∀ j, j < st.next → st'.heap j = st.heap j) ∧ st.next ≤ st'.next ∧ st'.world = st.world := by
  cases hv with
  | bool x => exact encode_scalar (Bool_codec E 0) reader_bool (by decide) (C02_encode [] x) ht hlt
  | u32 x => exact encode_scalar (Uint32_codec E 0) u32_reader (by decide) (C01_u32_encode [] x) ht hlt
  | i32 x => exact encode_scalar (Int32_codec E 0) reader_s32 (by decide) (C01_s32_encode [] x) ht hlt
  | u64 x => exact encode_scalar (Uint64_codec E 0) reader_u64 (by decide) (C01_u64_encode [] x) ht hlt
  | i64 x => exact encode_scalar (Int64_codec E 0) reader_s64 (by decide) (C01_s64_encode [] x) ht hlt
  | void => exact encode_scalar (Void_codec E 2) (fun _ _ => rfl) (by decide) (y := ()) rfl ht hlt

/-- `err := xdr.DecodeBuf(data, &v)`, when `data` begins with the encoding of `v'`: there is no error, `v` becomes `v'`
and nothing else changes. -/
theorem C53_decode (E : Ext ω) {T : String} {v v' : V} {l l' rest : List UInt8} (hv : IsScalar T v l) (hv' : IsScalar T v' l')
    {st : St ω} {t c : Nat} {b : V} (ht : st.heap t = v) (hlt : t < st.next) (hb : BytesAt st c b (l' ++ rest)) (hc : c < st.next) (hne : t ≠ c) :
    Ends E 4 (.fn "xdr" "DecodeBuf") [b, .ptr T ⟨t, []⟩] st fun r st' => r = [.nil] ∧ st'.heap t = v' ∧
      (∀ j, j < st.next → j ≠ t → st'.heap j = st.heap j) ∧ st.next ≤ st'.next ∧ st'.world = st.world := by
  cases hv with
  | bool x =>
    obtain ⟨x', rfl, rfl⟩ := hv'.bool_inv
    refine (decode_scalar (Bool_codec E 0) reader_bool (by decide) ht hlt hb hc hne).mono ?_
    rintro _ st' ⟨e, rfl, he, hr⟩
    obtain ⟨y, hy, hz⟩ := C02_decode (be 4 (if x' then 1 else 0)) rest x (be_length 4 _)
    rw [hy] at he hr
    cases he
    obtain rfl : y = x' := by cases x' <;> cases y <;> first | rfl | exact absurd hz (by decide)
    exact ⟨rfl, hr⟩
  | u32 x =>
    obtain ⟨x', rfl, rfl⟩ := hv'.u32_inv
    refine (decode_scalar (Uint32_codec E 0) u32_reader (by decide) ht hlt hb hc hne).mono ?_
    rintro _ st' ⟨e, rfl, he, hr⟩
    rw [C01_u32_decode] at he hr
    cases he
    exact ⟨rfl, hr⟩
  | i32 x =>
    obtain ⟨x', rfl, rfl⟩ := hv'.i32_inv
    refine (decode_scalar (Int32_codec E 0) reader_s32 (by decide) ht hlt hb hc hne).mono ?_
    rintro _ st' ⟨e, rfl, he, hr⟩
    rw [C01_s32_decode] at he hr
    cases he
    exact ⟨rfl, hr⟩
  | u64 x =>
    obtain ⟨x', rfl, rfl⟩ := hv'.u64_inv
    refine (decode_scalar (Uint64_codec E 0) reader_u64 (by decide) ht hlt hb hc hne).mono ?_
    rintro _ st' ⟨e, rfl, he, hr⟩
    rw [C01_u64_decode] at he hr
    cases he
    exact ⟨rfl, hr⟩
  | i64 x =>
    obtain ⟨x', rfl, rfl⟩ := hv'.i64_inv
    refine (decode_scalar (Int64_codec E 0) reader_s64 (by decide) ht hlt hb hc hne).mono ?_
    rintro _ st' ⟨e, rfl, he, hr⟩
    rw [C01_s64_decode] at he hr
    cases he
    exact ⟨rfl, hr⟩
  | void =>
    obtain ⟨rfl, rfl⟩ := hv'.void_inv
    refine (decode_scalar (Void_codec E 2) (fun _ _ => rfl) (by decide) (y := ()) ht hlt hb hc hne).mono ?_
    rintro _ st' ⟨e, rfl, he, hr⟩
    cases he
    exact ⟨rfl, hr⟩

/-- The same when `data` is shorter than any encoding of the type: there is an error, and nothing changes. -/
theorem C53_short (E : Ext ω) {T : String} {v : V} {l l' : List UInt8} (hv : IsScalar T v l)
    {st : St ω} {t c : Nat} {b : V} (ht : st.heap t = v) (hlt : t < st.next) (hb : BytesAt st c b l') (hc : c < st.next) (hne : t ≠ c)
    (hs : l'.length < l.length) :
    Ends E 4 (.fn "xdr" "DecodeBuf") [b, .ptr T ⟨t, []⟩] st fun r st' => (∃ m vs, r = [.err m vs]) ∧
      (∀ j, j < st.next → st'.heap j = st.heap j) ∧ st.next ≤ st'.next ∧ st'.world = st.world := by
  have fin : ∀ {e : V} {r : XdrState} {st' : St ω}, ErrRel e r.err → r.err.isSome → st'.heap t = v →
      (∀ j, j < st.next → j ≠ t → st'.heap j = st.heap j) ∧ st.next ≤ st'.next ∧ st'.world = st.world →
      (∃ m vs, [e] = [V.err m vs]) ∧ (∀ j, j < st.next → st'.heap j = st.heap j) ∧ st.next ≤ st'.next ∧ st'.world = st.world := by
    intro e r st' he hs hv hr
    refine ⟨?_, fun j hj => ?_, hr.2⟩
    · cases hre : r.err with
      | none => rw [hre] at hs; cases hs
      | some x => rw [hre] at he; cases he <;> exact ⟨_, _, rfl⟩
    · by_cases h : j = t
      · subst h; rw [hv, ht]
      · exact hr.1 j hj h
  cases hv with
  | bool x =>
    have := C02_short l' (by rw [be_length] at hs; exact hs) x
    refine (decode_scalar (Bool_codec E 0) reader_bool (by decide) ht hlt hb hc hne).mono ?_
    rintro _ st' ⟨e, rfl, he, h1, hr⟩
    exact fin he this.1 (by rw [h1, this.2]) hr
  | u32 x =>
    have := (C01_short l').1 (by rw [be_length] at hs; exact hs) x
    refine (decode_scalar (Uint32_codec E 0) u32_reader (by decide) ht hlt hb hc hne).mono ?_
    rintro _ st' ⟨e, rfl, he, h1, hr⟩
    exact fin he this.1 (by rw [h1, this.2]) hr
  | i32 x =>
    have := (C01_short l').2.1 (by rw [be_length] at hs; exact hs) x
    refine (decode_scalar (Int32_codec E 0) reader_s32 (by decide) ht hlt hb hc hne).mono ?_
    rintro _ st' ⟨e, rfl, he, h1, hr⟩
    exact fin he this.1 (by rw [h1, this.2]) hr
  | u64 x =>
    have := (C01_short l').2.2.1 (by rw [be_length] at hs; exact hs) x
    refine (decode_scalar (Uint64_codec E 0) reader_u64 (by decide) ht hlt hb hc hne).mono ?_
    rintro _ st' ⟨e, rfl, he, h1, hr⟩
    exact fin he this.1 (by rw [h1, this.2]) hr
  | i64 x =>
    have := (C01_short l').2.2.2 (by rw [be_length] at hs; exact hs) x
    refine (decode_scalar (Int64_codec E 0) reader_s64 (by decide) ht hlt hb hc hne).mono ?_
    rintro _ st' ⟨e, rfl, he, h1, hr⟩
    exact fin he this.1 (by rw [h1, this.2]) hr
  | void => simp at hs

/-! ### Strings and byte arrays

`Xs st x a w xs` says that in the state `st` the cell `x` holds the `XdrState` `xs`, with its buffer in the cell `a` when
it reads and in `w` when it writes (a cell other than `x`, or `x` when there is no array yet). -/

/-- `xdr.XdrString(xs, max, &v)` when writing. -/
theorem C53_string_encode (E : Ext ω) {st : St ω} {x a w t : Nat} {buf l : List UInt8} (h : Xs st x a w (makeWriter buf)) (T : String)
    (ht : st.heap t = .str l) (hlt : t < st.next) (h1 : t ≠ x) (h2 : t ≠ a) (h3 : t ≠ w) (max : Option Nat) :
    Ends E 2 (.fn "xdr" "XdrString") [.ptr "" ⟨x, []⟩, .int (maxInt max), .ptr T ⟨t, []⟩] st fun r st' => r = [] ∧ st'.heap t = .str l ∧
      (withinMax max l.length → ∃ w', Xs st' x a w' (makeWriter (buf ++ opaqueVar l))) ∧
      (¬ withinMax max l.length → ∃ w' xs', Xs st' x a w' xs' ∧ xs'.err.isSome ∧ xs'.buf = buf) := by
  refine ends_iff.2 (wp_mono (XdrString_spec E 0 h (maxInt max) T t [] l (by rw [ht, at_nil]) hlt h1 h2 h3) ?_)
  rintro r st' ⟨rfl, ⟨w', hw', hx, hk⟩, hp⟩
  rw [put_nil] at hp
  by_cases hm : withinMax max l.length
  · rw [C04_encode _ _ _ hm] at hx hp
    exact ⟨rfl, (Option.some.inj hp).symm, fun _ => ⟨w', hx⟩, fun h => absurd hm h⟩
  · obtain ⟨xs', h4, h5, h6⟩ := (C06_encode_refuses buf max).2 l hm
    rw [h4] at hx hp
    exact ⟨rfl, (Option.some.inj hp).symm, fun h => absurd h hm, fun _ => ⟨w', xs', hx, h5, h6⟩⟩

/-- `xdr.XdrString(xs, max, &v)` when reading: accepted is exactly what begins with a length within the maximum, that
many bytes and the padding to a multiple of four. -/
theorem C53_string_decode (E : Ext ω) {st : St ω} {x a w t : Nat} {b l : List UInt8} (h : Xs st x a w (makeReader b)) (T : String)
    (ht : st.heap t = .str l) (hlt : t < st.next) (h1 : t ≠ x) (h2 : t ≠ a) (h3 : t ≠ w) (max : Option Nat) :
    Ends E 2 (.fn "xdr" "XdrString") [.ptr "" ⟨x, []⟩, .int (maxInt max), .ptr T ⟨t, []⟩] st fun r st' => r = [] ∧
      (∀ d rest, withinMax max d.length → b = opaqueVar d ++ rest → st'.heap t = .str d ∧ ∃ w', Xs st' x a w' (makeReader rest)) ∧
      ((¬ ∃ d q rest, b = be 4 d.length ++ (d ++ q) ++ rest ∧ withinMax max d.length ∧ q.length = pad d.length) →
        ∃ w' xs', Xs st' x a w' xs' ∧ xs'.err.isSome) := by
  refine ends_iff.2 (wp_mono (XdrString_spec E 0 h (maxInt max) T t [] l (by rw [ht, at_nil]) hlt h1 h2 h3) ?_)
  rintro r st' ⟨rfl, ⟨w', hw', hx, hk⟩, hp⟩
  rw [put_nil] at hp
  refine ⟨rfl, ?_, fun hn => ⟨w', _, hx, ?_⟩⟩
  · rintro d rest hm rfl
    rw [C04_decode _ _ _ _ hm] at hx hp
    exact ⟨(Option.some.inj hp).symm, w', hx⟩
  · have := (C04_accepts b max l).not.2 hn
    cases he : (xdrString (makeReader b) (maxInt max) l).1.err with
    | none => exact absurd he this
    | some _ => rfl

/-- `xdr.XdrVarArray(xs, max, &v)` when writing; `v` is `nil` or a slice. -/
theorem C53_bytes_encode (E : Ext ω) {st : St ω} {x a w t : Nat} {buf : List UInt8} {v : V} {o : GoBytes} (h : Xs st x a w (makeWriter buf))
    (T : String) (ht : st.heap t = v) (hg : GoB st v o) (hs : ∀ s, v = .slice s → s.base.id < st.next ∧ s.base.id ≠ x ∧ s.base.id ≠ w)
    (hlt : t < st.next) (h1 : t ≠ x) (h2 : t ≠ a) (h3 : t ≠ w) (max : Option Nat) :
    Ends E 2 (.fn "xdr" "XdrVarArray") [.ptr "" ⟨x, []⟩, .int (maxInt max), .ptr T ⟨t, []⟩] st fun r st' => r = [] ∧ GoB st' (st'.heap t) o ∧
      (withinMax max (goLen o) → ∃ w', Xs st' x a w' (makeWriter (buf ++ opaqueVar (goElems o)))) ∧
      (¬ withinMax max (goLen o) → ∃ w' xs', Xs st' x a w' xs' ∧ xs'.err.isSome ∧ xs'.buf = buf) := by
  refine ends_iff.2 (wp_mono (XdrVarArray_spec E 0 h (maxInt max) T t [] v o (by rw [ht, at_nil]) hg hs hlt h1 h2 h3) ?_)
  rintro r st' ⟨rfl, ⟨w', hw', hx, hk⟩, v', hp, hgo, _⟩
  rw [put_nil] at hp
  cases hp
  by_cases hm : withinMax max (goLen o)
  · rw [C03_encode _ _ _ hm] at hx hgo
    exact ⟨rfl, hgo, fun _ => ⟨w', hx⟩, fun h => absurd hm h⟩
  · obtain ⟨xs', h4, h5, h6⟩ := (C06_encode_refuses buf max).1 o hm
    rw [h4] at hx hgo
    exact ⟨rfl, hgo, fun h => absurd h hm, fun _ => ⟨w', xs', hx, h5, h6⟩⟩

/-- `xdr.XdrVarArray(xs, max, &v)` when reading. -/
theorem C53_bytes_decode (E : Ext ω) {st : St ω} {x a w t : Nat} {b : List UInt8} {v : V} {o : GoBytes} (h : Xs st x a w (makeReader b))
    (T : String) (ht : st.heap t = v) (hg : GoB st v o) (hs : ∀ s, v = .slice s → s.base.id < st.next ∧ s.base.id ≠ x ∧ s.base.id ≠ w)
    (hlt : t < st.next) (h1 : t ≠ x) (h2 : t ≠ a) (h3 : t ≠ w) (max : Option Nat) :
    Ends E 2 (.fn "xdr" "XdrVarArray") [.ptr "" ⟨x, []⟩, .int (maxInt max), .ptr T ⟨t, []⟩] st fun r st' => r = [] ∧
      (∀ d rest, withinMax max d.length → b = opaqueVar d ++ rest →
        GoB st' (st'.heap t) (some d) ∧ ∃ w', Xs st' x a w' (makeReader rest)) ∧
      ((¬ ∃ d q rest, b = be 4 d.length ++ (d ++ q) ++ rest ∧ withinMax max d.length ∧ q.length = pad d.length) →
        ∃ w' xs', Xs st' x a w' xs' ∧ xs'.err.isSome) := by
  refine ends_iff.2 (wp_mono (XdrVarArray_spec E 0 h (maxInt max) T t [] v o (by rw [ht, at_nil]) hg hs hlt h1 h2 h3) ?_)
  rintro r st' ⟨rfl, ⟨w', hw', hx, hk⟩, v', hp, hgo, _⟩
  rw [put_nil] at hp
  cases hp
  refine ⟨rfl, ?_, fun hn => ⟨w', _, hx, ?_⟩⟩
  · rintro d rest hm rfl
    rw [C03_decode _ _ _ _ hm] at hx hgo
    exact ⟨hgo, w', hx⟩
  · have := (C03_accepts b max o).not.2 hn
    cases he : (xdrVarArray (makeReader b) (maxInt max) o).1.err with
    | none => exact absurd he this
    | some _ => rfl

/-- `xdr.XdrArray(xs, v[:])` when writing, for a variable `v` that is an array. -/
theorem C53_array_encode (E : Ext ω) {st : St ω} {x a w t : Nat} {buf d : List UInt8} (h : Xs st x a w (makeWriter buf))
    (ht : st.heap t = .bytes d) (hlt : t < st.next) (h1 : t ≠ x) (h2 : t ≠ a) (h3 : t ≠ w) :
    Ends E 2 (.fn "xdr" "XdrArray") [.ptr "" ⟨x, []⟩, .slice ⟨⟨t, []⟩, 0, d.length, d.length⟩] st fun r st' => r = [] ∧
      st'.heap t = .bytes d ∧ ∃ w', Xs st' x a w' (makeWriter (buf ++ opaqueFixed d)) := by
  have hsub : sub ⟨⟨t, []⟩, 0, d.length, d.length⟩ d = d := by simp [sub]
  refine ends_iff.2 (wp_mono (XdrArray_spec E 0 h ⟨⟨t, []⟩, 0, d.length, d.length⟩ d ⟨by rw [ht, at_nil], by simp, by simp⟩ hlt h1 h2 h3) ?_)
  rintro r st' ⟨rfl, ⟨w', hw', hx, hk⟩, hp⟩
  rw [hsub, C05_encode] at hx hp
  rw [put_nil] at hp
  refine ⟨rfl, ?_, w', hx⟩
  rw [← Option.some.inj hp]
  simp [overwrite]

/-- `xdr.XdrArray(xs, v[:])` when reading: the array keeps its size, and there is an error exactly when there is too
little data. -/
theorem C53_array_decode (E : Ext ω) {st : St ω} {x a w t : Nat} {b d : List UInt8} (h : Xs st x a w (makeReader b))
    (ht : st.heap t = .bytes d) (hlt : t < st.next) (h1 : t ≠ x) (h2 : t ≠ a) (h3 : t ≠ w) :
    Ends E 2 (.fn "xdr" "XdrArray") [.ptr "" ⟨x, []⟩, .slice ⟨⟨t, []⟩, 0, d.length, d.length⟩] st fun r st' => r = [] ∧
      (∀ d' rest, d'.length = d.length → b = opaqueFixed d' ++ rest → st'.heap t = .bytes d' ∧ ∃ w', Xs st' x a w' (makeReader rest)) ∧
      ∃ w' xs' d', Xs st' x a w' xs' ∧ (xs'.err = none ↔ d.length + pad d.length ≤ b.length) ∧ st'.heap t = .bytes d' ∧ d'.length = d.length := by
  have hsub : sub ⟨⟨t, []⟩, 0, d.length, d.length⟩ d = d := by simp [sub]
  refine ends_iff.2 (wp_mono (XdrArray_spec E 0 h ⟨⟨t, []⟩, 0, d.length, d.length⟩ d ⟨by rw [ht, at_nil], by simp, by simp⟩ hlt h1 h2 h3) ?_)
  rintro r st' ⟨rfl, ⟨w', hw', hx, hk⟩, hp⟩
  rw [hsub] at hx hp
  rw [put_nil] at hp
  have hp' := (Option.some.inj hp).symm
  have hl := (C05_accepts b d).2
  have ho : overwrite d 0 (xdrArray (makeReader b) d).2 = (xdrArray (makeReader b) d).2 := by
    simp [overwrite, hl]
  rw [ho] at hp'
  refine ⟨rfl, ?_, w', _, _, hx, (C05_accepts b d).1, hp', hl⟩
  rintro d' rest hd rfl
  rw [C05_decode _ _ _ hd] at hx hp'
  exact ⟨hp', w', hx⟩

/-! ### A concrete case -/

/-- The state with a variable `x := xdr.Uint32(37)` in the cell 0, six bytes in the cell 1 and the string `abc` in the
cell 2. -/
def start53 : St Net :=
  { heap := fun j => if j = 0 then .u32 37 else if j = 1 then .bytes [0, 0, 1, 2, 9, 9] else .str [97, 98, 99]
    next := 3, world := ⟨[], [], true, none, []⟩, defers := [] }

/-- `EncodeBuf(&x)` gives 0, 0, 0, 37 and `DecodeBuf(data, &x)` sets `x` to 258. -/
example : (Ends net 4 (.fn "xdr" "EncodeBuf") [.ptr "xdr.Uint32" ⟨0, []⟩] start53 fun r st' => ∃ b c, r = [b, .nil] ∧ BytesAt st' c b [0, 0, 0, 37]) ∧
    (Ends net 4 (.fn "xdr" "DecodeBuf") [.slice ⟨⟨1, []⟩, 0, 6, 6⟩, .ptr "xdr.Uint32" ⟨0, []⟩] start53 fun r st' => r = [.nil] ∧ st'.heap 0 = .u32 258) :=
  ⟨(C53_encode net (.u32 37) (st := start53) (t := 0) rfl (by decide)).mono fun _ _ ⟨b, c, h1, _, h2, _⟩ => ⟨b, c, h1, h2⟩,
   (C53_decode net (.u32 37) (.u32 258) (rest := [9, 9]) (st := start53) (t := 0) (c := 1) rfl (by decide)
    (.slice ⟨⟨1, []⟩, 0, 6, 6⟩ [0, 0, 1, 2, 9, 9] ⟨rfl, by decide, by decide⟩ rfl) (by decide) (by decide)).mono
      fun _ _ ⟨h1, h2, _⟩ => ⟨h1, h2⟩⟩

/-- Two bytes are too few for an unsigned integer, and `x` stays 37. -/
example : Ends net 4 (.fn "xdr" "DecodeBuf") [.slice ⟨⟨1, []⟩, 4, 2, 2⟩, .ptr "xdr.Uint32" ⟨0, []⟩] start53
    fun r st' => (∃ m vs, r = [.err m vs]) ∧ st'.heap 0 = .u32 37 :=
  (C53_short net (.u32 37) (l' := [9, 9]) (st := start53) (t := 0) (c := 1) rfl (by decide)
    (.slice ⟨⟨1, []⟩, 4, 2, 2⟩ [0, 0, 1, 2, 9, 9] ⟨rfl, by decide, by decide⟩ rfl) (by decide) (by decide) (by decide)).mono
      fun _ _ ⟨h1, h2, _⟩ => ⟨h1, h2 0 (by decide)⟩

/-- A new writer in the cell 3 and a reader of `xdr`-encoded "hi" in the cell 4. -/
def start53' : St Net :=
  { start53 with
    heap := fun j => if j = 3 then .struct "xdr.XdrState" [("err", .nil), ("reader", .bool false), ("buf", .nil)]
      else if j = 4 then .struct "xdr.XdrState" [("err", .nil), ("reader", .bool true), ("buf", .slice ⟨⟨5, []⟩, 0, 8, 8⟩)]
      else if j = 5 then .bytes [0, 0, 0, 2, 104, 105, 0, 0] else start53.heap j
    next := 6 }

example : Ends net 2 (.fn "xdr" "XdrString") [.ptr "" ⟨3, []⟩, .int 3, .ptr "" ⟨2, []⟩] start53'
    fun r st' => r = [] ∧ ∃ w', Xs st' 3 3 w' (makeWriter [0, 0, 0, 3, 97, 98, 99, 0]) :=
  (C53_string_encode net (st := start53') (x := 3) (a := 3) (w := 3) (t := 2) (buf := []) (l := [97, 98, 99])
    ⟨⟨.nil, .nil, rfl, .none, .nil, by simp [makeWriter]⟩, by decide, by decide, by decide, rfl⟩ "" rfl (by decide) (by decide) (by decide)
    (by decide) (some 3)).mono fun _ _ ⟨h1, _, h2, _⟩ => ⟨h1, h2 (by simp [withinMax])⟩

example : Ends net 2 (.fn "xdr" "XdrString") [.ptr "" ⟨4, []⟩, .int 3, .ptr "" ⟨2, []⟩] start53'
    fun r st' => r = [] ∧ st'.heap 2 = .str [104, 105] :=
  (C53_string_decode net (st := start53') (x := 4) (a := 5) (w := 4) (t := 2) (b := [0, 0, 0, 2, 104, 105, 0, 0]) (l := [97, 98, 99])
    ⟨⟨.nil, _, rfl, .none, .slice ⟨⟨5, []⟩, 0, 8, 8⟩ [0, 0, 0, 2, 104, 105, 0, 0] ⟨rfl, by decide, by decide⟩ rfl, by simp [makeReader]⟩,
      by decide, by decide, by decide, rfl⟩ "" rfl (by decide) (by decide) (by decide)
    (by decide) (some 3)).mono fun _ _ ⟨h1, h2, _⟩ => ⟨h1, (h2 [104, 105] [] (by simp [withinMax]) (by decide)).1⟩

end Verif.Props
