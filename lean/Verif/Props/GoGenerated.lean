/-
PROPERTY C64: generated packages, as Go text.

`q` is a package whose declarations are those that the generator prints for the specification `s` (`IsText`, in
Lang/GenLink.lean: the constants, the types and the methods `Xdr`, as syntax trees of Go); it may have others.  The
program consists of package xdr, as read from its files, of `q`, and of any other packages.
`W` is everything outside of the program (Lang/Sem.lean); `2 ^ 32 ≤ W.loops`: a loop may go round so many times (a
loop over the elements of an array of `2 ^ 32 - 1` elements has to).
`HasValue st t y`: the variable in the cell `t` of the memory has the Go value `y`.
`Typed`, `Denotes`, `IsValue`, `Reads`, `enc`, `Clean` are as in Props/Codec.lean.
-/
import Verif.Lang.GenBuf
import Verif.Lang.GenShipped
import Verif.Props.Codec
import Verif.Props.Typing

namespace Verif.Props
open Verif.Xdr Verif.Spec Verif.Gen Verif.Lang Verif.Lang.Text

variable {ω : Type}

attribute [local irreducible] wp callN

/-- Calling the function ends without panic whenever calls may be nested deep enough, and `Q` holds of the results and
the state then. -/
def GivesBack (P : Prog) (W : Ext ω) (key : FKey) (args : List V) (st : St ω) (Q : List V → St ω → Prop) : Prop :=
  ∃ N, ∀ n, N ≤ n → ∃ r st', callN P W n key args st = .ok (r, st') ∧ Q r st'

/-- The variable in the cell `t` has the value `y`; what it points to is elsewhere. -/
def HasValue (st : St ω) (t : Nat) (y : GoVal) : Prop := t < st.next ∧ Rep st (· ≠ t) (st.heap t) y

theorem GivesBack.mono {P : Prog} {W : Ext ω} {key : FKey} {args : List V} {st : St ω} {Q R : List V → St ω → Prop}
    (h : GivesBack P W key args st Q) (hq : ∀ r st', Q r st' → R r st') : GivesBack P W key args st R := by
  obtain ⟨N, h⟩ := h
  refine ⟨N, fun n hn => ?_⟩
  obtain ⟨r, st', h1, h2⟩ := h n hn
  exact ⟨r, st', h1, hq r st' h2⟩

/-- The program: package xdr, the generated package, others. -/
abbrev progWith (q : Pkg) (Qs : Prog) : Prog := xdrPkg :: q :: Qs

/-- The type `n` of the specification, in the generated package. -/
abbrev goName (q : Pkg) (n : Ident) : String := q.name ++ "." ++ i n

section
variable {fl : Flags} {s : Gen.Spec} {g : GoProg} {q : Pkg} {Ps : Prog}

theorem supported_of (hc : compilable fl s = true) : supported fl s = true := by
  simp only [compilable, Bool.and_eq_true] at hc
  exact hc.1.1.1.1

theorem callOK_text (hg : generate fl s = some g) (hc : compilable fl s = true) (hct : fl.constType ∈ constTypes) (T : IsText g q) (hq : Has Ps q)
    (hd : '.' ∉ q.name.toList) (W : Ext ω) (hW : 2 ^ 32 ≤ W.loops) (k j : Nat) (n : Ident) :
    CallOK (Sem.mk (xdrPkg :: Ps) (callN (xdrPkg :: Ps) W (k + j + 2)) W.ext W.spawn W.grow W.loops : Sem ω) q.name (i n)
      (codecN g (defsOf fl s) j (i n)) :=
  calls (prints_text (compilable_comp hg hc).1 T hq hct (supported_of hc) hd) hW k j (i n)
end

section
variable {fl : Flags} {s : Gen.Spec} {g : GoProg} {q : Pkg} (Qs : Prog) (hg : generate fl s = some g) (hc : compilable fl s = true)
  (hct : fl.constType ∈ constTypes) (T : IsText g q) (hq : q.name ≠ "xdr") (hd : '.' ∉ q.name.toList)
  (W : Ext ω) (hW : 2 ^ 32 ≤ W.loops)

local notation "E" => envOf fl.unsignedEnum s

include hg hc hct T hq hd hW in
/-- **C64** `data, err := xdr.EncodeBuf(&v)`, for a variable `v` of a generated type: the value stands for exactly one
XDR value `x`.  If `x` respects all bounds, `data` is its RFC 4506 image, in memory of its own, and `err` is nil;
otherwise `err` is an error.  No memory that there was changes, nor does anything outside of the program. -/
theorem C64_encode {n : Ident} {y : GoVal} (hy : Typed E n y) {st : St ω} {t : Nat} (ht : HasValue st t y) :
    ∃ x, Denotes E n y x ∧ (∀ x', Denotes E n y x' → x' = x) ∧
      GivesBack (progWith q Qs) W (.fn "xdr" "EncodeBuf") [.ptr (goName q n) ⟨t, []⟩] st fun r st' =>
        ∃ b e, r = [b, e] ∧ (IsValue E n x → e = .nil ∧ ∃ c, st.next ≤ c ∧ BytesAt st' c b (enc x)) ∧
          (¬ IsValue E n x → ∃ m vs, e = .err m vs) ∧
          (∀ j, j < st.next → st'.heap j = st.heap j) ∧ st.next ≤ st'.next ∧ st'.world = st.world := by
  have hs := supported_of hc
  obtain ⟨k, hy⟩ := hy
  obtain ⟨x, hx, h⟩ := codecN_encode (link hg hs) k n y hy
  refine ⟨x, ⟨k, hx⟩, fun x' h' => denotes_unique h' ⟨k, hx⟩, k + 3, fun m hm => ?_⟩
  obtain ⟨m', rfl⟩ : ∃ m', m = m' + k + 3 := ⟨m - k - 3, by omega⟩
  have hR : Rep st (· < st.next) (st.heap t) y := ht.2.mono (fun _ _ _ => rfl) (Nat.le_refl _) fun _ _ h => h
  have hcall := callOK_text hg hc hct T (.head (Qs := Qs) hq) hd W hW m' k n
  have key := fun xs' y' h => wp_iff.mp (EncodeBuf_gen (k := m' + k + 1) hcall (xs' := xs') (y' := y') rfl ht.1 hR h)
  rcases h [] with ⟨h1, h2⟩ | ⟨h1, xs', h2, h3, -⟩
  · obtain ⟨r, st', e1, b, e, c, rfl, hcl, hb, he, hr⟩ := key _ _ h2
    cases he
    exact ⟨_, _, e1, b, .nil, rfl, fun _ => ⟨rfl, c, hcl, hb⟩, fun h => absurd h1 h, hr⟩
  · obtain ⟨r, st', e1, b, e, c, rfl, hcl, hb, he, hr⟩ := key _ _ h2
    obtain ⟨z, hz⟩ := Option.isSome_iff_exists.mp h3
    rw [hz] at he
    exact ⟨_, _, e1, b, e, rfl, fun h => absurd h h1, fun _ => he.some', hr⟩

include hg hc hct T hq hd hW in
theorem decode_text {n : Ident} {y : GoVal} (hy : Typed E n y) {st : St ω} {t c : Nat} {b : V} {l : List UInt8} (ht : HasValue st t y)
    (hb : BytesAt st c b l) (hcl : c < st.next) (hne : t ≠ c) :
    GivesBack (progWith q Qs) W (.fn "xdr" "DecodeBuf") [b, .ptr (goName q n) ⟨t, []⟩] st fun r st' => ∃ e y', r = [e] ∧
      HasValue st' t y' ∧ Typed E n y' ∧
      ((e = .nil ∧ ∃ x p rest, l = p ++ rest ∧ IsValue E n x ∧ Reads x p ∧ Fills E (zeroOf g) n y x y') ∨
        ((∃ m vs, e = .err m vs) ∧ ∀ x p rest, IsValue E n x → Reads x p → l ≠ p ++ rest)) ∧
      (∀ j, j < st.next → j ≠ t → st'.heap j = st.heap j) ∧ st.next ≤ st'.next ∧ st'.world = st.world := by
  have hs := supported_of hc
  obtain ⟨k, hy⟩ := hy
  generalize hF : k + l.length / 4 * g.depth = F
  have h := codecN_decode (link hg hs) (F := F) (Nat.le_of_eq hF) hy
  refine ⟨F + 3, fun m hm => ?_⟩
  obtain ⟨m', rfl⟩ : ∃ m', m = m' + F + 3 := ⟨m - F - 3, by omega⟩
  have hR : Rep st (fun j => j < st.next ∧ j ≠ t) (st.heap t) y := ht.2.mono (fun _ _ _ => rfl) (Nat.le_refl _) fun _ h h' => ⟨h', h⟩
  have hcall := callOK_text hg hc hct T (.head (Qs := Qs) hq) hd W hW m' F n
  have key := fun xs' y' h => wp_iff.mp (DecodeBuf_gen (k := m' + F + 1) hcall (xs' := xs') (y' := y') hb hcl hne rfl ht.1 hR h)
  rcases h with ⟨x, p, rest, v', h1, h2, h3, h4, h5, h6⟩ | ⟨xs', v', h1, h2, h3, h4⟩
  · obtain ⟨r, st', e1, e, rfl, he, hr, hk⟩ := key _ _ h4
    cases he
    exact ⟨_, _, e1, .nil, v', rfl, ⟨by have := ht.1; have := hk.2.1; omega, hr⟩, h6, .inl ⟨rfl, x, p, rest, h1, h3, h2, ⟨F, h5⟩⟩, hk⟩
  · obtain ⟨r, st', e1, e, rfl, he, hr, hk⟩ := key _ _ h1
    obtain ⟨z, hz⟩ := Option.isSome_iff_exists.mp h2.1
    rw [hz] at he
    exact ⟨_, _, e1, e, v', rfl, ⟨by have := ht.1; have := hk.2.1; omega, hr⟩, h3, .inr ⟨he.some', h4⟩, hk⟩

include hg hc hct T hq hd hW in
/-- **C64** `err := xdr.DecodeBuf(data, &v)`, when `data` begins with an image of a value `x` and `v` is clean (as a new
variable is: `C64_new`): there is no error, `v` gets a value that stands for `x`, and no other memory changes. -/
theorem C64_accepts {n : Ident} {y : GoVal} (hy : Typed E n y) (hcl : Clean E n y) {st : St ω} {t c : Nat} {b : V} (ht : HasValue st t y)
    {x : XVal} (hx : IsValue E n x) {p : List UInt8} (hp : Reads x p) (rest : List UInt8)
    (hb : BytesAt st c b (p ++ rest)) (hlt : c < st.next) (hne : t ≠ c) :
    GivesBack (progWith q Qs) W (.fn "xdr" "DecodeBuf") [b, .ptr (goName q n) ⟨t, []⟩] st fun r st' => ∃ y', r = [.nil] ∧
      HasValue st' t y' ∧ Typed E n y' ∧ Denotes E n y' x ∧
      (∀ j, j < st.next → j ≠ t → st'.heap j = st.heap j) ∧ st.next ≤ st'.next ∧ st'.world = st.world := by
  refine (decode_text Qs hg hc hct T hq hd W hW hy ht hb hlt hne).mono ?_
  rintro _ st' ⟨e, y', rfl, h1, h2, ⟨rfl, x', p', rest', h3, h4, h5, h6⟩ | ⟨-, h⟩, hk⟩
  · obtain ⟨rfl, rfl⟩ := unique_named E n x x' p p' rest rest' hx h4 hp h5 h3
    exact ⟨y', rfl, h1, h2, fills_denotes hg (supported_of hc) hcl hx h6, hk⟩
  · exact absurd rfl (h x p rest hx hp)

include hg hc hct T hq hd hW in
/-- **C64** When `data` does not begin with an image of a value of the type, there is an error, whatever `v` was, and no
other memory changes. -/
theorem C64_refuses {n : Ident} {y : GoVal} (hy : Typed E n y) {st : St ω} {t c : Nat} {b : V} {l : List UInt8} (ht : HasValue st t y)
    (hb : BytesAt st c b l) (hlt : c < st.next) (hne : t ≠ c) (hl : ∀ x p rest, IsValue E n x → Reads x p → l ≠ p ++ rest) :
    GivesBack (progWith q Qs) W (.fn "xdr" "DecodeBuf") [b, .ptr (goName q n) ⟨t, []⟩] st fun r st' => ∃ m vs, r = [.err m vs] ∧
      (∀ j, j < st.next → j ≠ t → st'.heap j = st.heap j) ∧ st.next ≤ st'.next ∧ st'.world = st.world := by
  refine (decode_text Qs hg hc hct T hq hd W hW hy ht hb hlt hne).mono ?_
  rintro _ st' ⟨e, y', rfl, h1, h2, ⟨rfl, x', p', rest', h3, h4, h5, h6⟩ | ⟨⟨m, vs, rfl⟩, h⟩, hk⟩
  · exact absurd h3 (hl x' p' rest' h4 h5)
  · exact ⟨m, vs, rfl, hk⟩

include hg hc T hq in
/-- **C64** A new variable (`var v T`): the language's zero value of a declared type is a value of it, and is clean. -/
theorem C64_new {n : Ident} (hn : ((E).typeOf n).isSome) : ∃ v y, (progWith q Qs).zero q.name (.name (i n)) = some v ∧
    Typed E n y ∧ Clean E n y ∧ ∀ (st : St ω) (t : Nat), t < st.next → st.heap t = v → HasValue st t y := by
  have hs := supported_of hc
  obtain ⟨y, h1, h2, h3⟩ := zero_fresh hg hs hn
  obtain ⟨v, hv, hr⟩ := zero_text (Ps := q :: Qs) (compilable_comp hg hc).1 T (.head hq) (t := .named (i n)) (by simp [plainT]) y
    (by rw [GoProg.zero, zeroGo]; exact h1)
  refine ⟨v, y, hv, h2, h3, fun st t ht e => ⟨ht, ?_⟩⟩
  rw [e]
  exact (hr st).mono (fun j h _ => h.elim) (Nat.le_refl _) fun j h _ => h.elim
end

/-! ### A package of the project, and examples -/

/-- **C64** Package rfc1057, as read from the files of the project, is one. -/
theorem C64_rfc1057 [Others] : generate Inst.fl Inst.Rfc1057.spec = some Inst.Rfc1057.prog ∧
    compilable Inst.fl Inst.Rfc1057.spec = true ∧ Inst.fl.constType ∈ constTypes ∧
    IsText Inst.Rfc1057.prog rpcPkg ∧ rpcPkg.name ≠ "xdr" ∧ '.' ∉ rpcPkg.name.toList ∧ goProg = progWith rpcPkg Others.ps :=
  ⟨Inst.Rfc1057.gen, C48_shipped.1.1, by decide, rfc1057_text, by decide, by decide, rfl⟩

section Example
/-- `Opaque_auth{Flavor: AUTH_UNIX, Body: []byte{...}}` -/
def authVal (b : List UInt8) : GoVal := .struct [("Flavor", .u32 1), ("Body", .bytes (some b))]

abbrev rpcEnv : Spec.Env := envOf Inst.fl.unsignedEnum Inst.Rfc1057.spec

theorem authVal_typed (b : List UInt8) : Typed rpcEnv "opaque_auth" (authVal b) := by
  refine ⟨2, _, rfl, ?_⟩
  refine ⟨_, rfl, _, ⟨_, rfl, ?_⟩, _, ⟨_, rfl, _, rfl⟩, rfl⟩
  exact ⟨_, rfl, _, rfl⟩

/-- Memory with the variable in cell 1, and the bytes in cell 0. -/
def authSt (w : ω) (b : List UInt8) : St ω where
  heap := fun k => if k = 0 then .bytes b else
    .struct "rfc1057.Opaque_auth" [("Flavor", .u32 1), ("Body", .slice ⟨⟨0, []⟩, 0, b.length, b.length⟩)]
  next := 2
  world := w
  defers := []

theorem authSt_holds (w : ω) (b : List UInt8) : HasValue (authSt w b) 1 (authVal b) := by
  refine ⟨Nat.lt_succ_self 1, ?_⟩
  have hb : sub ⟨⟨0, []⟩, 0, b.length, b.length⟩ b = b := by simp [sub]
  have h : GoB (authSt w b) (.slice ⟨⟨0, []⟩, 0, b.length, b.length⟩) (some b) := by
    conv => arg 3; rw [← hb]
    exact .slice _ _ ⟨rfl, by simp, Nat.le_refl _⟩
  have hf : RepF (authSt w b) (· ≠ 1) [("Flavor", .u32 1), ("Body", .slice ⟨⟨0, []⟩, 0, b.length, b.length⟩)]
      [("Flavor", .u32 1), ("Body", .bytes (some b))] := by
    refine .cons (.u32 1) (.cons (.bytes h fun s e => ?_) .nil)
    cases e
    exact ⟨Nat.succ_pos 1, Nat.zero_ne_one⟩
  exact .struct hf.1 (by simp) hf.2

theorem auth_value {l : List UInt8} (h : IsValue rpcEnv "opaque_auth" (.struct [.uint 1, .vopaque l])) : l.length ≤ 400 := by
  obtain ⟨k, h⟩ := h
  cases k with
  | zero => exact h.elim
  | succ k =>
    obtain ⟨t, ht, h⟩ := h
    cases ht
    obtain ⟨_, ⟨_, _, -, ⟨_, _, ⟨_, _, h1, h2, h3⟩, h4, h5⟩, h6⟩, h⟩ := h
    cases h
    cases h6
    cases h5
    cases h3
    cases h1
    exact h2.2 _ rfl

theorem auth_isValue {l : List UInt8} (hl : l.length ≤ 400) : IsValue rpcEnv "opaque_auth" (.struct [.uint 1, .vopaque l]) := by
  refine ⟨3, _, rfl, _, ⟨_, _, ⟨_, rfl, 1, by decide, rfl⟩, ⟨_, _, ⟨l, some 400, rfl, ⟨by omega, fun m e => by cases e; exact hl⟩, rfl⟩, rfl, rfl⟩, rfl⟩, rfl⟩

/-- Three bytes are within bounds (`opaque body<400>`). -/
example [Others] (w : ω) (W : Ext ω) (hW : 2 ^ 32 ≤ W.loops) :
    GivesBack goProg W (.fn "xdr" "EncodeBuf") [.ptr "rfc1057.Opaque_auth" ⟨1, []⟩] (authSt w [7, 8, 9]) fun r st' =>
      ∃ b c, r = [b, .nil] ∧ BytesAt st' c b [0, 0, 0, 1, 0, 0, 0, 3, 7, 8, 9, 0] := by
  obtain ⟨h1, h2, h3, h4, h5, h6, -⟩ := C64_rfc1057
  obtain ⟨x, hx, -, h⟩ := C64_encode Others.ps h1 h2 h3 h4 h5 h6 W hW (authVal_typed _) (authSt_holds w [7, 8, 9])
  have hxx : Denotes rpcEnv "opaque_auth" (authVal [7, 8, 9]) (.struct [.uint 1, .vopaque [7, 8, 9]]) := ⟨3, by decide +kernel⟩
  cases denotes_unique hx hxx
  refine h.mono ?_
  rintro _ st' ⟨b, e, rfl, h, -⟩
  obtain ⟨rfl, c, -, hb⟩ := h (auth_isValue (by decide))
  exact ⟨b, c, rfl, hb⟩
/-- 401 bytes are not. -/
example [Others] (w : ω) (W : Ext ω) (hW : 2 ^ 32 ≤ W.loops) :
    GivesBack goProg W (.fn "xdr" "EncodeBuf") [.ptr "rfc1057.Opaque_auth" ⟨1, []⟩] (authSt w (List.replicate 401 0)) fun r _ =>
      ∃ b m vs, r = [b, .err m vs] := by
  obtain ⟨h1, h2, h3, h4, h5, h6, -⟩ := C64_rfc1057
  obtain ⟨x, hx, -, h⟩ := C64_encode Others.ps h1 h2 h3 h4 h5 h6 W hW (authVal_typed _) (authSt_holds w (List.replicate 401 0))
  have hxx : Denotes rpcEnv "opaque_auth" (authVal (List.replicate 401 0)) (.struct [.uint 1, .vopaque (List.replicate 401 0)]) := ⟨3, by decide +kernel⟩
  cases denotes_unique hx hxx
  refine h.mono ?_
  rintro _ st' ⟨b, e, rfl, -, h, -⟩
  obtain ⟨m, vs, rfl⟩ := h fun h => absurd (auth_value h) (by rw [List.length_replicate]; decide)
  exact ⟨b, m, vs, rfl⟩

/-- A new variable in cell 1; the bytes of a slice in cell 0. -/
def newSt (w : ω) (v : V) (b : List UInt8) : St ω := ⟨fun k => if k = 0 then .bytes b else v, 2, w, []⟩

theorem newSt_bytes (w : ω) (v : V) (b : List UInt8) : BytesAt (newSt w v b) 0 (.slice ⟨⟨0, []⟩, 0, b.length, b.length⟩) b := by
  have hb : sub ⟨⟨0, []⟩, 0, b.length, b.length⟩ b = b := by simp [sub]
  conv => arg 4; rw [← hb]
  exact .slice _ _ ⟨rfl, by simp, Nat.le_refl _⟩ rfl

/-- The bytes of a value, followed by another byte, read into a new variable. -/
example [Others] (w : ω) (W : Ext ω) (hW : 2 ^ 32 ≤ W.loops) :
    ∃ v, goProg.zero "rfc1057" (.name "Opaque_auth") = some v ∧
      GivesBack goProg W (.fn "xdr" "DecodeBuf") [.slice ⟨⟨0, []⟩, 0, 13, 13⟩, .ptr "rfc1057.Opaque_auth" ⟨1, []⟩]
        (newSt w v [0, 0, 0, 1, 0, 0, 0, 3, 7, 8, 9, 0, 42]) fun r st' => r = [.nil] ∧ ∃ y', HasValue st' 1 y' ∧
          Denotes rpcEnv "opaque_auth" y' (.struct [.uint 1, .vopaque [7, 8, 9]]) := by
  obtain ⟨h1, h2, h3, h4, h5, h6, -⟩ := C64_rfc1057
  obtain ⟨v, y, hv, hy, hcl, h⟩ := C64_new (ω := ω) Others.ps h1 h2 h4 h5 (n := "opaque_auth") rfl
  refine ⟨v, hv, (C64_accepts Others.ps h1 h2 h3 h4 h5 h6 W hW hy hcl (h (newSt w v _) 1 (Nat.lt_succ_self 1) rfl) (auth_isValue (l := [7, 8, 9]) (by decide))
    (reads_enc _) [42] (newSt_bytes w v _) (Nat.succ_pos 1) Nat.one_ne_zero).mono ?_⟩
  rintro _ st' ⟨y', rfl, h1, h2, h3, -⟩
  exact ⟨rfl, y', h1, h3⟩

/-- A part of a value is refused. -/
example [Others] (w : ω) (W : Ext ω) (hW : 2 ^ 32 ≤ W.loops) :
    ∃ v, goProg.zero "rfc1057" (.name "Opaque_auth") = some v ∧
      GivesBack goProg W (.fn "xdr" "DecodeBuf") [.slice ⟨⟨0, []⟩, 0, 6, 6⟩, .ptr "rfc1057.Opaque_auth" ⟨1, []⟩]
        (newSt w v [0, 0, 0, 1, 0, 0]) fun r _ => ∃ m vs, r = [.err m vs] := by
  obtain ⟨h1, h2, h3, h4, h5, h6, -⟩ := C64_rfc1057
  obtain ⟨v, y, hv, hy, hcl, h⟩ := C64_new (ω := ω) Others.ps h1 h2 h4 h5 (n := "opaque_auth") rfl
  refine ⟨v, hv, (C64_refuses Others.ps h1 h2 h3 h4 h5 h6 W hW hy (h (newSt w v [0, 0, 0, 1, 0, 0]) 1 (Nat.lt_succ_self 1) rfl)
    (newSt_bytes w v [0, 0, 0, 1, 0, 0]) (Nat.succ_pos 1) Nat.one_ne_zero ?_).mono ?_⟩
  · rintro x p rest ⟨k, hx⟩ hp he
    cases k with
    | zero => exact hx.elim
    | succ k =>
      obtain ⟨t, ht, hx⟩ := hx
      cases ht
      obtain ⟨_, ⟨x1, _, h1, ⟨_, _, ⟨_, _, h2, h3, rfl⟩, h4, rfl⟩, rfl⟩, rfl⟩ := hx
      cases k with
      | zero => exact h1.elim
      | succ k =>
        obtain ⟨t, ht, h1⟩ := h1
        cases ht
        obtain ⟨n, -, rfl⟩ := h1
        obtain ⟨_, _, rfl, ⟨_, p3, ⟨p4, -, rfl⟩, -, rfl⟩, rfl⟩ := hp
        have := congrArg List.length he
        simp only [List.length_append, be_length, List.length_cons, List.length_nil] at this
        omega
  · rintro _ st' ⟨m, vs, rfl, -⟩
    exact ⟨m, vs, rfl⟩
end Example
end Verif.Props
