/-
PROPERTIES C07–C18: generated codecs, for every supported specification.

`hg`, `hs`: the package `g` is generated for the specification `s`, and `s` is supported
(`Gen/Supported.lean`).  `E` is the meaning of the names of `s`.  `i n` is the Go name of type `n`.
`Runs g T xs v xs' v'`: the generated method of `T`, called with state `xs` on value `v`, ends
normally and leaves `xs'` and `v'`.
`Typed E n v`: `v` is a value of the Go type of `n`.  `Denotes E n v x`: it stands for the XDR value
`x` (what is to be on the wire).  `IsValue E n x`: `x` is a value of the XDR type `n` (all bounds
respected).  `enc x` is the RFC 4506 image of `x`, `Reads x p` the images a decoder accepts for it
(Spec/Rfc4506.lean, Spec/GoRep.lean).
-/
import Verif.Props.Demo

namespace Verif.Props
open Verif.Xdr Verif.Spec Verif.Gen

section
variable {fl : Flags} {s : Gen.Spec} {g : GoProg} (hg : generate fl s = some g)
  (hs : supported fl s = true)

local notation "E" => envOf fl.unsignedEnum s

/-! ### C07 errors are sticky -/

include hg hs in
theorem C07_generated {n : Ident} {v : GoVal} (hv : Typed E n v) {xs : XdrState}
    (he : xs.err.isSome) : Runs g (i n) xs v xs v := runs_sticky hg hs hv he

/-! ### C08 encoding only appends -/

include hg hs in
theorem C08_append_only {n : Ident} {v : GoVal} (hv : Typed E n v) (w : List UInt8) :
    ∃ xs' v' t, Runs g (i n) (makeWriter w) v xs' v' ∧ xs'.buf = w ++ t := by
  obtain ⟨x, _, h⟩ := runs_encode hg hs hv
  rcases h w with ⟨_, h⟩ | ⟨_, xs', h, _, _, t, ht⟩
  · exact ⟨_, _, enc x, h, rfl⟩
  · exact ⟨_, _, t, h, ht⟩

/-! ### C12 encoders implement RFC 4506 -/

include hg hs in
/-- A typed value stands for exactly one XDR value `x`; if `x` respects all bounds the encoder
appends its RFC image, otherwise it reports an error. -/
theorem C12_encode {n : Ident} {v : GoVal} (hv : Typed E n v) :
    ∃ x, Denotes E n v x ∧ (∀ y, Denotes E n v y → y = x) ∧
      (IsValue E n x → ∀ w, Runs g (i n) (makeWriter w) v (makeWriter (w ++ enc x)) v) ∧
      (¬ IsValue E n x → ∀ w, ∃ xs', Runs g (i n) (makeWriter w) v xs' v ∧ xs'.err.isSome) := by
  obtain ⟨x, hx, h⟩ := runs_encode hg hs hv
  refine ⟨x, hx, fun y hy => denotes_unique hy hx, fun hp w => ?_, fun hp w => ?_⟩
  · rcases h w with ⟨_, h⟩ | ⟨h1, _⟩
    · exact h
    · exact absurd hp h1
  · rcases h w with ⟨h1, _⟩ | ⟨_, xs', h, he, _⟩
    · exact absurd h1 hp
    · exact ⟨xs', h, he⟩

/-! ### C13 decoders accept exactly the wire images -/

include hg hs in
/-- An image of a value, followed by anything, is accepted: the rest is left, and a fresh target
becomes a typed value that stands for the value read.  Components that are not on the wire keep the
zero value of the target (`Fills`). -/
theorem C13_accepts {n : Ident} {z : GoVal} (hz : g.zeroNamed (i n) = some z) {x : XVal}
    (hx : IsValue E n x) {p : List UInt8} (hp : Reads x p) (rest : List UInt8) :
    ∃ v', Runs g (i n) (makeReader (p ++ rest)) z (makeReader rest) v' ∧ Typed E n v' ∧
      Denotes E n v' x ∧ Fills E (zeroOf g) n z x v' := by
  obtain ⟨z', h1, hzt, hzc⟩ := zero_fresh hg hs (isValue_declared hx)
  rw [hz] at h1; cases h1
  rcases runs_decode hg hs hzt (p ++ rest) with ⟨y, q, r, v', h1, h2, h3, h4, h5, h6⟩ | ⟨_, _, _, _, _, _, h⟩
  · obtain ⟨rfl, rfl⟩ := unique_named E n x y p q rest r hx h3 hp h2 h1
    have := List.append_cancel_left h1
    subst this
    exact ⟨v', h4, h6, fills_denotes hg hs hzc hx h5, h5⟩
  · exact absurd rfl (h x p rest hx hp)

include hg hs in
/-- Anything else is refused with an error, whatever the target held. -/
theorem C13_refuses {n : Ident} {v : GoVal} (hv : Typed E n v) {b : List UInt8}
    (hb : ∀ x p rest, IsValue E n x → Reads x p → b ≠ p ++ rest) :
    ∃ xs' v', Runs g (i n) (makeReader b) v xs' v' ∧ xs'.err.isSome := by
  rcases runs_decode hg hs hv b with ⟨x, p, rest, v', h1, h2, h3, _⟩ | ⟨xs', v', h1, h2, _⟩
  · exact absurd h1 (hb x p rest h3 h2)
  · exact ⟨xs', v', h1, h2⟩

include hg hs in
/-- Success means an image was there. -/
theorem C13_success {n : Ident} {v : GoVal} (hv : Typed E n v) {b : List UInt8} {xs' : XdrState}
    {v' : GoVal} (h : Runs g (i n) (makeReader b) v xs' v') (he : xs'.err = none) :
    ∃ x p rest, b = p ++ rest ∧ IsValue E n x ∧ Reads x p ∧ xs' = makeReader rest ∧ Typed E n v' ∧
      (Clean E n v → Denotes E n v' x) := by
  rcases runs_decode hg hs hv b with ⟨x, p, rest, v₁, h1, h2, h3, h4, h5, h6⟩ | ⟨xs₁, v₁, h1, h2, _⟩
  · obtain ⟨rfl, rfl⟩ := h.unique h4
    exact ⟨x, p, rest, h1, h3, h2, rfl, h6, fun hc => fills_denotes hg hs hc h3 h5⟩
  · obtain ⟨rfl, rfl⟩ := h.unique h1
    rw [he] at h2; cases h2

/-! ### C09 decoding consumes a prefix -/

include hg hs in
theorem C09_prefix {n : Ident} {v : GoVal} (hv : Typed E n v) {b : List UInt8} {xs' : XdrState}
    {v' : GoVal} (h : Runs g (i n) (makeReader b) v xs' v') (he : xs'.err = none) :
    ∃ p rest, b = p ++ rest ∧ xs' = makeReader rest ∧
      ∀ other, Runs g (i n) (makeReader (p ++ other)) v (makeReader other) v' := by
  rcases runs_decode hg hs hv b with ⟨x, p, rest, v₁, h1, h2, h3, h4, h5, h6⟩ | ⟨xs₁, v₁, h1, h2, _⟩
  · obtain ⟨rfl, rfl⟩ := h.unique h4
    refine ⟨p, rest, h1, rfl, fun other => ?_⟩
    rcases runs_decode hg hs hv (p ++ other) with ⟨y, q, r, v₂, g1, g2, g3, g4, g5, _⟩ | ⟨_, _, _, _, _, _, g⟩
    · obtain ⟨rfl, rfl⟩ := unique_named E n x y p q other r h3 g3 h2 g2 g1
      have := List.append_cancel_left g1
      subst this
      rwa [fills_unique h5 g5]
    · exact absurd rfl (g x p other h3 h2)
  · obtain ⟨rfl, rfl⟩ := h.unique h1
    rw [he] at h2; cases h2

/-! ### C10 truncated messages are rejected -/

include hg hs in
theorem C10_truncated {n : Ident} {v : GoVal} (hv : Typed E n v) {p rest : List UInt8}
    {v' : GoVal} (h : Runs g (i n) (makeReader (p ++ rest)) v (makeReader rest) v')
    {q r : List UInt8} (hp : p = q ++ r) (hr : r ≠ []) (u : GoVal) (hu : Typed E n u) :
    ∃ xs'' u'', Runs g (i n) (makeReader q) u xs'' u'' ∧ xs''.err.isSome := by
  obtain ⟨x, p', rest', h1, h3, h2, h4, _⟩ := C13_success hg hs hv h rfl
  have hrr : rest' = rest := by cases h4; rfl
  subst hrr
  have hpp := List.append_cancel_right h1
  subst hpp
  apply C13_refuses hg hs hu
  intro y q' t hy hq' hqe
  subst hqe
  have := (unique_named E n x y p q' [] (t ++ r) h3 hy h2 hq' (by rw [hp]; simp)).2
  rw [this] at hp
  have hl : q'.length = (q' ++ t ++ r).length := congrArg List.length hp
  simp only [List.length_append] at hl
  exact hr (List.eq_nil_of_length_eq_zero (by omega))

/-! ### C11 alignment -/

include hg hs in
theorem C11_encode_aligned {n : Ident} {v : GoVal} (hv : Typed E n v) {w : List UInt8}
    {xs' : XdrState} {v' : GoVal} (h : Runs g (i n) (makeWriter w) v xs' v') (he : xs'.err = none) :
    ∃ t, xs'.buf = w ++ t ∧ t.length % 4 = 0 := by
  obtain ⟨x, _, hr⟩ := runs_encode hg hs hv
  rcases hr w with ⟨_, h1⟩ | ⟨_, xs₁, h1, h2, _⟩
  · obtain ⟨rfl, rfl⟩ := h.unique h1
    exact ⟨enc x, rfl, reads_align x _ (reads_enc x)⟩
  · obtain ⟨rfl, rfl⟩ := h.unique h1
    rw [he] at h2; cases h2

include hg hs in
theorem C11_decode_aligned {n : Ident} {v : GoVal} (hv : Typed E n v) {b : List UInt8}
    {xs' : XdrState} {v' : GoVal} (h : Runs g (i n) (makeReader b) v xs' v') (he : xs'.err = none) :
    ∃ p, b = p ++ xs'.buf ∧ p.length % 4 = 0 := by
  obtain ⟨x, p, rest, h1, _, h2, rfl, _⟩ := C13_success hg hs hv h he
  exact ⟨p, h1, reads_align x p h2⟩

/-! ### C14 round trip -/

include hg hs in
/-- `EncodeBuf` of an encodable value yields bytes that decode, whatever follows them, into a value
standing for the same XDR value. -/
theorem C14_round_trip {n : Ident} {v : GoVal} (hv : Typed E n v) {x : XVal} (hd : Denotes E n v x)
    (hx : IsValue E n x) {z : GoVal} (hz : g.zeroNamed (i n) = some z) :
    ∃ bytes v', EncodeBuf g (i n) v bytes none ∧ Denotes E n v' x ∧ Fills E (zeroOf g) n z x v' ∧
      DecodeBuf g (i n) bytes z v' none ∧
      ∀ rest, Runs g (i n) (makeReader (bytes ++ rest)) z (makeReader rest) v' := by
  obtain ⟨y, hy, _, h1, _⟩ := C12_encode hg hs hv
  cases denotes_unique hd hy
  have henc := h1 hx []
  obtain ⟨v', g1, _, g3, g4⟩ := C13_accepts hg hs hz hx (reads_enc x) []
  refine ⟨enc x, v', ⟨_, _, henc, rfl, rfl⟩, g3, g4, ⟨_, by simpa using g1, rfl⟩, fun rest => ?_⟩
  obtain ⟨v₂, k1, _, _, k4⟩ := C13_accepts hg hs hz hx (reads_enc x) rest
  rwa [fills_unique g4 k4]

/-! ### C15 decode-encode-decode -/

include hg hs in
theorem C15_stable {n : Ident} {z : GoVal} (hz : g.zeroNamed (i n) = some z) {b : List UInt8}
    {v : GoVal} (hn : (envOf fl.unsignedEnum s).typeOf n ≠ none)
    (h : DecodeBuf g (i n) b z v none) :
    ∃ bytes, EncodeBuf g (i n) v bytes none ∧ DecodeBuf g (i n) bytes z v none := by
  obtain ⟨xs, h, he⟩ := h
  obtain ⟨z', h1, hzt, hzc⟩ := zero_fresh (n := n) hg hs (Option.isSome_iff_ne_none.mpr hn)
  rw [hz] at h1; cases h1
  rcases runs_decode hg hs hzt b with ⟨x, p, rest, v₁, _, _, h3, h4, h5, h6⟩ | ⟨xs₁, v₁, h1, h2, _⟩
  · obtain ⟨rfl, rfl⟩ := h.unique h4
    have hd := fills_denotes hg hs hzc h3 h5
    obtain ⟨bytes, v', k1, _, k3, k4, _⟩ := C14_round_trip hg hs h6 hd h3 hz
    rw [fills_unique h5 k3]
    exact ⟨bytes, fills_unique h5 k3 ▸ k1, k4⟩
  · obtain ⟨rfl, rfl⟩ := h.unique h1
    have he : none = xs.err := he
    rw [← he] at h2; cases h2

/-! ### C16 encoding does not modify the value -/

include hg hs in
theorem C16_unmodified {n : Ident} {v : GoVal} (hv : Typed E n v) (xs : XdrState)
    (hw : xs.reader = false) :
    (∃ xs', Runs g (i n) xs v xs' v) ∧ ∀ xs' v', Runs g (i n) xs v xs' v' → v' = v := by
  have key : ∃ xs', Runs g (i n) xs v xs' v := by
    by_cases he : xs.err.isSome
    · exact ⟨xs, runs_sticky hg hs hv he⟩
    · have hxs : xs = makeWriter xs.buf := by
        obtain ⟨e, r, b⟩ := xs
        cases e <;> simp_all [makeWriter]
      obtain ⟨x, _, h⟩ := runs_encode hg hs hv
      rw [hxs]
      rcases h xs.buf with ⟨_, h⟩ | ⟨_, xs', h, _⟩
      · exact ⟨_, h⟩
      · exact ⟨_, h⟩
  obtain ⟨xs', h⟩ := key
  exact ⟨⟨xs', h⟩, fun xs'' v' h' => (h'.unique h).2⟩

/-! ### C17 injective and prefix-free -/

include hg hs in
theorem C17_prefix_free {n : Ident} {v₁ v₂ : GoVal} (h₁ : Typed E n v₁) (h₂ : Typed E n v₂)
    {e₁ e₂ t : List UInt8} (r₁ : EncodeBuf g (i n) v₁ e₁ none) (r₂ : EncodeBuf g (i n) v₂ e₂ none)
    (ht : e₂ = e₁ ++ t) : t = [] ∧ ∃ x, Denotes E n v₁ x ∧ Denotes E n v₂ x := by
  have key : ∀ {v e}, Typed E n v → EncodeBuf g (i n) v e none →
      ∃ x, Denotes E n v x ∧ IsValue E n x ∧ e = enc x := by
    intro v e hv ⟨xs, v', hr, hb, he⟩
    obtain ⟨x, hx, h⟩ := runs_encode hg hs hv
    rcases h [] with ⟨h1, h⟩ | ⟨_, xs₁, h, h2, _⟩
    · obtain ⟨rfl, _⟩ := hr.unique h
      exact ⟨x, hx, h1, hb⟩
    · obtain ⟨rfl, _⟩ := hr.unique h
      rw [show xs.err = none from he.symm] at h2; cases h2
  obtain ⟨x, hx, hvx, rfl⟩ := key h₁ r₁
  obtain ⟨y, hy, hvy, rfl⟩ := key h₂ r₂
  obtain ⟨rfl, _⟩ := unique_named E n x y _ _ t [] hvx hvy (reads_enc x) (reads_enc y) (by simp [ht])
  exact ⟨List.self_eq_append_right.mp ht, x, hx, hy⟩

/-! ### C18 no panic, always finishes -/

include hg hs in
/-- From every state (reading or writing, with or without error) and every typed value the method
ends normally and leaves a typed value. -/
theorem C18_total {n : Ident} {v : GoVal} (hv : Typed E n v) (xs : XdrState) :
    ∃ xs' v', Runs g (i n) xs v xs' v' ∧ Typed E n v' := by
  by_cases hw : xs.reader = false
  · obtain ⟨⟨xs', h⟩, _⟩ := C16_unmodified hg hs hv xs hw
    exact ⟨xs', v, h, hv⟩
  · by_cases he : xs.err.isSome
    · exact ⟨xs, v, runs_sticky hg hs hv he, hv⟩
    · have hxs : xs = makeReader xs.buf := by
        obtain ⟨e, r, b⟩ := xs
        cases e <;> cases r <;> simp_all [makeReader]
      rw [hxs]
      rcases runs_decode hg hs hv xs.buf with ⟨x, p, rest, v', _, _, _, h4, _, h6⟩ | ⟨xs', v', h1, _, _, h4, _⟩
      · exact ⟨_, _, h4, h6⟩
      · exact ⟨_, _, h1, h4⟩

end

/-! ### The hypotheses can be met: the specification of `Props/Demo.lean` -/

section
open Verif.Demo

-- C07, C08, C16, C18: typed values exist, of a type with arrays, unions and recursion
example : Typed env "top" topVal := topVal_typed

-- C12: a value within bounds, and its bytes
example : ∃ x, Denotes env "top" topVal x ∧ IsValue env "top" x ∧ enc x = topBytes :=
  ⟨topX, topVal_denotes, topX_value, topX_enc⟩

-- C12: a typed value outside of its bounds (a string of four bytes where three are allowed)
def longVal : GoVal := .struct [("K", .u32 0), ("S", .str [1, 2, 3, 4]),
  ("N", .struct [("Val", .i32 0), ("Next", .ptr none)])]

theorem longVal_typed : Typed env "arm" longVal := by
  refine ⟨3, _, rfl, ?_⟩
  simp only [hasTop, hasD, hasT, hasField, hasCs]
  refine ⟨_, _, rfl, ⟨_, rfl, ?_⟩, ⟨_, ⟨_, rfl, _, rfl⟩, ⟨_, ⟨_, rfl, ?_⟩, rfl⟩⟩⟩
  · refine ⟨_, rfl, ?_⟩
    simp only [hasTop, hasD, fl, hasT]
    exact ⟨0, rfl⟩
  · refine ⟨_, rfl, ?_⟩
    simp only [hasTop, hasD, hasT, hasDs, hasField]
    exact ⟨_, rfl, _, ⟨_, rfl, _, rfl⟩, _, ⟨_, rfl, _, rfl, by simp⟩, rfl⟩

example : ∃ x, Denotes env "arm" longVal x ∧ ¬ IsValue env "arm" x := by
  refine ⟨.union (.uint 0) (.string [1, 2, 3, 4]), ⟨3, by decide +kernel⟩, fun h => ?_⟩
  have hr : Runs prog "Arm" (makeWriter []) longVal
      { err := some (.msg "string too large"), reader := false, buf := [0, 0, 0, 0] } longVal :=
    runs_of_codecN gen supp (k := 5) (by decide +kernel)
  obtain ⟨x, hx, _, h1, _⟩ := C12_encode gen supp longVal_typed
  have hxx := denotes_unique hx (E := env) (y := .union (.uint 0) (.string [1, 2, 3, 4]))
    ⟨3, by decide +kernel⟩
  subst hxx
  have := ((h1 h []).unique hr).1
  cases this

-- C09, C10, C11, C13: a successful decode with data left over
example : Runs prog "Top" (makeReader (topBytes ++ [42])) topZero (makeReader [42]) topVal := by
  obtain ⟨p, rest, h1, h2, h3⟩ := C09_prefix gen supp (n := "top") topZero_typed.1 top_decodes rfl
  cases h2
  rw [List.append_nil] at h1
  exact h1 ▸ h3 [42]

-- C13: the decoder also accepts non-canonical images (true = 7, padding not zero)
example : Reads (.struct [.bool true, .vopaque [9]]) [0, 0, 0, 7, 0, 0, 0, 1, 9, 1, 2, 3] := by
  have h1 : Reads (.bool true) [0, 0, 0, 7] := by
    simp only [Reads]; exact ⟨rfl, by decide +kernel⟩
  have h2 : Reads (.vopaque [9]) [0, 0, 0, 1, 9, 1, 2, 3] := by
    simp only [Reads]; exact ⟨[1, 2, 3], rfl, by decide +kernel⟩
  simp only [Reads, ReadsL]
  exact ⟨_, _, h1, ⟨_, _, h2, rfl, rfl⟩, rfl⟩

-- C14, C15, C17: the round trip of `topVal`
example : EncodeBuf prog "Top" topVal topBytes none ∧ DecodeBuf prog "Top" topBytes topZero topVal none :=
  ⟨⟨_, _, top_encodes, rfl, rfl⟩, ⟨_, top_decodes, rfl⟩⟩

end

end Verif.Props
