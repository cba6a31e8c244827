/-
Running generated methods, and `xdr/helper.go`.
-/
import Verif.Gen.Supported

namespace Verif.Gen
open Verif.Spec Verif.Xdr

/-- The generated method `func (v *T) Xdr(xs *xdr.XdrState)` ends normally when it is called with
state `xs` and receiver value `v`, leaving `xs'` and `v'`.  (The bound on the call depth is an
artefact of the interpreter: any sufficiently large one gives this result.) -/
def Runs (g : GoProg) (T : Ident) (xs : XdrState) (v : GoVal) (xs' : XdrState) (v' : GoVal) : Prop :=
  ∃ N, ∀ fuel, N ≤ fuel → g.runXdr fuel T xs v = .ok (xs', v')

/-- A run has one outcome. -/
theorem Runs.unique {g : GoProg} {T : Ident} {xs xs₁ xs₂ : XdrState} {v v₁ v₂ : GoVal}
    (h₁ : Runs g T xs v xs₁ v₁) (h₂ : Runs g T xs v xs₂ v₂) : xs₁ = xs₂ ∧ v₁ = v₂ := by
  obtain ⟨N₁, h₁⟩ := h₁
  obtain ⟨N₂, h₂⟩ := h₂
  have e1 := h₁ (max N₁ N₂) (Nat.le_max_left _ _)
  have e2 := h₂ (max N₁ N₂) (Nat.le_max_right _ _)
  rw [e1] at e2
  cases e2
  exact ⟨rfl, rfl⟩

/-- `EncodeBuf(v)` returns `(buf, err)` (xdr/helper.go:3-7). -/
def EncodeBuf (g : GoProg) (T : Ident) (v : GoVal) (buf : List UInt8) (err : Option XErr) : Prop :=
  ∃ xs v', Runs g T (makeWriter []) v xs v' ∧ buf = writeBuf xs ∧ err = error xs

/-- `DecodeBuf(buf, v)` returns `err` and leaves `v'` in the target (xdr/helper.go:9-13). -/
def DecodeBuf (g : GoProg) (T : Ident) (buf : List UInt8) (v v' : GoVal) (err : Option XErr) : Prop :=
  ∃ xs, Runs g T (makeReader buf) v xs v' ∧ err = error xs

section
variable {fl : Flags} {s : Gen.Spec} {g : GoProg}

theorem runs_of_codecN (hg : generate fl s = some g) (hs : supported fl s = true) {k : Nat} {T : Ident}
    {xs xs' : XdrState} {v v' : GoVal} (h : codecN g (defsOf fl s) k T xs v = .ok (xs', v')) :
    Runs g T xs v xs' v' :=
  ⟨k, fun fuel hf => runXdr_of_codecN (methods_link hg hs) fuel T xs v _ (codecN_le hf _ _ _ _ h)⟩

/-- Encoding. -/
theorem runs_encode (hg : generate fl s = some g) (hs : supported fl s = true) {n : Ident} {v : GoVal}
    (hv : Typed (envOf fl.unsignedEnum s) n v) : ∃ x, Denotes (envOf fl.unsignedEnum s) n v x ∧ ∀ w,
      (IsValue (envOf fl.unsignedEnum s) n x ∧
        Runs g (i n) (makeWriter w) v (makeWriter (w ++ enc x)) v) ∨
      (¬ IsValue (envOf fl.unsignedEnum s) n x ∧ ∃ xs', Runs g (i n) (makeWriter w) v xs' v ∧
        xs'.err.isSome ∧ xs'.reader = false ∧ ∃ t, xs'.buf = w ++ t) := by
  obtain ⟨k, hv⟩ := hv
  obtain ⟨x, hx, h⟩ := codecN_encode (link hg hs) k n v hv
  refine ⟨x, ⟨k, hx⟩, fun w => ?_⟩
  rcases h w with ⟨h1, h2⟩ | ⟨h1, xs', h2, h3⟩
  · exact .inl ⟨h1, runs_of_codecN hg hs h2⟩
  · exact .inr ⟨h1, xs', runs_of_codecN hg hs h2, h3⟩

/-- Decoding. -/
theorem runs_decode (hg : generate fl s = some g) (hs : supported fl s = true) {n : Ident} {v : GoVal}
    (hv : Typed (envOf fl.unsignedEnum s) n v) (b : List UInt8) :
    (∃ x p rest v', b = p ++ rest ∧ Reads x p ∧ IsValue (envOf fl.unsignedEnum s) n x ∧
      Runs g (i n) (makeReader b) v (makeReader rest) v' ∧
      Fills (envOf fl.unsignedEnum s) (zeroOf g) n v x v' ∧ Typed (envOf fl.unsignedEnum s) n v') ∨
    (∃ xs' v', Runs g (i n) (makeReader b) v xs' v' ∧ xs'.err.isSome ∧ xs'.reader = true ∧
      Typed (envOf fl.unsignedEnum s) n v' ∧
      ∀ x p rest, IsValue (envOf fl.unsignedEnum s) n x → Reads x p → b ≠ p ++ rest) := by
  obtain ⟨k, hv⟩ := hv
  rcases codecN_decode (link hg hs) (F := k + b.length / 4 * g.depth) (Nat.le_refl _) hv with
    ⟨x, p, rest, v', h1, h2, h3, h4, h5, h6⟩ | ⟨xs', v', h1, h2, h3, h4⟩
  · exact .inl ⟨x, p, rest, v', h1, h2, h3, runs_of_codecN hg hs h4, ⟨_, h5⟩, h6⟩
  · exact .inr ⟨xs', v', runs_of_codecN hg hs h1, h2.1, h2.2, h3, h4⟩

/-- A state in error. -/
theorem runs_sticky (hg : generate fl s = some g) (hs : supported fl s = true) {n : Ident} {v : GoVal}
    (hv : Typed (envOf fl.unsignedEnum s) n v) {xs : XdrState} (he : xs.err.isSome) :
    Runs g (i n) xs v xs v := by
  obtain ⟨k, hv⟩ := hv
  exact runs_of_codecN hg hs (codecN_sticky (link hg hs) he k n v hv)

/-- The value left by a decode into a clean target stands for the value on the wire. -/
theorem fills_denotes (hg : generate fl s = some g) (hs : supported fl s = true) {n : Ident}
    {v v' : GoVal} {x : XVal} (hc : Clean (envOf fl.unsignedEnum s) n v)
    (hx : IsValue (envOf fl.unsignedEnum s) n x)
    (h : Fills (envOf fl.unsignedEnum s) (zeroOf g) n v x v') :
    Denotes (envOf fl.unsignedEnum s) n v' x := by
  obtain ⟨k, h⟩ := h
  exact ⟨k, fillN_abs (link hg hs) k n v x v' hc hx h⟩

/-- Zero values of declared types: `var v T` in Go. -/
theorem zero_fresh (hg : generate fl s = some g) (hs : supported fl s = true) {n : Ident}
    (hn : ((envOf fl.unsignedEnum s).typeOf n).isSome) : ∃ z, g.zeroNamed (i n) = some z ∧
      Typed (envOf fl.unsignedEnum s) n z ∧ Clean (envOf fl.unsignedEnum s) n z := by
  obtain ⟨z, h1, h2, h3⟩ := zeroNamed_ok (link hg hs) n hn
  exact ⟨z, h1, ⟨_, h2⟩, ⟨_, h3⟩⟩

/-- Decoding keeps the type of the target. -/
theorem typed_of_run (hg : generate fl s = some g) (hs : supported fl s = true) {n : Ident}
    {v v' : GoVal} {b : List UInt8} {xs' : XdrState} (hv : Typed (envOf fl.unsignedEnum s) n v)
    (h : Runs g (i n) (makeReader b) v xs' v') : Typed (envOf fl.unsignedEnum s) n v' := by
  rcases runs_decode hg hs hv b with ⟨x, p, rest, v₁, _, _, _, h4, _, h6⟩ | ⟨xs₁, v₁, h1, _, _, h4, _⟩
  · obtain ⟨_, rfl⟩ := h.unique h4; exact h6
  · obtain ⟨_, rfl⟩ := h.unique h1; exact h4

/-- A value whose encoding succeeds is within all bounds. -/
theorem isValue_of_run (hg : generate fl s = some g) (hs : supported fl s = true) {n : Ident}
    {v v' : GoVal} {x : XVal} {w : List UInt8} {xs' : XdrState}
    (hv : Typed (envOf fl.unsignedEnum s) n v) (hx : Denotes (envOf fl.unsignedEnum s) n v x)
    (h : Runs g (i n) (makeWriter w) v xs' v') (he : xs'.err = none) :
    IsValue (envOf fl.unsignedEnum s) n x := by
  obtain ⟨y, hy, hr⟩ := runs_encode hg hs hv
  cases denotes_unique hx hy
  rcases hr w with ⟨h1, _⟩ | ⟨_, xs₁, h1, h2, _⟩
  · exact h1
  · obtain ⟨rfl, _⟩ := h.unique h1; rw [he] at h2; cases h2

theorem typed_declared {E : Env} {n : Ident} {v : GoVal} (h : Typed E n v) : (E.typeOf n).isSome := by
  obtain ⟨k, h⟩ := h
  cases k with
  | zero => exact h.elim
  | succ k => obtain ⟨t, ht, _⟩ := h; simp [ht]

theorem isValue_declared {E : Env} {n : Ident} {x : XVal} (h : IsValue E n x) :
    (E.typeOf n).isSome := by
  obtain ⟨t, ht, _⟩ := h.unfold
  simp [ht]

end

end Verif.Gen
