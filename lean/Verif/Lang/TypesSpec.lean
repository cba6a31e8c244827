/-
The Xdr methods of xdr/types.go (lines 17-22), as read from the file, and values with such a method as
`xdr.Xdrable`s.
-/
import Verif.Lang.Obj
namespace Verif.Lang
open Verif.Xdr (XErr XdrState)
open Verif.Rpc
variable {ω : Type}
set_option linter.unusedSimpArgs false


/-- A value that is in memory as it is. -/
def Scalar {τ : Type} (c : τ → V) : Rel ω τ := fun _ _ _ _ v y => v = c y

variable [Others]

theorem Scalar.codec {τ : Type} {c : τ → V} {f : XdrState → τ → XdrState × τ} {E : Ext ω} {k : Nat} {key : FKey}
    (h : ∀ ⦃st : St ω⦄ ⦃x a w xs⦄, Xs st x a w xs → ∀ (T : String) (t : Nat) (p : List String) (v : τ),
      (st.heap t).at p = some (c v) → t < st.next → t ≠ x → t ≠ a → t ≠ w →
      wp (callN goProg E k key [.ptr T ⟨t, p⟩, .ptr "" ⟨x, []⟩])
        (fun r st' => r = [] ∧ Post st st' x a w t (f xs v).1 ∧
          V.put (c (f xs v).2) (st.heap t) p = some (st'.heap t)) st) :
    Codec E k key (Scalar c) f := by
  intro st x a w xs hx T t p v y hv hR h0 h1 h2 h3
  cases hR
  refine wp_mono (h hx T t p y hv h0 h1 h2 h3) ?_
  rintro _ st1 ⟨rfl, ⟨w1, hw1, h1', hk⟩, hp⟩
  exact ⟨rfl, w1, hw1, h1', hk, _, hp, rfl⟩

/-- The methods that call one function of the library. -/
macro "go_scalar" f:term:max d:term:max l:term:max E:term:max k:term:max : tactic => `(tactic| (
  refine Scalar.codec fun st x a w xs h T t p v hv h0 h1 h2 h3 => ?_
  rw [wp_callN _ _ _ _ _ _ _ _ _ $f, wp_callFunc, $d:term]
  have := h.xlt
  have := h.alt
  have := h.wlt
  go_run
  refine wp_mono ($l $E $k (h.mono (by go_run) (by go_run) (by go_run) (by go_lt)) _ t p v (by go_run [hv]) (by go_lt) h1 h2 h3) ?_
  rintro _ st1 ⟨rfl, ⟨w1, hw1, h1', hk⟩, hp⟩
  go_after hk n1 k1 o1 d1
  simp only [next_set, next_push, next_deferring] at hw1
  go_run [k1, d1]
  refine ⟨Post.via (by omega) h1' (by go_run) (by go_run) (by go_run) (by go_lt) (by go_keeps' [k1, o1]), ?_⟩
  rw [← hp]
  go_run))

/-- types.go:17 -/
theorem Bool_codec (E : Ext ω) (k : Nat) : Codec E (k + 3) (.meth "xdr.Bool" "Xdr") (Scalar .bool) Xdr.xdrBool := by
  go_scalar find_types_Bool_Xdr types_Bool_Xdr XdrBool_spec E k
/-- types.go:18 -/
theorem Uint32_codec (E : Ext ω) (k : Nat) : Codec E (k + 3) (.meth "xdr.Uint32" "Xdr") (Scalar .u32) Xdr.xdrU32 := by
  go_scalar find_types_Uint32_Xdr types_Uint32_Xdr XdrU32_spec E k
/-- types.go:19 -/
theorem Int32_codec (E : Ext ω) (k : Nat) : Codec E (k + 3) (.meth "xdr.Int32" "Xdr") (Scalar .i32) Xdr.xdrS32 := by
  go_scalar find_types_Int32_Xdr types_Int32_Xdr XdrS32_spec E k
/-- types.go:20 -/
theorem Uint64_codec (E : Ext ω) (k : Nat) : Codec E (k + 3) (.meth "xdr.Uint64" "Xdr") (Scalar .u64) Xdr.xdrU64 := by
  go_scalar find_types_Uint64_Xdr types_Uint64_Xdr XdrU64_spec E k
/-- types.go:21 -/
theorem Int64_codec (E : Ext ω) (k : Nat) : Codec E (k + 3) (.meth "xdr.Int64" "Xdr") (Scalar .i64) Xdr.xdrS64 := by
  go_scalar find_types_Int64_Xdr types_Int64_Xdr XdrS64_spec E k
/-- types.go:22 -/
theorem Void_codec (E : Ext ω) (k : Nat) : Codec E (k + 1) (.meth "xdr.Void" "Xdr") (Scalar fun (_ : Unit) => .struct "xdr.Void" []) fun xs y => (xs, y) := by
  refine Scalar.codec fun st x a w xs h T t p v hv h0 h1 h2 h3 => ?_
  rw [wp_callN _ _ _ _ _ _ _ _ _ find_types_Void_Xdr, wp_callFunc, types_Void_Xdr]
  have := h.xlt
  have := h.alt
  have := h.wlt
  go_run
  exact ⟨Post.via (Or.inl rfl) h (by go_run) (by go_run) (by go_run) (by go_lt) (by go_keeps), put_at hv⟩

/-- A pointer to such a value is an `xdr.Xdrable`. -/
theorem Codec.xdrs {τ : Type} {c : τ → V} {f : XdrState → τ → XdrState × τ} {E : Ext ω} {k : Nat} {T : String}
    (h : Codec E k (.meth T "Xdr") (Scalar c) f) (hf : ∀ xs y, (f xs y).1.reader = xs.reader) (hT : T ≠ "") (t : Nat) :
    Xdrs E k (.ptr T ⟨t, []⟩) (· = t) (fun st y => t < st.next ∧ st.heap t = c y) (fun st y => st.heap t = c y) f := by
  refine ⟨rfl, hf, fun st y j hR hj => by subst hj; exact hR.1, fun st st' y hR hk hn => ⟨by have := hR.1; omega, by rw [hk t rfl, hR.2]⟩, ?_⟩
  intro st x a w xs hx y hR n1 n2 n3
  go_run [hT]
  refine wp_mono (h hx T t [] (c y) y (by rw [hR.2]; rfl) rfl hR.1 (Ne.symm n1) (Ne.symm n2) (Ne.symm n3)) ?_
  rintro _ st1 ⟨rfl, w1, hw1, hxs1, hk, v1, hv1, rfl⟩
  refine ⟨rfl, w1, hw1, hxs1, ⟨fun j a b c d => hk.heap j a b c d, hk.next, hk.world, hk.defers⟩, fun st2 hk2 hn2 => ?_⟩
  have := hR.1
  have := hk.next
  show st2.heap t = _
  rw [hk2 t (by omega) (.inl rfl)]
  exact (Option.some.inj hv1).symm

end Verif.Lang
