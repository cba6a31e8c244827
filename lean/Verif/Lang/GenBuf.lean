/-
`EncodeBuf` and `DecodeBuf` (xdr/helper.go) of values of generated types.
-/
import Verif.Lang.GenPkg
import Verif.Lang.Obj

namespace Verif.Lang.Text
open Verif.Xdr (XErr XdrState)
variable {ω : Type}
set_option linter.unusedSimpArgs false

/-- What is known after the `Xdr` method. -/
macro "go_kept" h:ident n:ident k:ident o:ident d:ident : tactic => `(tactic| (
  have $n := Keeps.next $h
  have $k := Keeps.heap $h
  have $o := Keeps.world $h
  have $d := Keeps.defers $h
  try simp only [next_set, next_push, next_deferring] at $n:ident $k:ident
  try simp only [world_set, world_push, world_deferring] at $o:ident
  try simp only [defers_set, defers_push, defers_deferring] at $d:ident))

theorem put_nil {v w u : V} (h : V.put v w [] = some u) : u = v := by
  rw [V.put] at h
  exact (Option.some.inj h).symm

section
variable {Ps : Prog} {E : Ext ω} {k : Nat} {pkg n : String} {F : XdrState → Gen.GoVal → Gen.Res (XdrState × Gen.GoVal)}
  (hc : CallOK (Sem.mk (xdrPkg :: Ps) (callN (xdrPkg :: Ps) E (k + 1)) E.ext E.spawn E.grow E.loops : Sem ω) pkg n F)
include hc

/-- xdr/helper.go:3-7 -/
theorem EncodeBuf_gen {st : St ω} {t : Nat} {v : V} {y : Gen.GoVal} {xs' : XdrState} {y' : Gen.GoVal} (ht : st.heap t = v) (hlt : t < st.next)
    (hR : Rep st (· < st.next) v y) (hF : F (Xdr.makeWriter []) y = .ok (xs', y')) :
    wp (callN (xdrPkg :: Ps) E (k + 2) (.fn "xdr" "EncodeBuf") [.ptr (pkg ++ "." ++ n) ⟨t, []⟩])
      (fun r st' => ∃ b e c, r = [b, e] ∧ st.next ≤ c ∧ BytesAt st' c b (Xdr.writeBuf xs') ∧ ErrRel e xs'.err ∧
        (∀ j, j < st.next → st'.heap j = st.heap j) ∧ st.next ≤ st'.next ∧ st'.world = st.world) st := by
  rw [wp_callN _ _ _ _ _ _ _ _ _ find_helper_EncodeBuf, wp_callFunc, helper_EncodeBuf]
  have h5 := dot_ne pkg n
  go_run
  refine wp_mono (MakeWriter_spec E k (c := st.next) .nil (by go_lt)) ?_
  rintro _ st1 ⟨x, w, rfl, hx1, hxs, hw, hg⟩
  go_grew hg n1 k1 o1 d1
  simp only [next_set, next_push, next_deferring] at hx1
  obtain rfl : w = x := by rcases hw with h | h; exact h.2; exact absurd rfl h.1
  go_run [k1]
  have := hxs.xlt
  refine wp_mono (hc (rd := false) (x := w) (a := w) (w := w) (t := t) (p := []) (ok := (· < st.next)) (v := v) (y := y)
    ⟨hxs.mono (by go_run) (by go_run) (by go_run) (by go_lt), rfl, ?_, by go_lt, by omega, by omega, by omega, ?_⟩ ?_ hF) ?_
  · go_run [k1, ht]
  · intro j hj
    exact ⟨by omega, by omega, (fun h => absurd h Bool.false_ne_true), (fun _ => by go_lt)⟩
  · exact hR.mono (fun j _ hj => by go_run [k1]) (by go_lt) fun j h _ => h
  rintro _ st2 ⟨w2, v2, hD, -⟩
  have hkp := hD.keeps
  have hxs2 := hD.at'.hx
  have hw2 := hD.hw
  have ht2 := put_nil hD.put
  rw [hD.same rfl] at ht2
  have hr2 := hD.at'.hr
  go_kept hkp n2 k2 o2 d2
  simp only [next_set, next_push, next_deferring] at hw2
  have k2' : ∀ j, j < st1.next + 1 → st.next ≤ j → j ≠ w → st2.heap j = (st1.push (V.ptr "" { id := w, path := [] })).heap j :=
    fun j a b c => k2 j a c c (by omega)
  obtain ⟨e2, b2, hex2, he2, _⟩ := hxs2.cell
  go_run [k2', hex2]
  refine wp_mono (WriteBuf_spec E k hxs2 hr2) ?_
  rintro _ st3 ⟨b, rfl, hb, hbn, hxs3, hg3⟩
  go_grew hg3 n3 k3 o3 d3
  have := hxs2.xlt
  have := hxs2.wlt
  go_run [k3, k2', hex2, d1, d2, d3]
  refine ⟨_, _, w2, rfl, by omega, hb.mono (by go_run), he2, fun j hj => ?_, by go_lt, by go_run [o3, o2, o1]⟩
  by_cases h : j = t
  · subst h
    go_run [k3, ht2, ht]
  · go_run [k3, k2, k1]

/-- xdr/helper.go:9-13 -/
theorem DecodeBuf_gen {st : St ω} {t : Nat} {v : V} {y : Gen.GoVal} {xs' : XdrState} {y' : Gen.GoVal} {c : Nat} {b : V} {l : List UInt8}
    (hb : BytesAt st c b l) (hcl : c < st.next) (hne : t ≠ c) (ht : st.heap t = v) (hlt : t < st.next)
    (hR : Rep st (fun j => j < st.next ∧ j ≠ t) v y) (hF : F (Xdr.makeReader l) y = .ok (xs', y')) :
    wp (callN (xdrPkg :: Ps) E (k + 2) (.fn "xdr" "DecodeBuf") [b, .ptr (pkg ++ "." ++ n) ⟨t, []⟩])
      (fun r st' => ∃ e, r = [e] ∧ ErrRel e xs'.err ∧ Rep st' (· ≠ t) (st'.heap t) y' ∧
        (∀ j, j < st.next → j ≠ t → st'.heap j = st.heap j) ∧ st.next ≤ st'.next ∧ st'.world = st.world) st := by
  rw [wp_callN _ _ _ _ _ _ _ _ _ find_helper_DecodeBuf, wp_callFunc, helper_DecodeBuf]
  have h5 := dot_ne pkg n
  go_run
  refine wp_mono (MakeReader_spec E k (hb.mono (by go_run)) (by go_lt)) ?_
  rintro _ st1 ⟨x, a, rfl, hx1, hxs, hw, hg⟩
  go_grew hg n1 k1 o1 d1
  simp only [next_set, next_push, next_deferring] at hx1
  have hta : t ≠ a := by
    rcases hw with ⟨_, rfl⟩ | ⟨_, rfl⟩
    · omega
    · exact hne
  have := hxs.xlt
  have := hxs.alt
  go_run [k1]
  refine wp_mono (hc (rd := true) (x := x) (a := a) (w := x) (t := t) (p := []) (ok := fun j => j < st.next ∧ j ≠ t) (v := v) (y := y)
    ⟨hxs.mono (by go_run) (by go_run) (by go_run) (by go_lt), rfl, ?_, by go_lt, by omega, hta, by omega, ?_⟩ ?_ hF) ?_
  · go_run [k1, ht]
  · rintro j ⟨hj, hjt⟩
    exact ⟨by omega, by omega, (fun _ => hjt), (fun h => absurd h.symm Bool.false_ne_true)⟩
  · exact hR.mono (fun j hj _ => by have := hj.1; go_run [k1]) (by go_lt) fun j h _ => h
  rintro _ st2 ⟨w2, v2, hD, hR2⟩
  have hkp := hD.keeps
  have hxs2 := hD.at'.hx
  have ht2 := put_nil hD.put
  go_kept hkp n2 k2 o2 d2
  have k2' : ∀ j, j < st1.next + 1 → st.next ≤ j → j ≠ x → st2.heap j = (st1.push (V.ptr "" { id := x, path := [] })).heap j :=
    fun j a b c => k2 j a c c (by omega)
  obtain ⟨e2, b2, hex2, he2, _⟩ := hxs2.cell
  have := hxs2.xlt
  go_run [k2', hex2, d2, d1]
  refine ⟨_, rfl, he2, ?_, fun j hj hn => ?_, by go_lt, by go_run [o2, o1]⟩
  · go_run [ht2]
    refine hR2.mono (fun j _ hj => by go_run) (by go_lt) fun j h _ => ?_
    rcases h with h | ⟨-, h | h⟩
    · exact h.2
    · rw [h.1]; exact fun e => hta e.symm
    · simp only [next_set, next_push, next_deferring] at h; omega
  · go_run [k2, k1]
end

end Verif.Lang.Text
