/-
What the text of `xdr/lib.go` computes, continued: the functions for numbers and truth values
(lib.go:105-189), each shown to do what its model in `Verif.Xdr.Lib` does.
-/
import Verif.Lang.LibSpec

namespace Verif.Lang
open Verif.Xdr (XErr XdrState)
variable {ω : Type} {Ps : Prog}

/-! ### Calls that are followed, not summarised -/

theorem wp_Encoding (E : Ext ω) (k : Nat) (args : List V) (Q : List V → St ω → Prop) (st : St ω) :
    wp (callN (xdrPkg :: Ps) E (k + 1) (.meth "xdr.XdrState" "Encoding") args) Q st =
      wp (callFunc ⟨xdrPkg :: Ps, callN (xdrPkg :: Ps) E k, E.ext, E.spawn, E.grow, E.loops⟩ "xdr" lib_XdrState_Encoding args) Q st :=
  wp_callN _ _ _ _ _ _ _ _ _ find_lib_XdrState_Encoding
theorem wp_Decoding (E : Ext ω) (k : Nat) (args : List V) (Q : List V → St ω → Prop) (st : St ω) :
    wp (callN (xdrPkg :: Ps) E (k + 1) (.meth "xdr.XdrState" "Decoding") args) Q st =
      wp (callFunc ⟨xdrPkg :: Ps, callN (xdrPkg :: Ps) E k, E.ext, E.spawn, E.grow, E.loops⟩ "xdr" lib_XdrState_Decoding args) Q st :=
  wp_callN _ _ _ _ _ _ _ _ _ find_lib_XdrState_Decoding
theorem wp_SetError (E : Ext ω) (k : Nat) (args : List V) (Q : List V → St ω → Prop) (st : St ω) :
    wp (callN (xdrPkg :: Ps) E (k + 1) (.meth "xdr.XdrState" "SetError") args) Q st =
      wp (callFunc ⟨xdrPkg :: Ps, callN (xdrPkg :: Ps) E k, E.ext, E.spawn, E.grow, E.loops⟩ "xdr" lib_XdrState_SetError args) Q st :=
  wp_callN _ _ _ _ _ _ _ _ _ find_lib_XdrState_SetError
theorem wp_Error (E : Ext ω) (k : Nat) (args : List V) (Q : List V → St ω → Prop) (st : St ω) :
    wp (callN (xdrPkg :: Ps) E (k + 1) (.meth "xdr.XdrState" "Error") args) Q st =
      wp (callFunc ⟨xdrPkg :: Ps, callN (xdrPkg :: Ps) E k, E.ext, E.spawn, E.grow, E.loops⟩ "xdr" lib_XdrState_Error args) Q st :=
  wp_callN _ _ _ _ _ _ _ _ _ find_lib_XdrState_Error

attribute [go_sim ↓] wp_Encoding wp_Decoding wp_SetError wp_Error wp_callFunc
attribute [go_sim] lib_XdrState_Encoding lib_XdrState_Decoding lib_XdrState_SetError lib_XdrState_Error

theorem rw_reader_eq (xs : XdrState) (v : List UInt8) : (Xdr.xdrRW xs v).1.reader = xs.reader := by
  simp only [Xdr.xdrRW]
  repeat' split
  all_goals rfl

theorem rw_length (xs : XdrState) (v : List UInt8) : (Xdr.xdrRW xs v).2.length = v.length := by
  simp only [Xdr.xdrRW]
  repeat' split
  all_goals simp
  all_goals omega

theorem rw_length' {xs : XdrState} {v v' : List UInt8} {xs' : XdrState} (h : Xdr.xdrRW xs v = (xs', v')) :
    v'.length = v.length := by
  have := rw_length xs v
  rwa [h] at this

theorem rw_reader' {xs : XdrState} {v v' : List UInt8} {xs' : XdrState} (h : Xdr.xdrRW xs v = (xs', v')) :
    xs'.reader = xs.reader := by
  have := rw_reader_eq xs v
  rwa [h] at this

/-- A slice of the whole of an array that is a variable. -/
theorem xdrRW_local (E : Ext ω) (k : Nat) {st : St ω} {x a w : Nat} {xs : XdrState} (h : Xs st x a w xs) (i n : Nat) (l : List UInt8)
    (hl : st.heap i = .bytes l) (hn : n = l.length) (h0 : i < st.next) (h1 : i ≠ x) (h2 : i ≠ a) (h3 : i ≠ w) :
    wp (callN (xdrPkg :: Ps) E (k + 1) (.fn "xdr" "xdrRW") [.ptr "" ⟨x, []⟩, .slice ⟨⟨i, []⟩, 0, n, n⟩])
      (fun r st' => r = [] ∧ Post st st' x a w i (Xdr.xdrRW xs l).1 ∧ st'.heap i = .bytes (Xdr.xdrRW xs l).2) st := by
  have hs : sub ⟨⟨i, []⟩, 0, n, n⟩ l = l := by simp [sub, hn]
  refine wp_mono (xdrRW_spec E k h _ l ⟨?_, ?_, ?_⟩ h0 h1 h2 h3) ?_
  · rw [hl, at_nil]
  · dsimp only; omega
  · dsimp only; omega
  · rintro r st' ⟨hr, hp, hv⟩
    rw [hs] at hp hv
    refine ⟨hr, hp, ?_⟩
    rw [put_nil] at hv
    injection hv with hv
    rw [← hv]
    have := rw_length xs l
    simp [overwrite, this]

/-- What is known after a call, in a form that `go_run` can use. -/
macro "go_after" h:ident n:ident k:ident o:ident d:ident : tactic => `(tactic| (
  have $n := Keeps.next $h
  have $k := Keeps.heap $h
  have $o := Keeps.world $h
  have $d := Keeps.defers $h
  try simp only [next_set, next_push, next_deferring] at $n:ident $k:ident
  try simp only [world_set, world_push, world_deferring] at $o:ident
  try simp only [defers_set, defers_push, defers_deferring] at $d:ident))

theorem Post.via {st st1 st' : St ω} {x a w w1 t : Nat} {xs : XdrState} (hw : w1 = w ∨ st.next ≤ w1) (h : Xs st1 x a w1 xs)
    (hx : st'.heap x = st1.heap x) (ha : st'.heap a = st1.heap a) (hw' : st'.heap w1 = st1.heap w1)
    (hn : st1.next ≤ st'.next) (hk : Keeps x w t st st') : Post st st' x a w t xs :=
  ⟨w1, hw, h.mono hx ha hw' hn, hk⟩

/-- Proves `Keeps` for a state that comes after calls about which the given facts are known. -/
macro "go_keeps'" "[" ts:Lean.Parser.Tactic.simpLemma,* "]" : tactic => `(tactic|
  exact ⟨fun j _ _ _ _ => by
      simp (disch := go_ne) only [heap_set_ne, heap_push_ne, heap_deferring, $ts,*],
    by go_lt,
    by simp only [world_set, world_push, world_deferring, $ts,*],
    by simp only [defers_set, defers_push, defers_deferring, $ts,*]⟩)

theorem be32_putU32 (v : UInt32) : be32 v = Xdr.putU32 v := rfl
theorem be64_putU64 (v : UInt64) : be64 v = Xdr.putU64 v := rfl
theorem be32_length (v : UInt32) : (be32 v).length = 4 := (rfl)
theorem be64_length (v : UInt64) : (be64 v).length = 8 := (rfl)
theorem ofBe32_getU32 (l : List UInt8) (h : l.length = 4) : ofBe32 l = some (Xdr.getU32 l) := by
  match l, h with
  | [_, _, _, _], _ => rfl
theorem ofBe64_getU64 (l : List UInt8) (h : l.length = 8) : ofBe64 l = some (Xdr.getU64 l) := by
  match l, h with
  | [_, _, _, _, _, _, _, _], _ => rfl
theorem overwrite_be32 (v : UInt32) : overwrite [0, 0, 0, 0] 0 (be32 v) = be32 v := (rfl)
theorem overwrite_be64 (v : UInt64) : overwrite [0, 0, 0, 0, 0, 0, 0, 0] 0 (be64 v) = be64 v := (rfl)
theorem overwrite_all (l d : List UInt8) (h : l.length = d.length) : overwrite l 0 d = d := by
  simp [overwrite, h]

theorem XdrU32_spec (E : Ext ω) (k : Nat) {st : St ω} {x a w xs} (h : Xs st x a w xs) (T : String) (t : Nat) (p : List String)
    (v : UInt32) (hv : (st.heap t).at p = some (.u32 v)) (h0 : t < st.next) (h1 : t ≠ x) (h2 : t ≠ a) (h3 : t ≠ w) :
    wp (callN (xdrPkg :: Ps) E (k + 2) (.fn "xdr" "XdrU32") [.ptr "" ⟨x, []⟩, .ptr T ⟨t, p⟩])
      (fun r st' => r = [] ∧ Post st st' x a w t (Xdr.xdrU32 xs v).1 ∧
        V.put (.u32 (Xdr.xdrU32 xs v).2) (st.heap t) p = some (st'.heap t)) st := by
  have h' := h
  obtain ⟨err, reader, buf⟩ := xs
  obtain ⟨⟨e, b, hx, he, hb, hn⟩, xlt, alt, wlt, ho⟩ := h
  dsimp only at *
  rw [wp_callN _ _ _ _ _ _ _ _ _ find_lib_XdrU32, wp_callFunc, lib_XdrU32]
  cases err with
  | some r => 
    obtain ⟨m, vs, rfl⟩ := he.some'
    go_run [hx]
    simp only [Xdr.xdrU32, Option.isSome, ↓reduceIte]
    refine ⟨Post.intro w _ b (.inl rfl) (by go_run [hx]) he (hb.mono ?_) hn xlt alt (by go_lt) ho (by go_keeps), ?_⟩
    · cases reader <;> go_run
    · exact put_at hv
  | none => 
    obtain rfl := he.nil
    cases reader with
    | true => 
      simp only [↓reduceIte] at *
      subst ho
      go_run [hx, hv]
      refine wp_mono (xdrRW_local E k (h'.mono (by go_run) (by go_run) (by go_run) (by go_lt)) _ _ [0, 0, 0, 0] (by go_run) rfl ?_ ?_ ?_ ?_) ?_
      · go_lt
      · go_ne
      · go_ne
      · go_ne
      rintro _ st1 ⟨rfl, ⟨w1, hw1, h1', hk⟩, hp⟩
      go_after hk n1 k1 o1 d1
      cases hR : Xdr.xdrRW ⟨none, true, buf⟩ [0, 0, 0, 0] with
      | mk xs1 l1 =>
      have hl1 := rw_length' hR
      have hr1 := rw_reader' hR
      rw [hR] at h1' hp
      obtain ⟨err1, reader1, buf1⟩ := xs1
      have h1 := h1'
      obtain ⟨⟨e1, b1, hx1, he1, hb1, hn1⟩, xlt1, alt1, wlt1, ho1⟩ := h1'
      dsimp only at *
      subst hr1
      simp only [↓reduceIte] at *
      subst ho1
      cases err1 with
      | some r => 
        obtain ⟨m, vs, rfl⟩ := he1.some'
        go_run [hx1, k1, d1]
        have hX : Xdr.xdrU32 ⟨none, true, buf⟩ v = (⟨some r, true, buf1⟩, v) := by
          simp [Xdr.xdrU32, Xdr.encoding, Xdr.zeros, hR, Xdr.decoding]
        rw [hX]
        refine ⟨Post.via (.inl rfl) h1 (by go_run) (by go_run) (by go_run) (by go_lt) (by go_keeps' [k1, o1]), ?_⟩
        exact put_at hv
      | none => 
        obtain rfl := he1.nil
        obtain ⟨W, hW⟩ := put_some hv (.u32 (Xdr.getU32 l1))
        go_run [hx1, k1, d1, hp, List.take_of_length_le, List.drop_zero, ofBe32_getU32 l1 hl1, hW, hv]
        have hX : Xdr.xdrU32 ⟨none, true, buf⟩ v = (⟨none, true, buf1⟩, Xdr.getU32 l1) := by
          simp [Xdr.xdrU32, Xdr.encoding, Xdr.zeros, hR, Xdr.decoding]
        rw [hX]
        refine ⟨Post.via (.inl rfl) h1 (by go_run) (by go_run) (by go_run) (by go_lt) (by go_keeps' [k1, o1]), ?_⟩
        exact hW
    | false =>
      simp only [↓reduceIte, Bool.false_eq_true] at *
      subst ho
      go_run [hx, hv, be32_length, overwrite_be32]
      refine wp_mono (xdrRW_local E k (h'.mono (by go_run) (by go_run) (by go_run) (by go_lt)) _ _ (be32 v) (by go_run [overwrite_be32, be32_length]) (by simp only [be32_length]) ?_ ?_ ?_ ?_) ?_
      · go_lt
      · go_ne
      · go_ne
      · go_ne
      rintro _ st1 ⟨rfl, ⟨w1, hw1, h1', hk⟩, hp⟩
      go_after hk n1 k1 o1 d1
      simp only [next_set, next_push, next_deferring] at hw1
      have hX : Xdr.xdrU32 ⟨none, false, buf⟩ v = (⟨none, false, buf ++ be32 v⟩, v) := by
        simp [Xdr.xdrU32, Xdr.encoding, Xdr.xdrRW, Xdr.decoding, be32_putU32]
      have hR : (Xdr.xdrRW ⟨none, false, buf⟩ (be32 v)).1 = ⟨none, false, buf ++ be32 v⟩ := by
        simp [Xdr.xdrRW]
      rw [hX]
      rw [hR] at h1'
      have h1 := h1'
      obtain ⟨⟨e1, b1, hx1, he1, hb1, hn1⟩, xlt1, alt1, wlt1, ho1⟩ := h1'
      obtain rfl := he1.nil
      dsimp only at *
      go_run [hx1, k1, d1]
      refine ⟨Post.via (by omega) h1 (by go_run) (by go_run) (by go_run) (by go_lt) (by go_keeps' [k1, o1]), ?_⟩
      exact put_at hv

theorem XdrU64_spec (E : Ext ω) (k : Nat) {st : St ω} {x a w xs} (h : Xs st x a w xs) (T : String) (t : Nat) (p : List String)
    (v : UInt64) (hv : (st.heap t).at p = some (.u64 v)) (h0 : t < st.next) (h1 : t ≠ x) (h2 : t ≠ a) (h3 : t ≠ w) :
    wp (callN (xdrPkg :: Ps) E (k + 2) (.fn "xdr" "XdrU64") [.ptr "" ⟨x, []⟩, .ptr T ⟨t, p⟩])
      (fun r st' => r = [] ∧ Post st st' x a w t (Xdr.xdrU64 xs v).1 ∧
        V.put (.u64 (Xdr.xdrU64 xs v).2) (st.heap t) p = some (st'.heap t)) st := by
  have h' := h
  obtain ⟨err, reader, buf⟩ := xs
  obtain ⟨⟨e, b, hx, he, hb, hn⟩, xlt, alt, wlt, ho⟩ := h
  dsimp only at *
  rw [wp_callN _ _ _ _ _ _ _ _ _ find_lib_XdrU64, wp_callFunc, lib_XdrU64]
  cases err with
  | some r => 
    obtain ⟨m, vs, rfl⟩ := he.some'
    go_run [hx]
    simp only [Xdr.xdrU64, Option.isSome, ↓reduceIte]
    refine ⟨Post.intro w _ b (.inl rfl) (by go_run [hx]) he (hb.mono ?_) hn xlt alt (by go_lt) ho (by go_keeps), ?_⟩
    · cases reader <;> go_run
    · exact put_at hv
  | none => 
    obtain rfl := he.nil
    cases reader with
    | true => 
      simp only [↓reduceIte] at *
      subst ho
      go_run [hx, hv]
      refine wp_mono (xdrRW_local E k (h'.mono (by go_run) (by go_run) (by go_run) (by go_lt)) _ _ [0, 0, 0, 0, 0, 0, 0, 0] (by go_run) rfl ?_ ?_ ?_ ?_) ?_
      · go_lt
      · go_ne
      · go_ne
      · go_ne
      rintro _ st1 ⟨rfl, ⟨w1, hw1, h1', hk⟩, hp⟩
      go_after hk n1 k1 o1 d1
      cases hR : Xdr.xdrRW ⟨none, true, buf⟩ [0, 0, 0, 0, 0, 0, 0, 0] with
      | mk xs1 l1 =>
      have hl1 := rw_length' hR
      have hr1 := rw_reader' hR
      rw [hR] at h1' hp
      obtain ⟨err1, reader1, buf1⟩ := xs1
      have h1 := h1'
      obtain ⟨⟨e1, b1, hx1, he1, hb1, hn1⟩, xlt1, alt1, wlt1, ho1⟩ := h1'
      dsimp only at *
      subst hr1
      simp only [↓reduceIte] at *
      subst ho1
      cases err1 with
      | some r => 
        obtain ⟨m, vs, rfl⟩ := he1.some'
        go_run [hx1, k1, d1]
        have hX : Xdr.xdrU64 ⟨none, true, buf⟩ v = (⟨some r, true, buf1⟩, v) := by
          simp [Xdr.xdrU64, Xdr.encoding, Xdr.zeros, hR, Xdr.decoding]
        rw [hX]
        refine ⟨Post.via (.inl rfl) h1 (by go_run) (by go_run) (by go_run) (by go_lt) (by go_keeps' [k1, o1]), ?_⟩
        exact put_at hv
      | none => 
        obtain rfl := he1.nil
        obtain ⟨W, hW⟩ := put_some hv (.u64 (Xdr.getU64 l1))
        go_run [hx1, k1, d1, hp, List.take_of_length_le, List.drop_zero, ofBe64_getU64 l1 hl1, hW, hv]
        have hX : Xdr.xdrU64 ⟨none, true, buf⟩ v = (⟨none, true, buf1⟩, Xdr.getU64 l1) := by
          simp [Xdr.xdrU64, Xdr.encoding, Xdr.zeros, hR, Xdr.decoding]
        rw [hX]
        refine ⟨Post.via (.inl rfl) h1 (by go_run) (by go_run) (by go_run) (by go_lt) (by go_keeps' [k1, o1]), ?_⟩
        exact hW
    | false =>
      simp only [↓reduceIte, Bool.false_eq_true] at *
      subst ho
      go_run [hx, hv, be64_length, overwrite_be64]
      refine wp_mono (xdrRW_local E k (h'.mono (by go_run) (by go_run) (by go_run) (by go_lt)) _ _ (be64 v) (by go_run [overwrite_be64, be64_length]) (by simp only [be64_length]) ?_ ?_ ?_ ?_) ?_
      · go_lt
      · go_ne
      · go_ne
      · go_ne
      rintro _ st1 ⟨rfl, ⟨w1, hw1, h1', hk⟩, hp⟩
      go_after hk n1 k1 o1 d1
      simp only [next_set, next_push, next_deferring] at hw1
      have hX : Xdr.xdrU64 ⟨none, false, buf⟩ v = (⟨none, false, buf ++ be64 v⟩, v) := by
        simp [Xdr.xdrU64, Xdr.encoding, Xdr.xdrRW, Xdr.decoding, be64_putU64]
      have hR : (Xdr.xdrRW ⟨none, false, buf⟩ (be64 v)).1 = ⟨none, false, buf ++ be64 v⟩ := by
        simp [Xdr.xdrRW]
      rw [hX]
      rw [hR] at h1'
      have h1 := h1'
      obtain ⟨⟨e1, b1, hx1, he1, hb1, hn1⟩, xlt1, alt1, wlt1, ho1⟩ := h1'
      obtain rfl := he1.nil
      dsimp only at *
      go_run [hx1, k1, d1]
      refine ⟨Post.via (by omega) h1 (by go_run) (by go_run) (by go_run) (by go_lt) (by go_keeps' [k1, o1]), ?_⟩
      exact put_at hv

theorem XdrS32_spec (E : Ext ω) (k : Nat) {st : St ω} {x a w xs} (h : Xs st x a w xs) (T : String) (t : Nat) (p : List String)
    (v : Int32) (hv : (st.heap t).at p = some (.i32 v)) (h0 : t < st.next) (h1 : t ≠ x) (h2 : t ≠ a) (h3 : t ≠ w) :
    wp (callN (xdrPkg :: Ps) E (k + 2) (.fn "xdr" "XdrS32") [.ptr "" ⟨x, []⟩, .ptr T ⟨t, p⟩])
      (fun r st' => r = [] ∧ Post st st' x a w t (Xdr.xdrS32 xs v).1 ∧
        V.put (.i32 (Xdr.xdrS32 xs v).2) (st.heap t) p = some (st'.heap t)) st := by
  have h' := h
  obtain ⟨err, reader, buf⟩ := xs
  obtain ⟨⟨e, b, hx, he, hb, hn⟩, xlt, alt, wlt, ho⟩ := h
  dsimp only at *
  rw [wp_callN _ _ _ _ _ _ _ _ _ find_lib_XdrS32, wp_callFunc, lib_XdrS32]
  cases err with
  | some r => 
    obtain ⟨m, vs, rfl⟩ := he.some'
    go_run [hx]
    simp only [Xdr.xdrS32, Option.isSome, ↓reduceIte]
    refine ⟨Post.intro w _ b (.inl rfl) (by go_run [hx]) he (hb.mono ?_) hn xlt alt (by go_lt) ho (by go_keeps), ?_⟩
    · cases reader <;> go_run
    · exact put_at hv
  | none => 
    obtain rfl := he.nil
    cases reader with
    | true => 
      simp only [↓reduceIte] at *
      subst ho
      go_run [hx, hv]
      refine wp_mono (xdrRW_local E k (h'.mono (by go_run) (by go_run) (by go_run) (by go_lt)) _ _ [0, 0, 0, 0] (by go_run) rfl ?_ ?_ ?_ ?_) ?_
      · go_lt
      · go_ne
      · go_ne
      · go_ne
      rintro _ st1 ⟨rfl, ⟨w1, hw1, h1', hk⟩, hp⟩
      go_after hk n1 k1 o1 d1
      cases hR : Xdr.xdrRW ⟨none, true, buf⟩ [0, 0, 0, 0] with
      | mk xs1 l1 =>
      have hl1 := rw_length' hR
      have hr1 := rw_reader' hR
      rw [hR] at h1' hp
      obtain ⟨err1, reader1, buf1⟩ := xs1
      have h1 := h1'
      obtain ⟨⟨e1, b1, hx1, he1, hb1, hn1⟩, xlt1, alt1, wlt1, ho1⟩ := h1'
      dsimp only at *
      subst hr1
      simp only [↓reduceIte] at *
      subst ho1
      cases err1 with
      | some r => 
        obtain ⟨m, vs, rfl⟩ := he1.some'
        go_run [hx1, k1, d1]
        have hX : Xdr.xdrS32 ⟨none, true, buf⟩ v = (⟨some r, true, buf1⟩, v) := by
          simp [Xdr.xdrS32, Xdr.encoding, Xdr.zeros, hR, Xdr.decoding]
        rw [hX]
        refine ⟨Post.via (.inl rfl) h1 (by go_run) (by go_run) (by go_run) (by go_lt) (by go_keeps' [k1, o1]), ?_⟩
        exact put_at hv
      | none => 
        obtain rfl := he1.nil
        obtain ⟨W, hW⟩ := put_some hv (.i32 (Xdr.getU32 l1).toInt32)
        go_run [hx1, k1, d1, hp, List.take_of_length_le, List.drop_zero, ofBe32_getU32 l1 hl1, hW, hv]
        have hX : Xdr.xdrS32 ⟨none, true, buf⟩ v = (⟨none, true, buf1⟩, (Xdr.getU32 l1).toInt32) := by
          simp [Xdr.xdrS32, Xdr.encoding, Xdr.zeros, hR, Xdr.decoding]
        rw [hX]
        refine ⟨Post.via (.inl rfl) h1 (by go_run) (by go_run) (by go_run) (by go_lt) (by go_keeps' [k1, o1]), ?_⟩
        exact hW
    | false =>
      simp only [↓reduceIte, Bool.false_eq_true] at *
      subst ho
      go_run [hx, hv, be32_length, overwrite_be32]
      refine wp_mono (xdrRW_local E k (h'.mono (by go_run) (by go_run) (by go_run) (by go_lt)) _ _ (be32 v.toUInt32) (by go_run [overwrite_be32, be32_length]) (by simp only [be32_length]) ?_ ?_ ?_ ?_) ?_
      · go_lt
      · go_ne
      · go_ne
      · go_ne
      rintro _ st1 ⟨rfl, ⟨w1, hw1, h1', hk⟩, hp⟩
      go_after hk n1 k1 o1 d1
      simp only [next_set, next_push, next_deferring] at hw1
      have hX : Xdr.xdrS32 ⟨none, false, buf⟩ v = (⟨none, false, buf ++ be32 v.toUInt32⟩, v) := by
        simp [Xdr.xdrS32, Xdr.encoding, Xdr.xdrRW, Xdr.decoding, be32_putU32]
      have hR : (Xdr.xdrRW ⟨none, false, buf⟩ (be32 v.toUInt32)).1 = ⟨none, false, buf ++ be32 v.toUInt32⟩ := by
        simp [Xdr.xdrRW]
      rw [hX]
      rw [hR] at h1'
      have h1 := h1'
      obtain ⟨⟨e1, b1, hx1, he1, hb1, hn1⟩, xlt1, alt1, wlt1, ho1⟩ := h1'
      obtain rfl := he1.nil
      dsimp only at *
      go_run [hx1, k1, d1]
      refine ⟨Post.via (by omega) h1 (by go_run) (by go_run) (by go_run) (by go_lt) (by go_keeps' [k1, o1]), ?_⟩
      exact put_at hv

theorem XdrS64_spec (E : Ext ω) (k : Nat) {st : St ω} {x a w xs} (h : Xs st x a w xs) (T : String) (t : Nat) (p : List String)
    (v : Int64) (hv : (st.heap t).at p = some (.i64 v)) (h0 : t < st.next) (h1 : t ≠ x) (h2 : t ≠ a) (h3 : t ≠ w) :
    wp (callN (xdrPkg :: Ps) E (k + 2) (.fn "xdr" "XdrS64") [.ptr "" ⟨x, []⟩, .ptr T ⟨t, p⟩])
      (fun r st' => r = [] ∧ Post st st' x a w t (Xdr.xdrS64 xs v).1 ∧
        V.put (.i64 (Xdr.xdrS64 xs v).2) (st.heap t) p = some (st'.heap t)) st := by
  have h' := h
  obtain ⟨err, reader, buf⟩ := xs
  obtain ⟨⟨e, b, hx, he, hb, hn⟩, xlt, alt, wlt, ho⟩ := h
  dsimp only at *
  rw [wp_callN _ _ _ _ _ _ _ _ _ find_lib_XdrS64, wp_callFunc, lib_XdrS64]
  cases err with
  | some r => 
    obtain ⟨m, vs, rfl⟩ := he.some'
    go_run [hx]
    simp only [Xdr.xdrS64, Option.isSome, ↓reduceIte]
    refine ⟨Post.intro w _ b (.inl rfl) (by go_run [hx]) he (hb.mono ?_) hn xlt alt (by go_lt) ho (by go_keeps), ?_⟩
    · cases reader <;> go_run
    · exact put_at hv
  | none => 
    obtain rfl := he.nil
    cases reader with
    | true => 
      simp only [↓reduceIte] at *
      subst ho
      go_run [hx, hv]
      refine wp_mono (xdrRW_local E k (h'.mono (by go_run) (by go_run) (by go_run) (by go_lt)) _ _ [0, 0, 0, 0, 0, 0, 0, 0] (by go_run) rfl ?_ ?_ ?_ ?_) ?_
      · go_lt
      · go_ne
      · go_ne
      · go_ne
      rintro _ st1 ⟨rfl, ⟨w1, hw1, h1', hk⟩, hp⟩
      go_after hk n1 k1 o1 d1
      cases hR : Xdr.xdrRW ⟨none, true, buf⟩ [0, 0, 0, 0, 0, 0, 0, 0] with
      | mk xs1 l1 =>
      have hl1 := rw_length' hR
      have hr1 := rw_reader' hR
      rw [hR] at h1' hp
      obtain ⟨err1, reader1, buf1⟩ := xs1
      have h1 := h1'
      obtain ⟨⟨e1, b1, hx1, he1, hb1, hn1⟩, xlt1, alt1, wlt1, ho1⟩ := h1'
      dsimp only at *
      subst hr1
      simp only [↓reduceIte] at *
      subst ho1
      cases err1 with
      | some r => 
        obtain ⟨m, vs, rfl⟩ := he1.some'
        go_run [hx1, k1, d1]
        have hX : Xdr.xdrS64 ⟨none, true, buf⟩ v = (⟨some r, true, buf1⟩, v) := by
          simp [Xdr.xdrS64, Xdr.encoding, Xdr.zeros, hR, Xdr.decoding]
        rw [hX]
        refine ⟨Post.via (.inl rfl) h1 (by go_run) (by go_run) (by go_run) (by go_lt) (by go_keeps' [k1, o1]), ?_⟩
        exact put_at hv
      | none => 
        obtain rfl := he1.nil
        obtain ⟨W, hW⟩ := put_some hv (.i64 (Xdr.getU64 l1).toInt64)
        go_run [hx1, k1, d1, hp, List.take_of_length_le, List.drop_zero, ofBe64_getU64 l1 hl1, hW, hv]
        have hX : Xdr.xdrS64 ⟨none, true, buf⟩ v = (⟨none, true, buf1⟩, (Xdr.getU64 l1).toInt64) := by
          simp [Xdr.xdrS64, Xdr.encoding, Xdr.zeros, hR, Xdr.decoding]
        rw [hX]
        refine ⟨Post.via (.inl rfl) h1 (by go_run) (by go_run) (by go_run) (by go_lt) (by go_keeps' [k1, o1]), ?_⟩
        exact hW
    | false =>
      simp only [↓reduceIte, Bool.false_eq_true] at *
      subst ho
      go_run [hx, hv, be64_length, overwrite_be64]
      refine wp_mono (xdrRW_local E k (h'.mono (by go_run) (by go_run) (by go_run) (by go_lt)) _ _ (be64 v.toUInt64) (by go_run [overwrite_be64, be64_length]) (by simp only [be64_length]) ?_ ?_ ?_ ?_) ?_
      · go_lt
      · go_ne
      · go_ne
      · go_ne
      rintro _ st1 ⟨rfl, ⟨w1, hw1, h1', hk⟩, hp⟩
      go_after hk n1 k1 o1 d1
      simp only [next_set, next_push, next_deferring] at hw1
      have hX : Xdr.xdrS64 ⟨none, false, buf⟩ v = (⟨none, false, buf ++ be64 v.toUInt64⟩, v) := by
        simp [Xdr.xdrS64, Xdr.encoding, Xdr.xdrRW, Xdr.decoding, be64_putU64]
      have hR : (Xdr.xdrRW ⟨none, false, buf⟩ (be64 v.toUInt64)).1 = ⟨none, false, buf ++ be64 v.toUInt64⟩ := by
        simp [Xdr.xdrRW]
      rw [hX]
      rw [hR] at h1'
      have h1 := h1'
      obtain ⟨⟨e1, b1, hx1, he1, hb1, hn1⟩, xlt1, alt1, wlt1, ho1⟩ := h1'
      obtain rfl := he1.nil
      dsimp only at *
      go_run [hx1, k1, d1]
      refine ⟨Post.via (by omega) h1 (by go_run) (by go_run) (by go_run) (by go_lt) (by go_keeps' [k1, o1]), ?_⟩
      exact put_at hv

theorem ofInt32_0 : UInt32.ofInt ((0 : Nat) : Int) = 0 := (rfl)
theorem ofInt32_1 : UInt32.ofInt ((1 : Nat) : Int) = 1 := (rfl)

theorem XdrBool_spec (E : Ext ω) (k : Nat) {st : St ω} {x a w xs} (h : Xs st x a w xs) (T : String) (t : Nat) (p : List String)
    (v : Bool) (hv : (st.heap t).at p = some (.bool v)) (h0 : t < st.next) (h1 : t ≠ x) (h2 : t ≠ a) (h3 : t ≠ w) :
    wp (callN (xdrPkg :: Ps) E (k + 2) (.fn "xdr" "XdrBool") [.ptr "" ⟨x, []⟩, .ptr T ⟨t, p⟩])
      (fun r st' => r = [] ∧ Post st st' x a w t (Xdr.xdrBool xs v).1 ∧
        V.put (.bool (Xdr.xdrBool xs v).2) (st.heap t) p = some (st'.heap t)) st := by
  have h' := h
  obtain ⟨err, reader, buf⟩ := xs
  obtain ⟨⟨e, b, hx, he, hb, hn⟩, xlt, alt, wlt, ho⟩ := h
  dsimp only at *
  rw [wp_callN _ _ _ _ _ _ _ _ _ find_lib_XdrBool, wp_callFunc, lib_XdrBool]
  cases err with
  | some r => 
    obtain ⟨m, vs, rfl⟩ := he.some'
    go_run [hx]
    simp only [Xdr.xdrBool, Option.isSome, ↓reduceIte]
    refine ⟨Post.intro w _ b (.inl rfl) (by go_run [hx]) he (hb.mono ?_) hn xlt alt (by go_lt) ho (by go_keeps), ?_⟩
    · cases reader <;> go_run
    · exact put_at hv
  | none => 
    obtain rfl := he.nil
    cases reader with
    | true => 
      simp only [↓reduceIte] at *
      subst ho
      go_run [hx, hv]
      refine wp_mono (xdrRW_local E k (h'.mono (by go_run) (by go_run) (by go_run) (by go_lt)) _ _ [0, 0, 0, 0] (by go_run) rfl ?_ ?_ ?_ ?_) ?_
      · go_lt
      · go_ne
      · go_ne
      · go_ne
      rintro _ st1 ⟨rfl, ⟨w1, hw1, h1', hk⟩, hp⟩
      go_after hk n1 k1 o1 d1
      cases hR : Xdr.xdrRW ⟨none, true, buf⟩ [0, 0, 0, 0] with
      | mk xs1 l1 =>
      have hl1 := rw_length' hR
      have hr1 := rw_reader' hR
      rw [hR] at h1' hp
      obtain ⟨err1, reader1, buf1⟩ := xs1
      have h1 := h1'
      obtain ⟨⟨e1, b1, hx1, he1, hb1, hn1⟩, xlt1, alt1, wlt1, ho1⟩ := h1'
      dsimp only at *
      subst hr1
      simp only [↓reduceIte] at *
      subst ho1
      cases err1 with
      | some r => 
        obtain ⟨m, vs, rfl⟩ := he1.some'
        go_run [hx1, k1, d1]
        have hX : Xdr.xdrBool ⟨none, true, buf⟩ v = (⟨some r, true, buf1⟩, v) := by
          simp [Xdr.xdrBool, Xdr.encoding, Xdr.zeros, hR, Xdr.decoding]
        rw [hX]
        refine ⟨Post.via (.inl rfl) h1 (by go_run) (by go_run) (by go_run) (by go_lt) (by go_keeps' [k1, o1]), ?_⟩
        exact put_at hv
      | none => 
        obtain rfl := he1.nil
        by_cases hz : Xdr.getU32 l1 = 0
        · have hz' : (Xdr.getU32 l1 == UInt32.ofInt ((0 : Nat) : Int)) = true := by rw [ofInt32_0, hz]; rfl
          obtain ⟨W, hW⟩ := put_some hv (.bool false)
          go_run [hx1, k1, d1, hp, List.take_of_length_le, List.drop_zero, ofBe32_getU32 l1 hl1, hW, hv, hz']
          have hX : Xdr.xdrBool ⟨none, true, buf⟩ v = (⟨none, true, buf1⟩, false) := by
            simp [Xdr.xdrBool, Xdr.encoding, Xdr.zeros, hR, Xdr.decoding, hz]
          rw [hX]
          exact ⟨Post.via (.inl rfl) h1 (by go_run) (by go_run) (by go_run) (by go_lt) (by go_keeps' [k1, o1]), hW⟩
        · have hz' : (Xdr.getU32 l1 == UInt32.ofInt ((0 : Nat) : Int)) = false := by rw [ofInt32_0]; simp [hz]
          obtain ⟨W, hW⟩ := put_some hv (.bool true)
          go_run [hx1, k1, d1, hp, List.take_of_length_le, List.drop_zero, ofBe32_getU32 l1 hl1, hW, hv, hz']
          have hX : Xdr.xdrBool ⟨none, true, buf⟩ v = (⟨none, true, buf1⟩, true) := by
            simp [Xdr.xdrBool, Xdr.encoding, Xdr.zeros, hR, Xdr.decoding, hz]
          rw [hX]
          exact ⟨Post.via (.inl rfl) h1 (by go_run) (by go_run) (by go_run) (by go_lt) (by go_keeps' [k1, o1]), hW⟩
    | false =>
      simp only [↓reduceIte, Bool.false_eq_true] at *
      subst ho
      cases v with
      | true =>
        go_run [hx, hv, be32_length, overwrite_be32, ofInt32_0, ofInt32_1]
        refine wp_mono (xdrRW_local E k (h'.mono (by go_run) (by go_run) (by go_run) (by go_lt)) _ _ (be32 (1)) (by go_run [overwrite_be32, ofInt32_0, ofInt32_1, be32_length]) (by simp only [be32_length]) ?_ ?_ ?_ ?_) ?_
        · go_lt
        · go_ne
        · go_ne
        · go_ne
        rintro _ st1 ⟨rfl, ⟨w1, hw1, h1', hk⟩, hp⟩
        go_after hk n1 k1 o1 d1
        simp only [next_set, next_push, next_deferring] at hw1
        have hX : Xdr.xdrBool ⟨none, false, buf⟩ true = (⟨none, false, buf ++ be32 (1)⟩, true) := by
          simp [Xdr.xdrBool, Xdr.encoding, Xdr.xdrRW, Xdr.decoding, be32_putU32]
        have hR : (Xdr.xdrRW ⟨none, false, buf⟩ (be32 (1))).1 = ⟨none, false, buf ++ be32 (1)⟩ := by
          simp [Xdr.xdrRW]
        rw [hX]
        rw [hR] at h1'
        have h1 := h1'
        obtain ⟨⟨e1, b1, hx1, he1, hb1, hn1⟩, xlt1, alt1, wlt1, ho1⟩ := h1'
        obtain rfl := he1.nil
        dsimp only at *
        go_run [hx1, k1, d1]
        refine ⟨Post.via (by omega) h1 (by go_run) (by go_run) (by go_run) (by go_lt) (by go_keeps' [k1, o1]), ?_⟩
        exact put_at hv
      | false =>
        go_run [hx, hv, be32_length, overwrite_be32, ofInt32_0, ofInt32_1]
        refine wp_mono (xdrRW_local E k (h'.mono (by go_run) (by go_run) (by go_run) (by go_lt)) _ _ (be32 (0)) (by go_run [overwrite_be32, ofInt32_0, ofInt32_1, be32_length]) (by simp only [be32_length]) ?_ ?_ ?_ ?_) ?_
        · go_lt
        · go_ne
        · go_ne
        · go_ne
        rintro _ st1 ⟨rfl, ⟨w1, hw1, h1', hk⟩, hp⟩
        go_after hk n1 k1 o1 d1
        simp only [next_set, next_push, next_deferring] at hw1
        have hX : Xdr.xdrBool ⟨none, false, buf⟩ false = (⟨none, false, buf ++ be32 (0)⟩, false) := by
          simp [Xdr.xdrBool, Xdr.encoding, Xdr.xdrRW, Xdr.decoding, be32_putU32]
        have hR : (Xdr.xdrRW ⟨none, false, buf⟩ (be32 (0))).1 = ⟨none, false, buf ++ be32 (0)⟩ := by
          simp [Xdr.xdrRW]
        rw [hX]
        rw [hR] at h1'
        have h1 := h1'
        obtain ⟨⟨e1, b1, hx1, he1, hb1, hn1⟩, xlt1, alt1, wlt1, ho1⟩ := h1'
        obtain rfl := he1.nil
        dsimp only at *
        go_run [hx1, k1, d1]
        refine ⟨Post.via (by omega) h1 (by go_run) (by go_run) (by go_run) (by go_lt) (by go_keeps' [k1, o1]), ?_⟩
        exact put_at hv

end Verif.Lang
