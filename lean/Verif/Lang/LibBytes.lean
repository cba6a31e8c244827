/-
What the text of `xdr/lib.go` computes, continued: constructors, small methods, `xdrR`, and the functions for
byte arrays and strings (lib.go:21-72, 91-103, 191-271).
-/
import Verif.Lang.LibScalar

namespace Verif.Lang
open Verif.Xdr (XErr XdrState)
variable {ω : Type} {Ps : Prog}
set_option linter.unusedSimpArgs false

theorem BytesAt.mono' {st st' : St ω} {c x : Nat} {b : V} {l : List UInt8} (h : BytesAt st c b l) (hn : c = x ↔ b = .nil)
    (e : c ≠ x → st'.heap c = st.heap c) : BytesAt st' c b l := by
  cases h with
  | nil => exact .nil
  | slice s arr h hc => exact (BytesAt.slice s arr h hc).mono (e (fun q => by have := hn.1 q; cases this))

theorem ofInt32_nat (n : Nat) : UInt32.ofInt (n : Int) = UInt32.ofNat n := by
  apply UInt32.toNat_inj.1
  simp only [UInt32.ofInt, UInt32.toNat_ofNat']
  omega

/-! ### Constructors and small methods (lib.go:21-72) -/

theorem EncodingSetSize_spec (E : Ext ω) (k : Nat) {st : St ω} {x a w xs} (h : Xs st x a w xs) (T : String) (t : Nat) (p : List String)
    (v : UInt32) (hv : (st.heap t).at p = some (.u32 v)) (n : Nat) (h0 : t < st.next) (h1 : t ≠ x) (_ : t ≠ a) (h3 : t ≠ w) :
    wp (callN (xdrPkg :: Ps) E (k + 2) (.meth "xdr.XdrState" "EncodingSetSize") [.ptr "" ⟨x, []⟩, .ptr T ⟨t, p⟩, .int n])
      (fun r st' => r = [] ∧ Post st st' x a w t (Xdr.encodingSetSize xs v n).1 ∧
        V.put (.u32 (Xdr.encodingSetSize xs v n).2) (st.heap t) p = some (st'.heap t)) st := by
  have h' := h
  obtain ⟨err, reader, buf⟩ := xs
  obtain ⟨⟨e, b, hx, he, hb, hn⟩, xlt, alt, wlt, ho⟩ := h
  dsimp only at *
  rw [wp_callN _ _ _ _ _ _ _ _ _ find_lib_XdrState_EncodingSetSize, wp_callFunc, lib_XdrState_EncodingSetSize]
  cases err with
  | some r => 
    obtain ⟨m, vs, rfl⟩ := he.some'
    go_run [hx]
    exact ⟨Post.via (.inl rfl) h' (by go_run) (by go_run) (by go_run) (by go_lt) (by go_keeps), put_at hv⟩
  | none =>
    obtain rfl := he.nil
    cases reader with
    | true => 
      simp only [↓reduceIte] at *
      subst ho
      go_run [hx, hv]
      exact ⟨Post.via (.inl rfl) h' (by go_run) (by go_run) (by go_run) (by go_lt) (by go_keeps), put_at hv⟩
    | false =>
      simp only [↓reduceIte, Bool.false_eq_true] at *
      subst ho
      by_cases hm : (4294967295 : Int) < n
      · have hm' : 4294967295 < n := by omega
        go_run [hx, hv, hm]
        simp only [Xdr.encodingSetSize, Xdr.maxUint32, hm', Xdr.setError, Option.isSome, ↓reduceIte, Bool.false_eq_true]
        exact ⟨Post.writer w _ _ (.inl rfl) (by go_run) (.msg _) (hb.mono' hn (fun _ => by go_run)) hn xlt (by go_lt) (by go_keeps), put_at hv⟩
      · have hm' : ¬ 4294967295 < n := by omega
        obtain ⟨W, hW⟩ := put_some hv (.u32 (UInt32.ofInt n))
        go_run [hx, hv, hm, hW]
        simp only [Xdr.encodingSetSize, Xdr.maxUint32, hm', Option.isSome, ↓reduceIte, Bool.false_eq_true]
        refine ⟨Post.writer w _ _ (.inl rfl) (by go_run [hx] <;> rfl) he (hb.mono (by go_run)) hn xlt (by go_lt) (by go_keeps), ?_⟩
        rw [← hW]
        exact congrArg (fun y => V.put (.u32 y) (st.heap t) p) (ofInt32_nat n).symm

/-- What a `[]byte` is. -/
inductive GoB (st : St ω) : V → Xdr.GoBytes → Prop
  | nil : GoB st .nil none
  | slice (s : Slice) (arr : List UInt8) (h : ArrAt st s arr) : GoB st (.slice s) (some (sub s arr))

theorem sub_take (s : Slice) (arr : List UInt8) (n c : Nat) (hn : n ≤ s.len) :
    sub ⟨s.base, s.off, n, c⟩ arr = (sub s arr).take n := by
  simp only [sub, List.take_take]
  rw [Nat.min_eq_left hn]

theorem xdrR_spec (E : Ext ω) (k : Nat) {st : St ω} {x a w xs} (h : Xs st x a w xs) (hr : xs.reader = true)
    (hax : a ≠ x ∨ xs.err ≠ none) (n : Nat) :
    wp (callN (xdrPkg :: Ps) E (k + 1) (.fn "xdr" "xdrR") [.ptr "" ⟨x, []⟩, .int n])
      (fun r st' => ∃ v, r = [v] ∧ Post st st' x a w x (Xdr.xdrR xs n).1 ∧ GoB st' v (Xdr.xdrR xs n).2 ∧
        (v = .nil ∨ a ≠ x ∧ ∃ o, v = .slice ⟨⟨a, []⟩, o, n, n⟩)) st := by
  have h' := h
  obtain ⟨err, reader, buf⟩ := xs
  obtain ⟨⟨e, b, hx, he, hb, hn⟩, xlt, alt, wlt, ho⟩ := h
  dsimp only at *
  subst hr
  simp only [↓reduceIte] at *
  subst ho
  rw [wp_callN _ _ _ _ _ _ _ _ _ find_lib_xdrR, wp_callFunc, lib_xdrR]
  cases hb with
  | nil =>
    have hx' : err ≠ none := by
      rcases hax with h | h
      · exact absurd (hn.2 rfl) h
      · exact h
    by_cases hlt : 0 < n
    · have hX : Xdr.xdrR ⟨err, true, []⟩ n = (⟨some (.notEnough n 0), true, []⟩, none) := by
        simp [Xdr.xdrR, hlt]
      rw [hX]
      go_run [hx]
      exact ⟨_, rfl, Post.reader _ _ (by go_run <;> rfl) (.have' _ _) .nil hn xlt alt (by go_keeps), .nil, .inl rfl⟩
    · cases err with
      | none => exact absurd rfl hx'
      | some r =>
        obtain ⟨m, vs, rfl⟩ := he.some'
        have hX : Xdr.xdrR ⟨some r, true, []⟩ n = (⟨some r, true, []⟩, none) := by
          simp [Xdr.xdrR, hlt]
        rw [hX]
        go_run [hx]
        exact ⟨_, rfl, Post.reader _ _ (by go_run [hx] <;> rfl) he .nil hn xlt alt (by go_keeps), .nil, .inl rfl⟩
  | slice s' arr' ha hc =>
    obtain ⟨ha1, ha2, ha3⟩ := id ha
    rw [hc] at ha1
    have hl' := sub_length ha
    have haw : a ≠ w := by intro h; have := hn.1 h; cases this
    by_cases hlt : s'.len < n
    · have hX : Xdr.xdrR ⟨err, true, sub s' arr'⟩ n = (⟨some (.notEnough n s'.len), true, sub s' arr'⟩, none) := by
        simp [Xdr.xdrR, hlt, hl']
      rw [hX]
      go_run [hx]
      exact ⟨_, rfl, Post.reader _ _ (by go_run) (.have' _ _) (.slice _ _ ⟨by rw [hc]; go_run [ha1], ha.2⟩ hc) hn xlt alt (by go_keeps), .nil, .inl rfl⟩
    · cases err with
      | none => 
        obtain rfl := he.nil
        have hX : Xdr.xdrR ⟨none, true, sub s' arr'⟩ n = (⟨none, true, (sub s' arr').drop n⟩, some ((sub s' arr').take n)) := by
          simp [Xdr.xdrR, hlt, hl']
        rw [hX]
        go_run [hx]
        refine ⟨_, rfl, Post.reader _ _ (by go_run <;> rfl) he ?_ (by simp [haw]) xlt alt (by go_keeps), ?_, .inr ⟨haw, _, by rw [hc]⟩⟩
        · rw [hc]
          exact BytesAt.drop ⟨by rw [hc]; go_run [ha1], ha.2⟩ hc n (by omega)
        · rw [← sub_take s' arr' n n (by omega)]
          refine .slice _ _ ⟨by dsimp only; rw [hc]; go_run [ha1], by dsimp only; omega, by dsimp only; omega⟩
      | some r =>
        obtain ⟨m, vs, rfl⟩ := he.some'
        have hX : Xdr.xdrR ⟨some r, true, sub s' arr'⟩ n = (⟨some r, true, sub s' arr'⟩, none) := by
          simp [Xdr.xdrR, hlt, hl']
        rw [hX]
        go_run [hx]
        exact ⟨_, rfl, Post.reader _ _ (by go_run [hx] <;> rfl) he (.slice _ _ ⟨by rw [hc]; go_run [ha1], ha.2⟩ hc) hn xlt alt (by go_keeps), .nil, .inl rfl⟩

/-- Only new cells. -/
structure Grows (st st' : St ω) : Prop where
  heap : ∀ j, j < st.next → st'.heap j = st.heap j
  next : st.next ≤ st'.next
  world : st'.world = st.world
  defers : st'.defers = st.defers

macro "go_grows" : tactic => `(tactic|
  exact ⟨fun j _ => by
      simp (disch := go_ne) only [heap_set_ne, heap_push_ne, heap_deferring],
    by simp only [next_set, next_push, next_deferring]; omega, by rfl, by rfl⟩)

/-- The new state is in a new cell; a reader's array is that of the argument. -/
theorem MakeReader_spec (E : Ext ω) (k : Nat) {st : St ω} {c b l} (hb : BytesAt st c b l) (hc : c < st.next) :
    wp (callN (xdrPkg :: Ps) E (k + 1) (.fn "xdr" "MakeReader") [b])
      (fun r st' => ∃ x a, r = [.ptr "" ⟨x, []⟩] ∧ ¬ x < st.next ∧ Xs st' x a x (Xdr.makeReader l) ∧
        ((b = .nil ∧ a = x) ∨ (b ≠ .nil ∧ a = c)) ∧ Grows st st') st := by
  rw [wp_callN _ _ _ _ _ _ _ _ _ find_lib_MakeReader, wp_callFunc, lib_MakeReader]
  cases hb with
  | nil =>
    go_run
    refine ⟨_, _, rfl, by omega, ⟨⟨.nil, .nil, by go_run <;> rfl, .none, .nil, ?_⟩, ?_, ?_, ?_, rfl⟩, rfl, by go_grows⟩
    · simp [Xdr.makeReader]
    · go_lt
    · go_lt
    · go_lt
  | slice s arr h hc' =>
    go_run
    refine ⟨_, _, rfl, by omega, ⟨⟨.nil, .slice s, by go_run <;> rfl, .none, ?_, ?_⟩, ?_, ?_, ?_, rfl⟩, rfl, by go_grows⟩
    · exact .slice s arr ⟨by rw [← h.1]; go_run [hc'], h.2⟩ (by simp [hc', Xdr.makeReader])
    · simp [Xdr.makeReader]; omega
    · go_lt
    · go_lt
    · go_lt

theorem MakeWriter_spec (E : Ext ω) (k : Nat) {st : St ω} {c b l} (hb : BytesAt st c b l) (hc : c < st.next) :
    wp (callN (xdrPkg :: Ps) E (k + 1) (.fn "xdr" "MakeWriter") [b])
      (fun r st' => ∃ x w, r = [.ptr "" ⟨x, []⟩] ∧ ¬ x < st.next ∧ Xs st' x x w (Xdr.makeWriter l) ∧
        ((b = .nil ∧ w = x) ∨ (b ≠ .nil ∧ w = c)) ∧ Grows st st') st := by
  rw [wp_callN _ _ _ _ _ _ _ _ _ find_lib_MakeWriter, wp_callFunc, lib_MakeWriter]
  cases hb with
  | nil =>
    go_run
    refine ⟨_, _, rfl, by omega, ⟨⟨.nil, .nil, by go_run <;> rfl, .none, .nil, ?_⟩, ?_, ?_, ?_, rfl⟩, rfl, by go_grows⟩
    · simp [Xdr.makeWriter]
    · go_lt
    · go_lt
    · go_lt
  | slice s arr h hc' =>
    go_run
    refine ⟨_, _, rfl, by omega, ⟨⟨.nil, .slice s, by go_run <;> rfl, .none, ?_, ?_⟩, ?_, ?_, ?_, rfl⟩, rfl, by go_grows⟩
    · exact .slice s arr ⟨by rw [← h.1]; go_run [hc'], h.2⟩ (by simp [hc', Xdr.makeWriter])
    · simp [Xdr.makeWriter]; omega
    · go_lt
    · go_lt
    · go_lt

/-- The buffer, in the same array. -/
theorem WriteBuf_spec (E : Ext ω) (k : Nat) {st : St ω} {x a w xs} (h : Xs st x a w xs) (hr : xs.reader = false) :
    wp (callN (xdrPkg :: Ps) E (k + 1) (.meth "xdr.XdrState" "WriteBuf") [.ptr "" ⟨x, []⟩])
      (fun r st' => ∃ b, r = [b] ∧ BytesAt st' w b (Xdr.writeBuf xs) ∧ (w = x ↔ b = .nil) ∧ Xs st' x a w xs ∧ Grows st st') st := by
  have h' := h
  obtain ⟨err, reader, buf⟩ := xs
  obtain ⟨⟨e, b, hx, he, hb, hn⟩, xlt, alt, wlt, ho⟩ := h
  dsimp only at *
  subst hr
  simp only [↓reduceIte, Bool.false_eq_true] at *
  rw [wp_callN _ _ _ _ _ _ _ _ _ find_lib_XdrState_WriteBuf, wp_callFunc, lib_XdrState_WriteBuf]
  go_run [hx]
  exact ⟨_, rfl, hb.mono (by go_run), hn, h'.mono (by go_run) (by go_run) (by go_run) (by go_lt), by go_grows⟩

theorem xdrRW_nil (E : Ext ω) (k : Nat) {st : St ω} {x a w xs} (h : Xs st x a w xs) :
    wp (callN (xdrPkg :: Ps) E (k + 1) (.fn "xdr" "xdrRW") [.ptr "" ⟨x, []⟩, .nil])
      (fun r st' => r = [] ∧ Post st st' x a w x (Xdr.xdrRW xs []).1) st := by
  have h' := h
  obtain ⟨err, reader, buf⟩ := xs
  obtain ⟨⟨e, b, hx, he, hb, hn⟩, xlt, alt, wlt, ho⟩ := h
  dsimp only at *
  rw [wp_callN _ _ _ _ _ _ _ _ _ find_lib_xdrRW, wp_callFunc, lib_xdrRW]
  cases err with
  | some r => 
    obtain ⟨m, vs, rfl⟩ := he.some'
    go_run [hx]
    exact Post.via (.inl rfl) h' (by go_run) (by go_run) (by go_run) (by go_lt) (by go_keeps)
  | none => 
    obtain rfl := he.nil
    cases reader with
    | true => 
      have hX : Xdr.xdrRW ⟨none, true, buf⟩ [] = (⟨none, true, buf⟩, []) := by simp [Xdr.xdrRW]
      rw [hX]
      simp only [↓reduceIte] at *
      subst ho
      cases hb with
      | nil =>
        go_run [hx]
        exact Post.reader _ _ (by go_run <;> rfl) he .nil hn xlt alt (by go_keeps)
      | slice s arr h hc =>
        have haw : a ≠ w := by intro h; have := hn.1 h; cases this
        obtain ⟨h1, h2, h3⟩ := id h
        rw [hc] at h1
        go_run [hx, hc, h1]
        refine Post.reader _ _ (by go_run <;> rfl) he ?_ (by simp [haw]) xlt alt (by go_keeps)
        exact BytesAt.drop ⟨by rw [hc]; go_run [h1], h.2⟩ hc 0 (by omega)
    | false =>
      have hX : Xdr.xdrRW ⟨none, false, buf⟩ [] = (⟨none, false, buf⟩, []) := by simp [Xdr.xdrRW]
      rw [hX]
      simp only [↓reduceIte, Bool.false_eq_true] at *
      subst ho
      cases hb with
      | nil =>
        go_run [hx]
        exact Post.writer w _ _ (.inl rfl) (by go_run <;> rfl) he .nil hn xlt (by go_lt) (by go_keeps)
      | slice s arr h hc =>
        have haw : w ≠ a := by intro h; have := hn.1 h; cases this
        obtain ⟨h1, h2, h3⟩ := id h
        rw [hc] at h1
        go_run [hx, hc, h1]
        refine Post.writer w _ _ (.inl rfl) (by go_run <;> rfl) he ?_ (by simp [haw]) xlt (by go_lt) (by go_keeps)
        rw [← hc]
        refine .slice _ _ ⟨?_, h.2⟩ hc
        dsimp only
        rw [hc]
        go_run [h1]
        simp [overwrite]

theorem four_ne : (((4 : Nat) : Int) = 0) = False := by simp
theorem tmod_four (n : Nat) : (n : Int).tmod ((4 : Nat) : Int) = ((n % 4 : Nat) : Int) := by
  rw [Int.tmod_eq_emod_of_nonneg (by omega)]; omega
theorem tmod_pad (n : Nat) : ((4 : Nat) - ((n % 4 : Nat) : Int)).tmod ((4 : Nat) : Int) = ((Xdr.padLen n : Nat) : Int) := by
  rw [Int.tmod_eq_emod_of_nonneg (by omega), Xdr.padLen]; omega

/-- Writing the bytes of a new array. -/
theorem xdrRW_push (E : Ext ω) (k : Nat) {st : St ω} {x a w xs} (h : Xs st x a w xs) (l : List UInt8) (i n c : Nat)
    (hi : i = st.next) (hn : n = l.length) (hc : c = l.length) :
    wp (callN (xdrPkg :: Ps) E (k + 1) (.fn "xdr" "xdrRW") [.ptr "" ⟨x, []⟩, .slice ⟨⟨i, []⟩, 0, n, c⟩])
      (fun r st' => r = [] ∧ Post st st' x a w x (Xdr.xdrRW xs l).1) (st.push (.bytes l)) := by
  have := h.xlt
  have := h.alt
  have := h.wlt
  subst hi hn hc
  refine wp_mono (xdrRW_local E k (h.mono (by go_run) (by go_run) (by go_run) (by go_lt)) _ _ l (by go_run) rfl
    (by go_lt) (by omega) (by omega) (by omega)) ?_
  rintro _ st1 ⟨rfl, ⟨w1, hw1, h1', hk⟩, hp⟩
  go_after hk n1 k1 o1 d1
  simp only [next_set, next_push, next_deferring] at hw1
  exact ⟨rfl, Post.via (by omega) h1' rfl rfl rfl (by go_lt) (by go_keeps' [k1, o1, d1])⟩

theorem XdrArray_spec (E : Ext ω) (k : Nat) {st : St ω} {x a w xs} (h : Xs st x a w xs) (s : Slice) (arr : List UInt8)
    (hv : ArrAt st s arr) (h0 : s.base.id < st.next) (h1 : s.base.id ≠ x) (h2 : s.base.id ≠ a) (h3 : s.base.id ≠ w) :
    wp (callN (xdrPkg :: Ps) E (k + 2) (.fn "xdr" "XdrArray") [.ptr "" ⟨x, []⟩, .slice s])
      (fun r st' => r = [] ∧ Post st st' x a w s.base.id (Xdr.xdrArray xs (sub s arr)).1 ∧
        V.put (.bytes (overwrite arr s.off (Xdr.xdrArray xs (sub s arr)).2)) (st.heap s.base.id) s.base.path =
          some (st'.heap s.base.id)) st := by
  have h' := h
  obtain ⟨err, reader, buf⟩ := xs
  obtain ⟨⟨e, b, hx, he, hb, hn⟩, xlt, alt, wlt, ho⟩ := h
  dsimp only at *
  rw [wp_callN _ _ _ _ _ _ _ _ _ find_lib_XdrArray, wp_callFunc, lib_XdrArray]
  cases err with
  | some r => 
    obtain ⟨m, vs, rfl⟩ := he.some'
    have hX : Xdr.xdrArray ⟨some r, reader, buf⟩ (sub s arr) = (⟨some r, reader, buf⟩, sub s arr) := by
      simp [Xdr.xdrArray]
    rw [hX]
    go_run [hx]
    refine ⟨Post.via (.inl rfl) h' (by go_run) (by go_run) (by go_run) (by go_lt) (by go_keeps), ?_⟩
    rw [overwrite_sub hv]
    exact put_at hv.1
  | none => 
    obtain rfl := he.nil
    have hv' : sub s arr = sub s arr := rfl
    go_run [hx]
    refine wp_mono (xdrRW_spec E k (h'.mono (by go_run) (by go_run) (by go_run) (by go_lt)) s arr ⟨by go_run [hv.1], hv.2⟩ (by go_lt) h1 h2 h3) ?_
    rintro _ st1 ⟨rfl, ⟨w1, hw1, h1', hk⟩, hp⟩
    go_after hk n1 k1 o1 d1
    simp only [next_set, next_push, next_deferring] at hw1
    simp (disch := go_ne) only [heap_set_ne, heap_push_ne, heap_deferring] at hp
    have hl := sub_length hv
    have hlR := rw_length ⟨none, reader, buf⟩ (sub s arr)
    have hX : Xdr.xdrArray ⟨none, reader, buf⟩ (sub s arr) =
        (if s.len % 4 ≠ 0 then (Xdr.xdrRW (Xdr.xdrRW ⟨none, reader, buf⟩ (sub s arr)).1 (Xdr.zeros (Xdr.padLen s.len))).1
          else (Xdr.xdrRW ⟨none, reader, buf⟩ (sub s arr)).1, (Xdr.xdrRW ⟨none, reader, buf⟩ (sub s arr)).2) := by
      simp [Xdr.xdrArray, hlR, hl]
    rw [hX]
    generalize (Xdr.xdrRW ⟨none, reader, buf⟩ (sub s arr)) = R at *
    by_cases h4 : s.len % 4 = 0
    · have h4' : (((s.len % 4 : Nat) : Int) == ((0 : Nat) : Int)) = true := by rw [h4]; rfl
      go_run [k1, four_ne, tmod_four, tmod_pad, h4', d1]
      rw [if_neg (by omega)]
      exact ⟨Post.via (by omega) h1' (by go_run) (by go_run) (by go_run) (by go_lt) (by go_keeps' [k1, o1]), hp⟩
    · have h4' : (((s.len % 4 : Nat) : Int) == ((0 : Nat) : Int)) = false := by simp; omega
      go_run [k1, four_ne, tmod_four, tmod_pad, h4']
      refine wp_mono (xdrRW_push E k h1' _ _ _ _ rfl (by simp only [List.length_replicate, Int.toNat_natCast]) rfl) ?_
      rintro _ st2 ⟨rfl, w2, hw2, h2', hk2⟩
      go_after hk2 n2 k2 o2 d2
      go_run [k2, d2, d1]
      rw [if_pos (by omega)]
      exact ⟨Post.via (by omega) h2' (by go_run) (by go_run) (by go_run) (by go_lt) (by go_keeps' [k2, k1, o2, o1]), hp⟩

theorem r_reader_eq (xs : XdrState) (n : Nat) : (Xdr.xdrR xs n).1.reader = xs.reader := by
  simp only [Xdr.xdrR]
  repeat' split
  all_goals rfl

set_option maxHeartbeats 1000000 in
theorem XdrString_spec (E : Ext ω) (k : Nat) {st : St ω} {x a w xs} (h : Xs st x a w xs) (m : Int) (T : String) (t : Nat) (p : List String)
    (l : List UInt8) (hv : (st.heap t).at p = some (.str l)) (h0 : t < st.next) (h1 : t ≠ x) (h2 : t ≠ a) (h3 : t ≠ w) :
    wp (callN (xdrPkg :: Ps) E (k + 2) (.fn "xdr" "XdrString") [.ptr "" ⟨x, []⟩, .int m, .ptr T ⟨t, p⟩])
      (fun r st' => r = [] ∧ Post st st' x a w t (Xdr.xdrString xs m l).1 ∧
        V.put (.str (Xdr.xdrString xs m l).2) (st.heap t) p = some (st'.heap t)) st := by
  have h' := h
  obtain ⟨err, reader, buf⟩ := xs
  obtain ⟨⟨e, b, hx, he, hb, hn⟩, xlt, alt, wlt, ho⟩ := h
  dsimp only at *
  rw [wp_callN _ _ _ _ _ _ _ _ _ find_lib_XdrString, wp_callFunc, lib_XdrString]
  cases err with
  | some r => 
    obtain ⟨m', vs, rfl⟩ := he.some'
    have hX : Xdr.xdrString ⟨some r, reader, buf⟩ m l = (⟨some r, reader, buf⟩, l) := by
      simp [Xdr.xdrString]
    rw [hX]
    go_run [hx]
    exact ⟨Post.via (.inl rfl) h' (by go_run) (by go_run) (by go_run) (by go_lt) (by go_keeps), put_at hv⟩
  | none => 
    obtain rfl := he.nil
    cases reader with
    | true => 
      simp only [↓reduceIte] at *
      subst ho
      go_run [hx, hv, Bool.not_eq_true', decide_eq_false_iff_not]
      refine wp_mono (xdrRW_local E k (h'.mono (by go_run) (by go_run) (by go_run) (by go_lt)) _ _ [0, 0, 0, 0] (by go_run) rfl ?_ ?_ ?_ ?_) ?_
      · go_lt
      · go_ne
      · go_ne
      · go_ne
      rintro _ st1 ⟨rfl, ⟨w1, hw1, h1', hk⟩, hp⟩
      go_after hk n1 k1 o1 d1
      cases hR : Xdr.xdrRW ⟨none, true, buf⟩ [0, 0, 0, 0] with
      | mk xs1 l1 =>
      have hl1 := rw_length' hR
      have hr1 := rw_reader' hR
      rw [hR] at h1' hp
      dsimp only at hr1
      have hne : a ≠ w ∨ xs1.err ≠ none := by
        by_cases haw : a = w
        · obtain rfl := hn.1 haw
          cases hb
          right
          have : xs1 = (Xdr.xdrRW ⟨none, true, []⟩ [0, 0, 0, 0]).1 := by rw [hR]
          rw [this]
          simp [Xdr.xdrRW]
        · exact .inl haw
      have h1 := h1'
      obtain ⟨⟨e1, b1, hx1, he1, hb1, hn1⟩, xlt1, alt1, wlt1, ho1⟩ := h1'
      simp only [hr1, ↓reduceIte] at ho1
      subst ho1
      have hsz : (0 : Int) ≤ ((Xdr.getU32 l1).toNat : Int) := by omega
      rcases (by omega : (0 ≤ m ∧ m < (Xdr.getU32 l1).toNat) ∨ (¬ 0 ≤ m ∨ 0 ≤ m ∧ ¬ m < (Xdr.getU32 l1).toNat)) with ⟨hm0, hm1⟩ | hok
      · go_run [k1, d1, hp, List.take_of_length_le, List.drop_zero, ofBe32_getU32 l1 hl1, Bool.not_eq_true', decide_eq_false_iff_not, hx1]
        have hX : Xdr.xdrString ⟨none, true, buf⟩ m l = (⟨some (.msg "string too large"), true, xs1.buf⟩, l) := by
          have hc : m ≥ 0 ∧ ((Xdr.getU32 l1).toNat : Int) > m := by omega
          simp only [Xdr.xdrString, Xdr.encoding, Xdr.zeros, Option.isSome, Option.isNone, Bool.false_eq_true, ↓reduceIte, Bool.true_and,
            true_beq_false, List.replicate, hR, hc, and_self, Xdr.setError, hr1]
        rw [hX]
        simp only [hr1, ↓reduceIte] at hx1 hb1 hn1
        refine ⟨Post.reader _ b1 (by go_run [hr1]) (.msg _) ?_ hn1 xlt alt (by go_keeps' [k1, o1]), put_at hv⟩
        exact hb1.mono' hn1 (fun _ => by go_run)
      · have hX : Xdr.xdrString ⟨none, true, buf⟩ m l =
            ((Xdr.xdrRW (Xdr.xdrR xs1 (Xdr.getU32 l1).toNat).1 (Xdr.zeros (Xdr.padLen (Xdr.goElems (Xdr.xdrR xs1 (Xdr.getU32 l1).toNat).2).length))).1,
              Xdr.goElems (Xdr.xdrR xs1 (Xdr.getU32 l1).toNat).2) := by
          have hc : ¬ (m ≥ 0 ∧ ((Xdr.getU32 l1).toNat : Int) > m) := by omega
          simp only [Xdr.xdrString, Xdr.encoding, Xdr.zeros, Option.isSome, Option.isNone, Bool.false_eq_true, ↓reduceIte, Bool.true_and,
            true_beq_false, List.replicate, hR, hc, Xdr.setError, hr1]
        rw [hX]
        rcases hok with hm0 | ⟨hm0, hm1⟩
        all_goals
          go_run [k1, d1, hp, List.take_of_length_le, List.drop_zero, ofBe32_getU32 l1 hl1, Bool.not_eq_true', decide_eq_false_iff_not, hx1]
          refine wp_mono (xdrR_spec E k (h1.mono (by go_run) (by go_run) (by go_run) (by go_lt)) hr1 hne _) ?_
          rintro _ st2 ⟨v2, rfl, ⟨w2, hw2, h2', hk2⟩, hb2, hv2⟩
          go_after hk2 n2 k2 o2 d2
          have hR1 := r_reader_eq xs1 (Xdr.getU32 l1).toNat
          generalize Xdr.xdrR xs1 (Xdr.getU32 l1).toNat = R at hR1 hX h2' hb2 ⊢
          obtain ⟨R1, R2⟩ := R
          obtain ⟨W, hW⟩ := put_some hv (.str (Xdr.goElems R2))
          dsimp only at *
          have hW' := at_put hW
          have hr2 : R1.reader = true := hR1.trans hr1
          obtain ⟨⟨e2, b2, hx2, he2, hb2', hn2⟩, xlt2, alt2, wlt2, ho2⟩ := id h2'
          simp only [hr2, ↓reduceIte] at ho2
          subst ho2
          cases hb2 with
          | nil => 
            change V.put (.str []) _ _ = _ at hW
            change W.at p = some (.str []) at hW'
            go_run [k2, k1, d2, d1, hv, hW, hW', four_ne, tmod_four, tmod_pad]
            refine wp_mono (xdrRW_push E k (h2'.mono (by go_run) (by go_run) (by go_run) (by go_lt)) _ _ _ _ (by go_run) (by simp only [List.length_replicate, Int.toNat_natCast]) rfl) ?_
            rintro _ st3 ⟨rfl, w3, hw3, h3', hk3⟩
            go_after hk3 n3 k3 o3 d3
            go_run [k3, d3, k2, d2, k1, d1]
            exact ⟨Post.via (by simp only [next_set, next_push, next_deferring] at hw3; omega) h3' (by go_run) (by go_run) (by go_run) (by go_lt) (by go_keeps' [k3, k2, k1, o3, o2, o1]), hW⟩
          | slice s arr h => 
            rcases hv2 with hv2 | ⟨-, o, hv2⟩
            · cases hv2
            cases hv2
            obtain ⟨g1, g2, g3⟩ := id h
            dsimp only at g1 g2 g3
            change V.put (.str (List.take (Xdr.getU32 l1).toNat (List.drop o arr))) _ _ = _ at hW
            change W.at p = some (.str (List.take (Xdr.getU32 l1).toNat (List.drop o arr))) at hW'
            go_run [k2, k1, d2, d1, hv, g1, hW, hW', four_ne, tmod_four, tmod_pad]
            refine wp_mono (xdrRW_push E k (h2'.mono (by go_run) (by go_run) (by go_run) (by go_lt)) _ _ _ _ (by go_run) (by simp only [List.length_replicate, Int.toNat_natCast]) rfl) ?_
            rintro _ st3 ⟨rfl, w3, hw3, h3', hk3⟩
            go_after hk3 n3 k3 o3 d3
            go_run [k3, d3, k2, d2, k1, d1]
            exact ⟨Post.via (by simp only [next_set, next_push, next_deferring] at hw3; omega) h3' (by go_run) (by go_run) (by go_run) (by go_lt) (by go_keeps' [k3, k2, k1, o3, o2, o1]), hW⟩
    | false =>
      simp only [↓reduceIte, Bool.false_eq_true] at *
      subst ho
      have hcase : (4294967295 < (l.length : Int) ∨ (0 ≤ m ∧ m < l.length)) ∨ 
         (¬ 4294967295 < (l.length : Int) ∧ ¬ (0 ≤ m ∧ m < l.length)) := by omega
      rcases hcase with hbad | ⟨ha, hb⟩
      · have hX : Xdr.xdrString ⟨none, false, buf⟩ m l = (⟨some (.msg "string too large"), false, buf⟩, l) := by
          have : l.length > Xdr.maxUint32 ∨ (m ≥ 0 ∧ (l.length : Int) > m) := by simp only [Xdr.maxUint32]; omega
          simp only [Xdr.xdrString, Xdr.encoding, this, Xdr.setError]
          simp
        rw [hX]
        by_cases hc : 4294967295 < (l.length : Int)
        · go_run [hx, hv, Bool.not_eq_true', decide_eq_false_iff_not]
          exact ⟨Post.writer w _ _ (.inl rfl) (by go_run <;> rfl) (.msg _) (hb.mono' hn (fun _ => by go_run)) hn xlt (by go_lt) (by go_keeps), put_at hv⟩
        · have hm0 : 0 ≤ m := by omega
          have hm1 : m < l.length := by omega
          go_run [hx, hv, Bool.not_eq_true', decide_eq_false_iff_not]
          exact ⟨Post.writer w _ _ (.inl rfl) (by go_run <;> rfl) (.msg _) (hb.mono' hn (fun _ => by go_run)) hn xlt (by go_lt) (by go_keeps), put_at hv⟩
      · have hX : Xdr.xdrString ⟨none, false, buf⟩ m l = (⟨none, false, buf ++ be32 (UInt32.ofNat l.length) ++ l ++ Xdr.zeros (Xdr.padLen l.length)⟩, l) := by
          have : ¬ (l.length > Xdr.maxUint32 ∨ (m ≥ 0 ∧ (l.length : Int) > m)) := by simp only [Xdr.maxUint32]; omega
          simp only [Xdr.xdrString, Xdr.encoding, this, Xdr.xdrRW, be32_putU32]
          simp
        rw [hX]
        have hm1 : ¬ 0 ≤ m ∨ 0 ≤ m ∧ ¬ m < l.length := by omega
        rcases hm1 with hm0 | ⟨hm0, hm1⟩
        all_goals
          go_run [hx, hv, Bool.not_eq_true', decide_eq_false_iff_not, be32_length, overwrite_be32]
          refine wp_mono (xdrRW_local E k (h'.mono (by go_run) (by go_run) (by go_run) (by go_lt)) _ _ (be32 (UInt32.ofNat l.length))
            (by go_run [ofInt32_nat, overwrite_be32]) (by simp only [be32_length]) ?_ ?_ ?_ ?_) ?_
          · go_lt
          · go_ne
          · go_ne
          · go_ne
          rintro _ st1 ⟨rfl, ⟨w1, hw1, h1', hk⟩, hp⟩
          go_after hk n1 k1 o1 d1
          simp only [next_set, next_push, next_deferring] at hw1
          go_run [k1, d1, hv]
          refine wp_mono (xdrRW_push E k h1' _ _ _ _ rfl rfl rfl) ?_
          rintro _ st2 ⟨rfl, w2, hw2, h2', hk2⟩
          go_after hk2 n2 k2 o2 d2
          go_run [k1, d1, k2, d2, hv, four_ne, tmod_four, tmod_pad]
          refine wp_mono (xdrRW_push E k h2' _ _ _ _ rfl (by simp only [List.length_replicate, Int.toNat_natCast]) rfl) ?_
          rintro _ st3 ⟨rfl, w3, hw3, h3', hk3⟩
          go_after hk3 n3 k3 o3 d3
          go_run [k3, d3, k2, d2, k1, d1]
          refine ⟨Post.via (by omega) h3' (by go_run) (by go_run) (by go_run) (by go_lt) (by go_keeps' [k3, k2, k1, o3, o2, o1]), put_at hv⟩

end Verif.Lang
