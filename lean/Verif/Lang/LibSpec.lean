/-
What the functions of xdr/lib.go, as read from the file, do to the memory, in terms of the functions of
Verif.Xdr.Lib.

An `XdrState` is in a cell `x`.  A reader's buffer is part of an array in a cell `a`; a writer's is part of
an array in a cell `w` (for a writer `a` is `x`, for a reader `w` is `x`; for a nil buffer both are).  The
functions change `x`, `w` and the cell of the variable they are given, and nothing else that existed before;
a writer's array is replaced only by one that did not exist before.
-/
import Verif.Lang.Simps
import Verif.Xdr.Lib

namespace Verif.Lang
open Verif.Xdr (XErr XdrState)
variable {ω : Type} {Ps : Prog}

/-- The error of an `XdrState`. -/
inductive ErrRel : V → Option XErr → Prop
  | none : ErrRel .nil none
  | got (w g : Nat) :
    ErrRel (.err (strBytes "Not enough bytes: wanted %d, got %d") [.int w, .int g]) (some (.notEnough w g))
  | have' (w g : Nat) :
    ErrRel (.err (strBytes "Not enough bytes: wanted %d, have %d") [.int w, .int g]) (some (.notEnough w g))
  | msg (s : String) : ErrRel (.err (strBytes s) []) (some (.msg s))

/-- `arr` is the array that a slice is part of. -/
def ArrAt (st : St ω) (s : Slice) (arr : List UInt8) : Prop :=
  (st.heap s.base.id).at s.base.path = some (.bytes arr) ∧ s.off + s.cap ≤ arr.length ∧ s.len ≤ s.cap

/-- The bytes of a slice of an array. -/
def sub (s : Slice) (arr : List UInt8) : List UInt8 := (arr.drop s.off).take s.len

/-- The value is a slice with these bytes, of an array in the cell `c`. -/
inductive BytesAt (st : St ω) (c : Nat) : V → List UInt8 → Prop
  | nil : BytesAt st c .nil []
  | slice (s : Slice) (arr : List UInt8) (h : ArrAt st s arr) (hc : s.base = ⟨c, []⟩) :
    BytesAt st c (.slice s) (sub s arr)

/-- The cell `x` has an `XdrState`. -/
structure Xs (st : St ω) (x a w : Nat) (xs : XdrState) : Prop where
  cell : ∃ e b, st.heap x = .struct "xdr.XdrState" [("err", e), ("reader", .bool xs.reader), ("buf", b)] ∧
    ErrRel e xs.err ∧ BytesAt st (if xs.reader then a else w) b xs.buf ∧
    ((if xs.reader then a else w) = x ↔ b = .nil)
  xlt : x < st.next
  alt : a < st.next
  wlt : w < st.next
  other : (if xs.reader then w else a) = x

/-- Only the cells `x`, `w`, `t` have changed. -/
structure Keeps (x w t : Nat) (st st' : St ω) : Prop where
  heap : ∀ j, j < st.next → j ≠ x → j ≠ w → j ≠ t → st'.heap j = st.heap j
  next : st.next ≤ st'.next
  world : st'.world = st.world
  defers : st'.defers = st.defers

/-- After a call: the `XdrState`, and what has not changed. -/
def Post (st st' : St ω) (x a w t : Nat) (xs : XdrState) : Prop :=
  ∃ w', (w' = w ∨ st.next ≤ w') ∧ Xs st' x a w' xs ∧ Keeps x w t st st'

theorem ErrRel.some' {e : V} {r : XErr} (h : ErrRel e (some r)) : ∃ m vs, e = .err m vs := by
  cases h <;> exact ⟨_, _, rfl⟩

theorem ErrRel.nil {e : V} (h : ErrRel e Option.none) : e = .nil := by cases h; rfl

/-- Proves `Keeps` for a state that is given explicitly. -/
macro "go_keeps" : tactic => `(tactic|
  exact ⟨fun j _ _ _ _ => by
      simp (disch := go_ne) only [heap_set_ne, heap_push_ne, heap_deferring],
    by simp only [next_set, next_push, next_deferring]; omega, by rfl, by rfl⟩)

/-! ### Lists -/

theorem sub_length {st : St ω} {s : Slice} {arr : List UInt8} (h : ArrAt st s arr) : (sub s arr).length = s.len := by
  have := h.2
  simp only [sub, List.length_take, List.length_drop]; omega

theorem overwrite_sub {st : St ω} {s : Slice} {arr : List UInt8} (h : ArrAt st s arr) :
    overwrite arr s.off (sub s arr) = arr := by
  have hl := sub_length h
  simp only [overwrite, hl]
  rw [List.append_assoc]
  conv => rhs; rw [← List.take_append_drop s.off arr, ← List.take_append_drop s.len (arr.drop s.off)]
  simp only [sub, List.drop_drop]

theorem overwrite_length (b d : List UInt8) (i : Nat) (h : i + d.length ≤ b.length) :
    (overwrite b i d).length = b.length := by
  simp only [overwrite, List.length_append, List.length_take, List.length_drop]; omega

theorem lookup_setFld {fs : List (String × V)} {f : String} {v : V} (h : fs.lookup f = some v) :
    setFld f v fs = fs := by
  induction fs with
  | nil => rfl
  | cons g fs ih =>
    obtain ⟨g, w⟩ := g
    rw [lookup_cons] at h
    rw [setFld_cons]
    by_cases e : f = g
    · rw [if_pos e] at h; rw [if_pos e.symm]; cases h; rfl
    · rw [if_neg e] at h; rw [if_neg (fun q => e q.symm), ih h]

theorem set_getElem? {l : List V} {i : Nat} {v : V} (h : l[i]? = some v) : l.set i v = l := by
  obtain ⟨hi, rfl⟩ := List.getElem?_eq_some_iff.mp h
  exact List.set_getElem_self hi

theorem getElem?_set_same {l : List V} {i : Nat} {v w : V} (h : l[i]? = some v) : (l.set i w)[i]? = some w := by
  obtain ⟨hi, _⟩ := List.getElem?_eq_some_iff.mp h
  exact List.getElem?_set_self hi

/-- Putting back what is there. -/
theorem put_at {p : List String} : ∀ {v w : V}, v.at p = some w → V.put w v p = some v := by
  induction p with
  | nil => intro v w h; rw [at_nil] at h; cases h; rw [put_nil]
  | cons f p ih =>
    intro v w h
    cases v with
    | struct T fs =>
      rw [at_cons] at h
      rw [put_cons]
      cases hl : fs.lookup f with
      | none => rw [hl] at h; cases h
      | some u =>
        rw [hl] at h
        simp only [ih h, lookup_setFld hl]
    | vals l =>
      rw [at_vals] at h
      rw [put_vals]
      cases hl : l[f.length]? with
      | none => rw [hl] at h; cases h
      | some u =>
        rw [hl] at h
        simp only [ih h]
        rw [set_getElem? hl]
    | _ => simp [V.at, V.field] at h

theorem put_some {p : List String} : ∀ {v w : V}, v.at p = some w → ∀ u, ∃ v', V.put u v p = some v' := by
  induction p with
  | nil => intro v w _ u; exact ⟨u, put_nil _ _⟩
  | cons f p ih =>
    intro v w h u
    cases v with
    | struct T fs =>
      rw [at_cons] at h
      cases hl : fs.lookup f with
      | none => rw [hl] at h; cases h
      | some y =>
        rw [hl] at h
        obtain ⟨v', e⟩ := ih h u
        exact ⟨_, by rw [put_cons, hl]; simp only [e]; rfl⟩
    | vals l =>
      rw [at_vals] at h
      cases hl : l[f.length]? with
      | none => rw [hl] at h; cases h
      | some y =>
        rw [hl] at h
        obtain ⟨v', e⟩ := ih h u
        exact ⟨_, by rw [put_vals, hl]; simp only [e]; rfl⟩
    | _ => simp [V.at, V.field] at h

theorem lookup_setFld_same {fs : List (String × V)} {f : String} {v w : V} (h : fs.lookup f = some v) :
    (setFld f w fs).lookup f = some w := by
  induction fs with
  | nil => cases h
  | cons g fs ih =>
    obtain ⟨g, y⟩ := g
    rw [lookup_cons] at h
    rw [setFld_cons]
    by_cases e : f = g
    · rw [if_pos e.symm, lookup_cons, if_pos e]
    · rw [if_neg e] at h; rw [if_neg (fun q => e q.symm), lookup_cons, if_neg e, ih h]

theorem at_put {p : List String} : ∀ {v w v' : V}, V.put w v p = some v' → v'.at p = some w := by
  induction p with
  | nil => intro v w v' h; rw [put_nil] at h; cases h; rw [at_nil]
  | cons f p ih =>
    intro v w v' h
    cases v with
    | struct T fs =>
      rw [put_cons] at h
      cases hl : fs.lookup f with
      | none => rw [hl] at h; cases h
      | some y =>
        rw [hl] at h
        cases hp : V.put w y p with
        | none => simp only [hp] at h; cases h
        | some y' =>
          simp only [hp] at h
          cases h
          rw [at_cons, lookup_setFld_same hl]
          exact ih hp
    | vals l =>
      rw [put_vals] at h
      cases hl : l[f.length]? with
      | none => rw [hl] at h; cases h
      | some y =>
        rw [hl] at h
        cases hp : V.put w y p with
        | none => simp only [hp] at h; cases h
        | some y' =>
          simp only [hp] at h
          cases h
          rw [at_vals, getElem?_set_same hl]
          exact ih hp
    | _ => simp [V.put] at h

theorem fold_sub (s : Slice) (arr : List UInt8) : (arr.drop s.off).take s.len = sub s arr := rfl

/-- Writing fewer bytes than there are leaves the others. -/
theorem overwrite_min {st : St ω} {s : Slice} {arr : List UInt8} (h : ArrAt st s arr) (l : List UInt8) :
    overwrite arr s.off (l.take (min s.len l.length)) =
      overwrite arr s.off (l.take (min (sub s arr).length l.length) ++ (sub s arr).drop (min (sub s arr).length l.length)) := by
  have hl := sub_length h
  obtain ⟨_, h2, h3⟩ := h
  rw [hl]
  generalize hn : min s.len l.length = n
  have hn1 : n ≤ s.len := by omega
  have hn2 : (l.take n).length = n := by simp; omega
  simp only [overwrite, List.length_append, hn2, List.length_drop, hl, List.append_assoc]
  congr 2
  have : s.off + (n + (s.len - n)) = s.off + s.len := by omega
  rw [this, sub, List.drop_take]
  conv => lhs; rw [← List.take_append_drop (s.len - n) (arr.drop (s.off + n))]
  rw [List.drop_drop, List.drop_drop]
  congr 2
  omega

theorem sub_drop (s : Slice) (arr : List UInt8) (n : Nat) :
    sub ⟨s.base, s.off + n, s.len - n, s.cap - n⟩ arr = (sub s arr).drop n := by
  simp only [sub, List.drop_take, List.drop_drop]

theorem BytesAt.mono {st st' : St ω} {c : Nat} {b : V} {l : List UInt8} (h : BytesAt st c b l)
    (e : st'.heap c = st.heap c) : BytesAt st' c b l := by
  cases h with
  | nil => exact .nil
  | slice s arr h hc =>
    refine .slice s arr ⟨?_, h.2⟩ hc
    have := h.1
    rw [hc] at this ⊢
    rw [e]
    exact this

/-- The bytes of a slice from an index on. -/
theorem BytesAt.drop {st : St ω} {s : Slice} {c : Nat} {arr : List UInt8} (h : ArrAt st s arr) (hc : s.base = ⟨c, []⟩)
    (n : Nat) (hn : n ≤ s.len) :
    BytesAt st c (.slice ⟨⟨c, []⟩, s.off + n, s.len - n, s.cap - n⟩) ((sub s arr).drop n) := by
  rw [← sub_drop, hc]
  refine .slice _ _ ⟨?_, ?_, ?_⟩ rfl
  · rw [← hc]; exact h.1
  · have := h.2; dsimp only; omega
  · have := h.2; dsimp only; omega

theorem sub_append {s : Slice} {arr d : List UInt8} (h1 : s.off + s.cap ≤ arr.length) (h2 : s.len + d.length ≤ s.cap) :
    sub { s with len := s.len + d.length } (overwrite arr (s.off + s.len) d) = sub s arr ++ d := by
  simp only [sub, overwrite]
  have e1 : (arr.take (s.off + s.len)).length = s.off + s.len := by simp; omega
  rw [List.append_assoc, List.drop_append_of_le_length (by omega), List.drop_take,
    show s.off + s.len - s.off = s.len from by omega]
  have e2 : (List.take s.len (List.drop s.off arr)).length = s.len := by simp; omega
  rw [List.take_append, e2, List.take_of_length_le (by omega), show s.len + d.length - s.len = d.length from by omega,
    List.take_left]

theorem Xs.mono {st st' : St ω} {x a w : Nat} {xs : XdrState} (h : Xs st x a w xs) (hx : st'.heap x = st.heap x)
    (ha : st'.heap a = st.heap a) (hw : st'.heap w = st.heap w) (hn : st.next ≤ st'.next) : Xs st' x a w xs := by
  obtain ⟨⟨e, b, h1, he, hb, hc⟩, xlt, alt, wlt, ho⟩ := h
  refine ⟨⟨e, b, hx.trans h1, he, hb.mono ?_, hc⟩, by omega, by omega, by omega, ho⟩
  cases xs.reader
  · exact hw
  · exact ha

theorem Post.intro {st st' : St ω} {x a w t : Nat} {xs : XdrState} (w' : Nat) (e b : V)
    (hw : w' = w ∨ st.next ≤ w') 
    (hx : st'.heap x = .struct "xdr.XdrState" [("err", e), ("reader", .bool xs.reader), ("buf", b)])
    (he : ErrRel e xs.err) (hb : BytesAt st' (if xs.reader then a else w') b xs.buf)
    (hn : (if xs.reader then a else w') = x ↔ b = .nil) (xlt : x < st.next) (alt : a < st.next) (wlt : w' < st'.next)
    (ho : (if xs.reader then w' else a) = x) (hk : Keeps x w t st st') : Post st st' x a w t xs :=
  ⟨w', hw, ⟨⟨e, b, hx, he, hb, hn⟩, Nat.lt_of_lt_of_le xlt hk.next, Nat.lt_of_lt_of_le alt hk.next, wlt, ho⟩, hk⟩

theorem Post.reader {st st' : St ω} {x a t : Nat} {err : Option XErr} {buf : List UInt8} (e b : V)
    (hx : st'.heap x = .struct "xdr.XdrState" [("err", e), ("reader", .bool true), ("buf", b)])
    (he : ErrRel e err) (hb : BytesAt st' a b buf) (hn : a = x ↔ b = .nil) (xlt : x < st.next) (alt : a < st.next)
    (hk : Keeps x x t st st') : Post st st' x a x t ⟨err, true, buf⟩ :=
  Post.intro x e b (.inl rfl) hx he hb hn xlt alt (Nat.lt_of_lt_of_le xlt hk.next) rfl hk

theorem Post.writer {st st' : St ω} {x w t : Nat} {err : Option XErr} {buf : List UInt8} (w' : Nat) (e b : V)
    (hw : w' = w ∨ st.next ≤ w')
    (hx : st'.heap x = .struct "xdr.XdrState" [("err", e), ("reader", .bool false), ("buf", b)])
    (he : ErrRel e err) (hb : BytesAt st' w' b buf) (hn : w' = x ↔ b = .nil) (xlt : x < st.next) (wlt : w' < st'.next)
    (hk : Keeps x w t st st') : Post st st' x x w t ⟨err, false, buf⟩ :=
  Post.intro w' e b hw hx he hb hn xlt xlt wlt rfl hk

/-- A new array. -/
theorem BytesAt.new {st : St ω} {i n : Nat} {l r : List UInt8} (h : st.heap i = .bytes (l ++ r)) (hn : n = l.length) :
    BytesAt st i (.slice ⟨⟨i, []⟩, 0, n, (l ++ r).length⟩) l := by
  have e : l = sub ⟨⟨i, []⟩, 0, n, (l ++ r).length⟩ (l ++ r) := by simp [sub, hn]
  conv => rhs; rw [e]
  refine .slice _ _ ⟨?_, ?_, ?_⟩ rfl
  · rw [h, at_nil]
  · dsimp only; omega
  · rw [hn]; simp

/-- `x < st'.next`. -/
macro "go_lt" : tactic => `(tactic| ((try simp only [next_set, next_push, next_deferring]); omega))

theorem xdrRW_spec (E : Ext ω) (k : Nat) {st : St ω} {x a w xs} (h : Xs st x a w xs) (s : Slice) (arr : List UInt8)
    (hv : ArrAt st s arr) (h0 : s.base.id < st.next) (h1 : s.base.id ≠ x) (h2 : s.base.id ≠ a) (h3 : s.base.id ≠ w) :
    wp (callN (xdrPkg :: Ps) E (k + 1) (.fn "xdr" "xdrRW") [.ptr "" ⟨x, []⟩, .slice s])
      (fun r st' => r = [] ∧ Post st st' x a w s.base.id (Xdr.xdrRW xs (sub s arr)).1 ∧
        V.put (.bytes (overwrite arr s.off (Xdr.xdrRW xs (sub s arr)).2)) (st.heap s.base.id) s.base.path =
          some (st'.heap s.base.id)) st := by
  obtain ⟨err, reader, buf⟩ := xs
  obtain ⟨⟨e, b, hx, he, hb, hn⟩, xlt, alt, wlt, ho⟩ := h
  dsimp only at *
  rw [wp_callN _ _ _ _ _ _ _ _ _ find_lib_xdrRW, wp_callFunc, lib_xdrRW]
  have hl := sub_length hv
  obtain ⟨hv1, hv2, hv3⟩ := id hv
  obtain ⟨W, hW⟩ := put_some hv.1 (.bytes (overwrite arr s.off (Xdr.xdrRW ⟨err, reader, buf⟩ (sub s arr)).2))
  cases err with
  | some r => 
    obtain ⟨m, vs, rfl⟩ := he.some'
    go_run [hx]
    simp only [Xdr.xdrRW, Option.isSome, ↓reduceIte]
    refine ⟨Post.intro w _ b (.inl rfl) (by go_run [hx]) he (hb.mono ?_) hn xlt alt (by go_lt) ho (by go_keeps), ?_⟩
    · cases reader <;> go_run
    · rw [overwrite_sub hv]
      exact put_at hv1
  | none => 
    obtain rfl := he.nil
    cases reader with
    | true => 
      simp only [↓reduceIte] at *
      subst ho
      cases hb with
      | nil => 
        have hov := overwrite_min hv []
        have hX : Xdr.xdrRW ⟨none, true, []⟩ (sub s arr) = (if 0 < s.len then ⟨some (.notEnough s.len 0), true, []⟩ else ⟨none, true, []⟩, sub s arr) := by
          simp only [Xdr.xdrRW, hl, Option.isSome]
          simp
          by_cases h : 0 < s.len <;> simp [h]
        rw [hX] at hW ⊢
        simp only [List.length_nil, Nat.min_zero, List.take_nil, List.drop_zero, List.nil_append] at *
        by_cases hs : s.len = 0
        · go_run [hx, hv.1, hW, Nat.min_zero, List.take_nil, hov, hs]
          rw [if_neg (by omega)]
          exact Post.reader _ _ (by go_run) he .nil (by simp [hn]) xlt alt (by go_keeps)
        · go_run [hx, hv.1, hW, Nat.min_zero, List.take_nil, hov]
          rw [if_pos (by omega)]
          exact Post.reader _ _ (by go_run) (.got _ _) .nil (by simp [hn]) xlt alt (by go_keeps)
      | slice s' arr' ha hc =>
        obtain ⟨ha1, ha2, ha3⟩ := id ha
        rw [hc] at ha1
        have hl' := sub_length ha
        have hov := overwrite_min hv (sub s' arr')
        have hX : Xdr.xdrRW ⟨none, true, sub s' arr'⟩ (sub s arr) =
           (⟨if s'.len < s.len then some (.notEnough s.len s'.len) else none, true, (sub s' arr').drop (min s.len s'.len)⟩,
             List.take (min s.len s'.len) (sub s' arr') ++ List.drop (min s.len s'.len) (sub s arr)) := by
          simp only [Xdr.xdrRW, hl, hl', Option.isSome, ↓reduceIte]
          by_cases h : s'.len < s.len
          · have e : min s.len s'.len = s'.len := by omega
            simp [h, e]
          · have e : min s.len s'.len = s.len := by omega
            simp [h, e]
        rw [hX] at hW ⊢
        rw [hl, hl'] at hov
        have haw : a ≠ w := by intro h; have := hn.1 h; cases this
        by_cases hs : s'.len < s.len
        · have e : min s.len s'.len = s'.len := by omega
          rw [e] at hW hov ⊢
          rw [if_pos hs] at hW ⊢
          dsimp only at hW ⊢
          go_run [hx, hv1, ha1, hc, fold_sub, hl', e, hov, hW]
          exact Post.reader _ _ (by go_run) (.got _ _) ((BytesAt.drop ha hc s'.len (Nat.le_refl _)).mono (by go_run)) (by simp [haw]) xlt alt (by go_keeps)
        · have e : min s.len s'.len = s.len := by omega
          rw [e] at hW hov ⊢
          rw [if_neg hs] at hW ⊢
          dsimp only at hW ⊢
          go_run [hx, hv1, ha1, hc, fold_sub, hl', e, hov, hW]
          exact Post.reader _ _ (by go_run) .none ((BytesAt.drop ha hc s.len (by omega)).mono (by go_run)) (by simp [haw]) xlt alt (by go_keeps)
    | false => 
      simp only [↓reduceIte, Bool.false_eq_true] at *
      subst ho
      have hX : Xdr.xdrRW ⟨none, false, buf⟩ (sub s arr) = (⟨none, false, buf ++ sub s arr⟩, sub s arr) := rfl
      rw [hX] at hW ⊢
      dsimp only at *
      rw [overwrite_sub hv, put_at hv1] at *
      cases hb with
      | nil => 
        by_cases hs : s.len = 0
        · have hd : sub s arr = [] := List.eq_nil_of_length_eq_zero (by omega)
          rw [hd]
          go_run [hx, hv1, fold_sub, hd]
          exact Post.writer w _ _ (.inl rfl) (by go_run <;> rfl) .none .nil hn xlt (by go_lt) (by go_keeps)
        · have hd : (sub s arr).isEmpty = false := by
            cases h : sub s arr with
            | nil => rw [h] at hl; exact absurd hl.symm hs
            | cons _ _ => rfl
          go_run [hx, hv1, fold_sub, hd, hl]
          exact Post.writer (st.next + 1 + 1) _ _ (.inr (by omega)) (by go_run <;> rfl) .none (BytesAt.new (by go_run <;> rfl) hl.symm)
            (by simp; omega) xlt (by go_lt) (by go_keeps)
      | slice s' arr' ha hc =>
        obtain ⟨ha1, ha2, ha3⟩ := id ha
        rw [hc] at ha1
        have hl' := sub_length ha
        have haw : w ≠ a := by intro h; have := hn.1 h; cases this
        by_cases hs : s'.len + s.len ≤ s'.cap
        · go_run [hx, hv1, fold_sub, hl, ha1, hc]
          refine Post.writer w _ _ (.inl rfl) (by go_run <;> rfl) .none ?_ (by simp [haw]) xlt (by go_lt) (by go_keeps)
          rw [← sub_append ha2 (by omega), hc, hl]
          refine .slice _ _ ⟨?_, ?_, ?_⟩ rfl
          · go_run <;> rfl
          · rw [overwrite_length _ _ _ (by omega)]; exact ha2
          · exact hs
        · go_run [hx, hv1, fold_sub, hl, ha1, hc]
          exact Post.writer (st.next + 1 + 1) _ _ (.inr (by omega)) (by go_run <;> rfl) .none (BytesAt.new (by go_run <;> rfl) rfl)
            (by simp; omega) xlt (by go_lt) (by go_keeps)
end Verif.Lang
