/-
How the values that generated code works on are in memory, and what a piece of generated code may change.
-/
import Verif.Lang.MsgSpec
import Verif.Lang.GenCode
namespace Verif.Lang.Text
open Verif.Xdr (XErr XdrState)
variable {ω : Type}

/-- The value `v` in memory is `y`; the cells that it refers to are among `ok`. -/
inductive Rep (st : St ω) (ok : Nat → Prop) : V → Gen.GoVal → Prop
  | u32 (x : UInt32) : Rep st ok (.u32 x) (.u32 x)
  | i32 (x : Int32) : Rep st ok (.i32 x) (.i32 x)
  | u64 (x : UInt64) : Rep st ok (.u64 x) (.u64 x)
  | i64 (x : Int64) : Rep st ok (.i64 x) (.i64 x)
  | bool (b : Bool) : Rep st ok (.bool b) (.bool b)
  | str (s : List UInt8) : Rep st ok (.str s) (.str s)
  | bytes {v : V} {b : Xdr.GoBytes} (h : GoB st v b)
      (hs : ∀ s, v = .slice s → s.base.id < st.next ∧ ok s.base.id) : Rep st ok v (.bytes b)
  | barr (b : List UInt8) : Rep st ok (.bytes b) (.barr b)
  | snil : Rep st ok .nil (.slice none)
  | slice {s : Slice} {vs : List V} {ys : List Gen.GoVal} (hv : st.at s.base = some (.vals vs))
      (hc : s.off + s.cap ≤ vs.length) (hl : s.len ≤ s.cap) (hn : ys.length = s.len) (hlt : s.base.id < st.next)
      (hok : ok s.base.id)
      (h : ∀ k v y, vs[s.off + k]? = some v → ys[k]? = some y → Rep st ok v y) : Rep st ok (.slice s) (.slice (some ys))
  | pnil : Rep st ok .nil (.ptr none)
  | ptr {T : String} {l : Loc} {v : V} {y : Gen.GoVal} (hv : st.at l = some v) (hlt : l.id < st.next) (hok : ok l.id)
      (h : Rep st ok v y) : Rep st ok (.ptr T l) (.ptr (some y))
  | struct {T : String} {fs : List (String × V)} {ys : List (String × Gen.GoVal)}
      (hn : fs.map Prod.fst = ys.map Prod.fst) (nd : (fs.map Prod.fst).Nodup)
      (h : ∀ (k : Nat) f v g y, fs[k]? = some (f, v) → ys[k]? = some (g, y) → Rep st ok v y) :
      Rep st ok (.struct T fs) (.struct ys)

theorem Rep.mono {st st' : St ω} {ok ok' : Nat → Prop} {v : V} {y : Gen.GoVal} (h : Rep st ok v y)
    (hh : ∀ j, ok j → j < st.next → st'.heap j = st.heap j) (hn : st.next ≤ st'.next)
    (ho : ∀ j, ok j → j < st.next → ok' j) : Rep st' ok' v y := by
  induction h with
  | u32 | i32 | u64 | i64 | bool | str | barr | snil | pnil => constructor
  | bytes h hs =>
    refine .bytes (h.mono fun s e => hh _ (hs s e).2 (hs s e).1) fun s e => ?_
    have := hs s e
    exact ⟨by omega, ho _ this.2 this.1⟩
  | slice hv hc hl hy hlt hok h ih =>
    refine .slice (vs := _) ?_ hc hl hy (by omega) (ho _ hok hlt) ih
    rw [← hv]
    simp only [St.at, hh _ hok hlt]
  | ptr hv hlt hok h ih =>
    refine .ptr ?_ (by omega) (ho _ hok hlt) ih
    rw [← hv]
    simp only [St.at, hh _ hok hlt]
  | struct hy nd h ih => exact .struct hy nd ih

/-- The same for some of the fields of a structure. -/
def RepF (st : St ω) (ok : Nat → Prop) (fs : List (String × V)) (ys : List (String × Gen.GoVal)) : Prop :=
  fs.map Prod.fst = ys.map Prod.fst ∧
    ∀ (k : Nat) f v g y, fs[k]? = some (f, v) → ys[k]? = some (g, y) → Rep st ok v y

theorem RepF.mono {st st' : St ω} {ok ok' : Nat → Prop} {fs : List (String × V)} {ys : List (String × Gen.GoVal)}
    (h : RepF st ok fs ys) (hh : ∀ j, ok j → j < st.next → st'.heap j = st.heap j) (hn : st.next ≤ st'.next)
    (ho : ∀ j, ok j → j < st.next → ok' j) : RepF st' ok' fs ys :=
  ⟨h.1, fun k f v g y a b => (h.2 k f v g y a b).mono hh hn ho⟩

theorem RepF.nil {st : St ω} {ok : Nat → Prop} : RepF st ok [] [] := ⟨rfl, fun k f v g y h => by simp at h⟩

theorem RepF.cons {st : St ω} {ok : Nat → Prop} {fs : List (String × V)} {ys : List (String × Gen.GoVal)} {f : String}
    {v : V} {y : Gen.GoVal} (h : Rep st ok v y) (hs : RepF st ok fs ys) : RepF st ok ((f, v) :: fs) ((f, y) :: ys) := by
  refine ⟨by simp only [List.map_cons, hs.1], fun k f' v' g' y' a b => ?_⟩
  cases k with
  | zero => simp only [List.getElem?_cons_zero, Option.some.injEq, Prod.mk.injEq] at a b; rw [← a.2, ← b.2]; exact h
  | succ k => exact hs.2 k f' v' g' y' a b

/-- The first field. -/
theorem RepF.inv {st : St ω} {ok : Nat → Prop} {fs : List (String × V)} {ys : List (String × Gen.GoVal)} {f : String}
    {y : Gen.GoVal} (h : RepF st ok fs ((f, y) :: ys)) :
    ∃ v fs', fs = (f, v) :: fs' ∧ Rep st ok v y ∧ RepF st ok fs' ys := by
  cases fs with
  | nil => cases h.1
  | cons a fs =>
    obtain ⟨f', v⟩ := a
    have hn := h.1
    simp only [List.map_cons, List.cons.injEq] at hn
    obtain ⟨rfl, hn⟩ := hn
    exact ⟨v, fs, rfl, h.2 0 _ _ _ _ rfl rfl, hn, fun k f v g y a b => h.2 (k + 1) f v g y a b⟩

theorem RepF.inv_nil {st : St ω} {ok : Nat → Prop} {fs : List (String × V)} (h : RepF st ok fs []) : fs = [] := by
  have := h.1
  simpa using this

theorem Rep.fields {st : St ω} {ok : Nat → Prop} {v : V} {ys : List (String × Gen.GoVal)} (h : Rep st ok v (.struct ys)) :
    ∃ T fs, v = .struct T fs ∧ RepF st ok fs ys ∧ (fs.map Prod.fst).Nodup := by
  cases h with
  | struct hn nd h => exact ⟨_, _, rfl, ⟨hn, h⟩, nd⟩

theorem RepF.struct {st : St ω} {ok : Nat → Prop} {T : String} {fs : List (String × V)} {ys : List (String × Gen.GoVal)}
    (h : RepF st ok fs ys) (nd : (fs.map Prod.fst).Nodup) : Rep st ok (.struct T fs) (.struct ys) :=
  .struct h.1 nd h.2

/-! ### What is there before and after -/

/-- An `XdrState` is in `x`; there is the value `v` at `⟨t, p⟩`, which refers to cells among `ok`. -/
structure At (rd : Bool) (st : St ω) (x a w t : Nat) (p : List String) (xs : XdrState) (ok : Nat → Prop) (v : V) : Prop where
  hx : Xs st x a w xs
  hr : xs.reader = rd
  cell : (st.heap t).at p = some v
  tlt : t < st.next
  tx : t ≠ x
  ta : t ≠ a
  tw : t ≠ w
  hok : ∀ j, ok j → j ≠ x ∧ j ≠ w ∧ (rd = true → j ≠ t) ∧ (rd = false → j < st.next)

/-- The cells that a value may refer to afterwards: a decoder adds the buffer and new cells. -/
def After (rd : Bool) (a x : Nat) (st : St ω) (ok : Nat → Prop) (j : Nat) : Prop :=
  ok j ∨ rd = true ∧ (j = a ∧ a ≠ x ∨ st.next ≤ j)

/-- From `st` to `st'` the value at `⟨t, p⟩` became `v'`, and the `XdrState` and what belongs to it changed. -/
structure Did (rd : Bool) (st st' : St ω) (x a w w' t : Nat) (p : List String) (xs' : XdrState) (ok : Nat → Prop) (v v' : V) : Prop where
  at' : At rd st' x a w' t p xs' (After rd a x st ok) v'
  hw : w' = w ∨ st.next ≤ w'
  keeps : Keeps x w t st st'
  put : V.put v' (st.heap t) p = some (st'.heap t)
  same : rd = false → v' = v

/-- Cells that stay as they are. -/
def Fixed (D : Nat → Prop) (rd : Bool) (st : St ω) (x w t : Nat) : Prop :=
  ∀ j, D j → j < st.next ∧ j ≠ x ∧ j ≠ w ∧ (rd = true → j ≠ t)

theorem After.trans {rd : Bool} {a x : Nat} {st st' : St ω} {ok : Nat → Prop} (hn : st.next ≤ st'.next) {j : Nat}
    (h : After rd a x st' (After rd a x st ok) j) : After rd a x st ok j := by
  rcases h with h | ⟨h, h' | h'⟩
  · exact h
  · exact .inr ⟨h, .inl h'⟩
  · exact .inr ⟨h, .inr (by omega)⟩

/-- In an encoder nothing but `x`, `w` changes; in a decoder `w` is `x`. -/
theorem At.w {rd : Bool} {st : St ω} {x a w t : Nat} {p : List String} {xs : XdrState} {ok : Nat → Prop} {v : V}
    (h : At rd st x a w t p xs ok v) : if rd then w = x else a = x := by
  have := h.hx.other
  rw [h.hr] at this
  cases rd <;> exact this

theorem Did.tcell {rd : Bool} {st st' : St ω} {x a w w' t : Nat} {p : List String} {xs' : XdrState} {ok : Nat → Prop} {v v' : V}
    (h : Did rd st st' x a w w' t p xs' ok v v') (hv : (st.heap t).at p = some v) (hr : rd = false) :
    st'.heap t = st.heap t := by
  have := h.put
  rw [h.same hr, put_at hv] at this
  exact (Option.some.inj this).symm

theorem Did.ok_heap {rd : Bool} {st st' : St ω} {x a w w' t : Nat} {p : List String} {xs xs' : XdrState} {ok : Nat → Prop} {v v' : V}
    (h : Did rd st st' x a w w' t p xs' ok v v') (h0 : At rd st x a w t p xs ok v) :
    ∀ j, ok j → j < st.next → st'.heap j = st.heap j := by
  intro j hj hl
  obtain ⟨h1, h2, h3, h4⟩ := h0.hok j hj
  by_cases e : j = t
  · subst e
    cases rd with
    | true => exact absurd rfl (h3 rfl)
    | false => exact h.tcell h0.cell rfl
  · exact h.keeps.heap j hl h1 h2 e

theorem Did.fixed {rd : Bool} {st st' : St ω} {x a w w' t : Nat} {p : List String} {xs xs' : XdrState} {ok : Nat → Prop} {v v' : V}
    (h : Did rd st st' x a w w' t p xs' ok v v') (h0 : At rd st x a w t p xs ok v) {D : Nat → Prop} (hD : Fixed D rd st x w t) :
    (∀ j, D j → st'.heap j = st.heap j) ∧ Fixed D rd st' x w' t := by
  have hn := h.keeps.next
  have hw := h.hw
  refine ⟨fun j hj => ?_, fun j hj => ?_⟩
  · obtain ⟨h1, h2, h3, h4⟩ := hD j hj
    by_cases e : j = t
    · subst e
      cases rd with
      | true => exact absurd rfl (h4 rfl)
      | false => exact h.tcell h0.cell rfl
    · exact h.keeps.heap j h1 h2 h3 e
  · obtain ⟨h1, h2, h3, h4⟩ := hD j hj
    exact ⟨by omega, h2, by omega, h4⟩

/-- What was there and is not overwritten still is. -/
theorem Did.rep {rd : Bool} {st st' : St ω} {x a w w' t : Nat} {p : List String} {xs xs' : XdrState} {ok : Nat → Prop} {v v' : V}
    (h : Did rd st st' x a w w' t p xs' ok v v') (h0 : At rd st x a w t p xs ok v) {u : V} {y : Gen.GoVal} (hr : Rep st ok u y) :
    Rep st' (After rd a x st ok) u y :=
  hr.mono (h.ok_heap h0) h.keeps.next fun _ hj _ => .inl hj

theorem Did.repF {rd : Bool} {st st' : St ω} {x a w w' t : Nat} {p : List String} {xs xs' : XdrState} {ok : Nat → Prop} {v v' : V}
    (h : Did rd st st' x a w w' t p xs' ok v v') (h0 : At rd st x a w t p xs ok v) {fs : List (String × V)}
    {ys : List (String × Gen.GoVal)} (hr : RepF st ok fs ys) : RepF st' (After rd a x st ok) fs ys :=
  hr.mono (h.ok_heap h0) h.keeps.next fun _ hj _ => .inl hj

theorem At.sub {rd : Bool} {st : St ω} {x a w t : Nat} {p : List String} {xs : XdrState} {ok ok' : Nat → Prop} {v : V}
    (h : At rd st x a w t p xs ok v) (ho : ∀ j, ok' j → ok j) : At rd st x a w t p xs ok' v :=
  { h with hok := fun j hj => h.hok j (ho j hj) }

/-- The cells that may be referred to afterwards are as they must be. -/
theorem After.good {rd : Bool} {st st' : St ω} {x a w w' t : Nat} {p : List String} {xs xs' : XdrState} {ok : Nat → Prop} {v : V}
    (h0 : At rd st x a w t p xs ok v) (hw : w' = w ∨ st.next ≤ w') (hn : st.next ≤ st'.next) (h' : Xs st' x a w' xs')
    (hr : xs'.reader = rd) :
    ∀ j, After rd a x st ok j → j ≠ x ∧ j ≠ w' ∧ (rd = true → j ≠ t) ∧ (rd = false → j < st'.next) := by
  intro j hj
  have := h0.hx.xlt
  have := h0.tlt
  have := h0.ta
  have ho := h'.other
  rw [hr] at ho
  rcases hj with hj | ⟨rfl, hj⟩
  · obtain ⟨h1, h2, h3, h4⟩ := h0.hok j hj
    refine ⟨h1, ?_, h3, fun e => by have := h4 e; omega⟩
    cases rd with
    | true => rw [if_pos rfl] at ho; omega
    | false => have := h4 rfl; omega
  · rw [if_pos rfl] at ho
    refine ⟨by omega, by omega, fun _ => by omega, by simp⟩

theorem Did.refl {rd : Bool} {st : St ω} {x a w t : Nat} {p : List String} {xs : XdrState} {ok : Nat → Prop} {v : V}
    (h : At rd st x a w t p xs ok v) : Did rd st st x a w w t p xs ok v v :=
  ⟨{ h with hok := After.good h (.inl rfl) (Nat.le_refl _) h.hx h.hr }, .inl rfl, ⟨fun _ _ _ _ _ => rfl, Nat.le_refl _, rfl, rfl⟩,
    put_at h.cell, fun _ => rfl⟩

theorem Did.trans {rd : Bool} {st st1 st2 : St ω} {x a w w1 w2 t : Nat} {p : List String} {xs xs1 xs2 : XdrState} {ok ok' : Nat → Prop}
    {v v1 v2 : V} (h0 : At rd st x a w t p xs ok v) (h : Did rd st st1 x a w w1 t p xs1 ok v v1)
    (h' : Did rd st1 st2 x a w1 w2 t p xs2 ok' v1 v2) : Did rd st st2 x a w w2 t p xs2 ok v v2 := by
  have n1 := h.keeps.next
  have n2 := h'.keeps.next
  have w1' := h.hw
  have w2' := h'.hw
  refine ⟨{ h'.at' with hok := After.good h0 (by omega) (by omega) h'.at'.hx h'.at'.hr }, by omega,
    h.keeps.trans h'.keeps h.hw, ?_, fun e => (h'.same e).trans (h.same e)⟩
  rw [← put_put h.put]
  exact h'.put

/-- What a call of the library did. -/
theorem Did.post {rd : Bool} {st st' : St ω} {x a w t : Nat} {p : List String} {xs xs' : XdrState} {ok : Nat → Prop} {v v' : V}
    (h0 : At rd st x a w t p xs ok v) (h : Post st st' x a w t xs') (hr : xs'.reader = xs.reader)
    (hp : V.put v' (st.heap t) p = some (st'.heap t)) (hs : rd = false → v' = v) :
    ∃ w', Did rd st st' x a w w' t p xs' ok v v' := by
  obtain ⟨w', hw, hx, hk⟩ := h
  have := hk.next
  have := h0.tlt
  have := h0.tw
  refine ⟨w', ⟨hx, hr.trans h0.hr, at_put hp, by omega, h0.tx, h0.ta, by omega, After.good h0 hw hk.next hx (hr.trans h0.hr)⟩,
    hw, hk, hp, hs⟩

/-! ### Fields -/

theorem At.field {rd : Bool} {st : St ω} {x a w t : Nat} {p : List String} {xs : XdrState} {ok : Nat → Prop} {T : String}
    {fs : List (String × V)} (h : At rd st x a w t p xs ok (.struct T fs)) {f : String} {u : V} (hl : fs.lookup f = some u) :
    At rd st x a w t (p ++ [f]) xs ok u :=
  { h with cell := by rw [at_append h.cell, at_cons, hl]; exact at_nil u }

theorem Did.field {rd : Bool} {st st' : St ω} {x a w w' t : Nat} {p : List String} {xs xs' : XdrState} {ok : Nat → Prop} {T : String}
    {fs : List (String × V)} (h0 : At rd st x a w t p xs ok (.struct T fs)) {f : String} {u u' : V} (hl : fs.lookup f = some u)
    (h : Did rd st st' x a w w' t (p ++ [f]) xs' ok u u') :
    Did rd st st' x a w w' t p xs' ok (.struct T fs) (.struct T (setFld f u' fs)) := by
  have hp := put_field h0.cell hl h.put
  refine ⟨{ h.at' with cell := at_put hp }, h.hw, h.keeps, hp, fun e => ?_⟩
  rw [h.same e, lookup_setFld hl]

theorem lookup_mid {pre fs : List (String × V)} {f : String} {u : V} (nd : ((pre ++ (f, u) :: fs).map Prod.fst).Nodup) :
    (pre ++ (f, u) :: fs).lookup f = some u := by
  induction pre with
  | nil => simp
  | cons a pre ih =>
    obtain ⟨g, w⟩ := a
    simp only [List.cons_append, List.map_cons, List.nodup_cons] at nd
    rw [List.cons_append, lookup_cons, if_neg, ih nd.2]
    rintro rfl
    exact nd.1 (by simp)

theorem setFld_mid {pre fs : List (String × V)} {f : String} {u u' : V} (nd : ((pre ++ (f, u) :: fs).map Prod.fst).Nodup) :
    setFld f u' (pre ++ (f, u) :: fs) = pre ++ (f, u') :: fs := by
  induction pre with
  | nil => simp [setFld_cons]
  | cons a pre ih =>
    obtain ⟨g, w⟩ := a
    simp only [List.cons_append, List.map_cons, List.nodup_cons] at nd
    rw [List.cons_append, setFld_cons, if_neg, ih nd.2]
    · rfl
    · rintro rfl
      exact nd.1 (by simp)

/-! ### Elements -/

theorem stroke_length (i : Nat) : (stroke i).length = i := by
  rw [stroke, String.length_ofList, List.length_replicate]

theorem put_elem {p : List String} {v v' w u : V} {vs : List V} {i : Nat} (h : v.at p = some (.vals vs)) (hl : vs[i]? = some u)
    (hp : V.put w v (p ++ [stroke i]) = some v') : V.put (.vals (vs.set i w)) v p = some v' := by
  rw [← hp]
  refine (put_append h ?_).symm
  rw [put_vals, stroke_length, hl]
  rfl

theorem At.elem {rd : Bool} {st : St ω} {x a w t : Nat} {p : List String} {xs : XdrState} {ok : Nat → Prop} {vs : List V}
    (h : At rd st x a w t p xs ok (.vals vs)) {i : Nat} {u : V} (hl : vs[i]? = some u) :
    At rd st x a w t (p ++ [stroke i]) xs ok u :=
  { h with cell := by rw [at_append h.cell, at_vals, stroke_length, hl]; exact at_nil u }

theorem Did.elem {rd : Bool} {st st' : St ω} {x a w w' t : Nat} {p : List String} {xs xs' : XdrState} {ok : Nat → Prop}
    {vs : List V} (h0 : At rd st x a w t p xs ok (.vals vs)) {i : Nat} {u u' : V} (hl : vs[i]? = some u)
    (h : Did rd st st' x a w w' t (p ++ [stroke i]) xs' ok u u') :
    Did rd st st' x a w w' t p xs' ok (.vals vs) (.vals (vs.set i u')) := by
  have hp := put_elem h0.cell hl h.put
  refine ⟨{ h.at' with cell := at_put hp }, h.hw, h.keeps, hp, fun e => ?_⟩
  rw [h.same e]
  congr 1
  obtain ⟨hi, rfl⟩ := List.getElem?_eq_some_iff.1 hl
  exact List.set_getElem_self hi

/-! ### Changes elsewhere -/

/-- From `st` to `st'` nothing but the `XdrState` and what belongs to it changed. -/
structure Side (rd : Bool) (st st' : St ω) (x a w w' : Nat) (xs' : XdrState) : Prop where
  hx : Xs st' x a w' xs'
  hr : xs'.reader = rd
  hw : w' = w ∨ st.next ≤ w'
  keeps : Keeps x w x st st'

theorem Side.refl {rd : Bool} {st : St ω} {x a w : Nat} {xs : XdrState} (h : Xs st x a w xs) (hr : xs.reader = rd) :
    Side rd st st x a w w xs :=
  ⟨h, hr, .inl rfl, ⟨fun _ _ _ _ _ => rfl, Nat.le_refl _, rfl, rfl⟩⟩

theorem Side.push {rd : Bool} {st st' : St ω} {x a w w' : Nat} {xs' : XdrState} (h : Side rd st st' x a w w' xs') (z : V) :
    Side rd st (st'.push z) x a w w' xs' := by
  obtain ⟨hx, hr, hw, hk⟩ := h
  have := hk.next
  have h1 := hx.xlt
  have h2 := hx.alt
  have h3 := hx.wlt
  refine ⟨hx.mono (heap_push_ne _ _ _ (by omega)) (heap_push_ne _ _ _ (by omega)) (heap_push_ne _ _ _ (by omega)) ?_, hr, hw,
    fun j a b c d => ?_, ?_, hk.world, hk.defers⟩
  · rw [next_push]; omega
  · rw [heap_push_ne _ _ _ (by omega), hk.heap j a b c d]
  · rw [next_push]; omega

theorem Side.set {rd : Bool} {st st' : St ω} {x a w w' : Nat} {xs' : XdrState} (h : Side rd st st' x a w w' xs') {c : Nat}
    (hc : st.next ≤ c) (hx : c ≠ x) (ha : c ≠ a) (hw : c ≠ w') (z : V) : Side rd st (st'.set c z) x a w w' xs' := by
  obtain ⟨h1, hr, h2, hk⟩ := h
  refine ⟨h1.mono (heap_set_ne _ _ _ _ (by omega)) (heap_set_ne _ _ _ _ (by omega)) (heap_set_ne _ _ _ _ (by omega)) (Nat.le_refl _), hr, h2,
    fun j a b c d => ?_, hk.next, hk.world, hk.defers⟩
  rw [heap_set_ne _ _ _ _ (by omega), hk.heap j a b c d]

theorem Side.post {rd : Bool} {st st1 st2 : St ω} {x a w w1 c : Nat} {xs1 xs2 : XdrState} (h : Side rd st st1 x a w w1 xs1)
    (hp : Post st1 st2 x a w1 c xs2) (hr : xs2.reader = xs1.reader) (hc : st.next ≤ c ∨ c = x) :
    ∃ w2, (w2 = w1 ∨ st1.next ≤ w2) ∧ Side rd st st2 x a w w2 xs2 := by
  obtain ⟨w2, hw, hx, hk⟩ := hp
  have n1 := h.keeps.next
  have n2 := hk.next
  have := h.hw
  refine ⟨w2, hw, hx, hr.trans h.hr, by omega, fun j e f g i => ?_, by omega, hk.world.trans h.keeps.world,
    hk.defers.trans h.keeps.defers⟩
  rw [hk.heap j (by omega) f (by omega) (by omega), h.keeps.heap j e f g i]

theorem At.side {rd : Bool} {st st' : St ω} {x a w w' t : Nat} {p : List String} {xs xs' : XdrState} {ok : Nat → Prop} {v : V}
    (h : At rd st x a w t p xs ok v) (hs : Side rd st st' x a w w' xs') : At rd st' x a w' t p xs' ok v := by
  have := h.tlt
  have := hs.keeps.next
  have := hs.hw
  have hg := After.good h hs.hw hs.keeps.next hs.hx hs.hr
  refine ⟨hs.hx, hs.hr, ?_, by omega, h.tx, h.ta, ?_, fun j hj => hg j (.inl hj)⟩
  · rw [hs.keeps.heap t h.tlt h.tx h.tw h.tx, h.cell]
  · have := h.tw
    omega

theorem Did.side {rd : Bool} {st st' : St ω} {x a w w' t : Nat} {p : List String} {xs xs' : XdrState} {ok : Nat → Prop} {v : V}
    (h : At rd st x a w t p xs ok v) (hs : Side rd st st' x a w w' xs') : Did rd st st' x a w w' t p xs' ok v v := by
  have ha := h.side hs
  refine ⟨{ ha with hok := After.good h hs.hw hs.keeps.next hs.hx hs.hr }, hs.hw, ⟨fun j e f g i => hs.keeps.heap j e f g f,
    hs.keeps.next, hs.keeps.world, hs.keeps.defers⟩, ?_, fun _ => rfl⟩
  rw [hs.keeps.heap t h.tlt h.tx h.tw h.tx]
  exact put_at h.cell

theorem Rep.side {rd : Bool} {st st' : St ω} {x a w w' t : Nat} {p : List String} {xs xs' : XdrState} {ok : Nat → Prop} {v u : V}
    {y : Gen.GoVal} (hr : Rep st ok u y) (h : At rd st x a w t p xs ok v) (hs : Side rd st st' x a w w' xs') : Rep st' ok u y :=
  hr.mono (fun j hj hl => hs.keeps.heap j hl (h.hok j hj).1 (h.hok j hj).2.1 (h.hok j hj).1) hs.keeps.next fun _ hj _ => hj

/-- A cell that is not the `XdrState`'s and was not there before changes. -/
theorem Did.set {rd : Bool} {st st' : St ω} {x a w w' t : Nat} {p : List String} {xs xs' : XdrState} {ok : Nat → Prop} {v v' : V}
    (h0 : At rd st x a w t p xs ok v) (h : Did rd st st' x a w w' t p xs' ok v v') {c : Nat} (hc : st.next ≤ c) (hw : c ≠ w') (z : V) :
    Did rd st (st'.set c z) x a w w' t p xs' ok v v' := by
  have h1 := h0.hx.xlt
  have h2 := h0.hx.alt
  have h3 := h0.tlt
  obtain ⟨hA, h4, hk, hp, hs⟩ := h
  have ht : (st'.set c z).heap t = st'.heap t := heap_set_ne _ _ _ _ (by omega)
  refine ⟨{ hA with hx := ?_, cell := ?_ }, h4, ⟨fun j e f g i => ?_, hk.next, hk.world, hk.defers⟩, ?_, hs⟩
  · exact hA.hx.mono (heap_set_ne _ _ _ _ (by omega)) (heap_set_ne _ _ _ _ (by omega)) (heap_set_ne _ _ _ _ (by omega)) (Nat.le_refl _)
  · rw [ht]; exact hA.cell
  · rw [heap_set_ne _ _ _ _ (by omega), hk.heap j e f g i]
  · rw [ht]; exact hp

/-- An encoder works on what the value refers to. -/
theorem Did.inner {st st' : St ω} {x a w w' t t' : Nat} {p p' : List String} {xs xs' : XdrState} {ok : Nat → Prop} {v u u' : V}
    (h0 : At false st x a w t p xs ok v) (h1 : At false st x a w t' p' xs ok u) (h : Did false st st' x a w w' t' p' xs' ok u u') :
    Did false st st' x a w w' t p xs' ok v v := by
  refine Did.side h0 ⟨h.at'.hx, h.at'.hr, h.hw, fun j e f g _ => ?_, h.keeps.next, h.keeps.world, h.keeps.defers⟩
  by_cases e' : j = t'
  · rw [e']; exact h.tcell h1.cell rfl
  · exact h.keeps.heap j e f g e'

/-- A decoder works on a new cell. -/
theorem Did.fresh {st st1 st2 : St ω} {x a w w1 w2 t n : Nat} {p q : List String} {xs xs1 xs2 : XdrState} {ok ok' : Nat → Prop}
    {v v1 u u' : V} (h0 : At true st x a w t p xs ok v) (h : Did true st st1 x a w w1 t p xs1 ok v v1) (hn : st.next ≤ n)
    (h' : Did true st1 st2 x a w1 w2 n q xs2 ok' u u') : Did true st st2 x a w w2 t p xs2 ok v v1 := by
  have ht := h0.tlt
  have n1 := h.keeps.next
  have n2 := h'.keeps.next
  have w1' := h.hw
  have w2' := h'.hw
  have htw := h.at'.tw
  have he : st2.heap t = st1.heap t := h'.keeps.heap t (by omega) h0.tx htw (by omega)
  have hg := After.good (st' := st2) h0 (w' := w2) (by omega) (by omega) h'.at'.hx h'.at'.hr
  refine ⟨⟨h'.at'.hx, h'.at'.hr, ?_, by omega, h0.tx, h0.ta, by omega, hg⟩, by omega, ⟨fun j e f g i => ?_, by omega,
    h'.keeps.world.trans h.keeps.world, h'.keeps.defers.trans h.keeps.defers⟩, ?_, h.same⟩
  · rw [he]; exact h.at'.cell
  · rw [h'.keeps.heap j (by omega) f (by omega) (by omega), h.keeps.heap j e f g i]
  · rw [he]; exact h.put

/-- The value is overwritten. -/
theorem Did.store {st st' : St ω} {x a w w' t : Nat} {p : List String} {xs xs' : XdrState} {ok : Nat → Prop} {v v' : V} {W : V}
    (h0 : At true st x a w t p xs ok v) (hs : Side true st st' x a w w' xs') (hp : V.put v' (st'.heap t) p = some W) :
    Did true st (st'.set t W) x a w w' t p xs' ok v v' := by
  have hA := h0.side hs
  have h1 := hA.tx
  have h2 := hA.ta
  have h3 := hA.tw
  have he : st'.heap t = st.heap t := hs.keeps.heap t h0.tlt h0.tx h0.tw h0.tx
  have hX : Xs (st'.set t W) x a w' xs' :=
    hs.hx.mono (heap_set_ne _ _ _ _ (by omega)) (heap_set_ne _ _ _ _ (by omega)) (heap_set_ne _ _ _ _ (by omega)) (Nat.le_refl _)
  refine ⟨⟨hX, hs.hr, ?_, hA.tlt, h1, h2, h3, After.good h0 hs.hw hs.keeps.next hX hs.hr⟩, hs.hw,
    ⟨fun j e f g i => ?_, hs.keeps.next, hs.keeps.world, hs.keeps.defers⟩, ?_, by simp⟩
  · rw [heap_set_same]; exact at_put hp
  · rw [heap_set_ne _ _ _ _ (by omega), hs.keeps.heap j e f g f]
  · rw [heap_set_same, ← he]; exact hp

end Verif.Lang.Text
