/-
Interface values with an `Xdr` method (`xdr.Xdrable`, xdr/types.go:3-5), and what xdr/helper.go and
xdr/types.go, as read from the files, do.
-/
import Verif.Lang.MsgSpec
namespace Verif.Lang
open Verif.Xdr (XErr XdrState)
open Verif.Rpc
variable {ω : Type}
set_option linter.unusedSimpArgs false

theorem wp_rhs_two' (S : Sem ω) (p : String) (ρ : Env) (a b : Expr) (Q : List V → St ω → Prop) (st : St ω) :
    wp (evalRhs S p ρ (1 + 1) [a, b]) Q st = wp (evalArgs S p ρ [a, b]) Q st :=
  wp_rhs_two S p ρ a b Q st

theorem wp_rhs_call' (S : Sem ω) (p : String) (ρ : Env) (f : Expr) (args : List Expr) (sp : Bool) (Q : List V → St ω → Prop) (st : St ω) :
    wp (evalRhs S p ρ (1 + 1) [.call f args sp]) Q st = wp (evalM S p ρ (.call f args sp)) Q st := rfl

attribute [go_sim ↓] wp_rhs_two' wp_rhs_call'

variable [Others]

/-- The meaning of the files, with calls nested at most `n` deep. -/
abbrev sem (E : Ext ω) (n : Nat) : Sem ω := ⟨goProg, callN goProg E n, E.ext, E.spawn, E.grow, E.loops⟩

/-- Of the cells there were only `x`, `w` and those of `own` have changed. -/
structure Frame (own : Nat → Prop) (x w : Nat) (st st' : St ω) : Prop where
  heap : ∀ j, j < st.next → j ≠ x → j ≠ w → ¬ own j → st'.heap j = st.heap j
  next : st.next ≤ st'.next
  world : st'.world = st.world
  defers : st'.defers = st.defers

/-- The relation holds in `st'` and goes on doing so as long as nothing changes in `own`, in the reader's array `a`, and
in what is new since `st`. -/
def Lasting {τ : Type} (R : St ω → τ → Prop) (own : Nat → Prop) (a : Nat) (st st' : St ω) (y : τ) : Prop :=
  ∀ st'' : St ω, (∀ j, j < st'.next → own j ∨ j = a ∨ st.next ≤ j → st''.heap j = st'.heap j) → st'.next ≤ st''.next → R st'' y

/-- An interface value whose method `Xdr` does `f`: the object is in the cells `own`, related to its value by `R`
(before) and `R'` (after).  The method cannot change the direction of an `XdrState` (its fields are not exported). -/
structure Xdrs {τ : Type} (E : Ext ω) (n : Nat) (av : V) (own : Nat → Prop) (R R' : St ω → τ → Prop)
    (f : XdrState → τ → XdrState × τ) : Prop where
  ref : isStruct av = false
  reader : ∀ xs y, (f xs y).1.reader = xs.reader
  lt : ∀ st y j, R st y → own j → j < st.next
  stable : ∀ st st' y, R st y → (∀ j, own j → st'.heap j = st.heap j) → st.next ≤ st'.next → R st' y
  call : ∀ ⦃st : St ω⦄ ⦃x a w xs⦄, Xs st x a w xs → ∀ y, R st y → ¬ own x → ¬ own a → ¬ own w →
    wp (callMeth (sem E n) av "Xdr" [.ptr "" ⟨x, []⟩])
      (fun r st' => r = [] ∧ ∃ w', (w' = w ∨ st.next ≤ w') ∧ Xs st' x a w' (f xs y).1 ∧ Frame own x w st st' ∧
        Lasting R' own a st st' (f xs y).2) st

/-- The same for encoding only; `f` is what the method does to an `XdrState` that encodes. -/
structure Writes {τ : Type} (E : Ext ω) (n : Nat) (av : V) (own : Nat → Prop) (R : St ω → τ → Prop) (f : XdrState → τ → XdrState) : Prop where
  ref : isStruct av = false
  reader : ∀ st xs y, R st y → xs.reader = false → (f xs y).reader = false
  lt : ∀ st y j, R st y → own j → j < st.next
  stable : ∀ st st' y, R st y → (∀ j, own j → st'.heap j = st.heap j) → st.next ≤ st'.next → R st' y
  call : ∀ ⦃st : St ω⦄ ⦃x a w xs⦄, Xs st x a w xs → xs.reader = false → ∀ y, R st y → ¬ own x → ¬ own a → ¬ own w →
    wp (callMeth (sem E n) av "Xdr" [.ptr "" ⟨x, []⟩])
      (fun _ st' => ∃ w', (w' = w ∨ st.next ≤ w') ∧ Xs st' x a w' (f xs y) ∧ Frame own x w st st') st

theorem Xdrs.writes {τ : Type} {E : Ext ω} {n : Nat} {av : V} {own : Nat → Prop} {R R' : St ω → τ → Prop} {f : XdrState → τ → XdrState × τ}
    (h : Xdrs E n av own R R' f) : Writes E n av own R fun xs y => (f xs y).1 where
  ref := h.ref
  reader := fun _ xs y _ hr => (h.reader xs y).trans hr
  lt := h.lt
  stable := h.stable
  call := fun _ _ _ _ _ hx _ y hR h1 h2 h3 => wp_mono (h.call hx y hR h1 h2 h3) fun _ _ h => h.2.imp fun _ h => ⟨h.1, h.2.1, h.2.2.1⟩

/-- The same for decoding only, from less than 2^31 bytes (the nesting of calls may depend on the data). -/
structure Receives {τ : Type} (E : Ext ω) (n : Nat) (av : V) (own : Nat → Prop) (R R' : St ω → τ → Prop) (f : XdrState → τ → XdrState × τ) : Prop where
  ref : isStruct av = false
  lt : ∀ st y j, R st y → own j → j < st.next
  stable : ∀ st st' y, R st y → (∀ j, own j → st'.heap j = st.heap j) → st.next ≤ st'.next → R st' y
  call : ∀ ⦃st : St ω⦄ ⦃x a w l⦄, Xs st x a w (Xdr.makeReader l) → l.length < 2 ^ 31 → ∀ y, R st y → ¬ own x → ¬ own a → ¬ own w →
    wp (callMeth (sem E n) av "Xdr" [.ptr "" ⟨x, []⟩])
      (fun _ st' => ∃ w', (w' = w ∨ st.next ≤ w') ∧ Xs st' x a w' (f (Xdr.makeReader l) y).1 ∧ Frame own x w st st' ∧
        Lasting R' own a st st' (f (Xdr.makeReader l) y).2) st

theorem Xdrs.receives {τ : Type} {E : Ext ω} {n : Nat} {av : V} {own : Nat → Prop} {R R' : St ω → τ → Prop} {f : XdrState → τ → XdrState × τ}
    (h : Xdrs E n av own R R' f) : Receives E n av own R R' f :=
  ⟨h.ref, h.lt, h.stable, fun _ _ _ _ _ hx _ y hR h1 h2 h3 => wp_mono (h.call hx y hR h1 h2 h3) fun _ _ h => h.2⟩

/-- What is known after a call that only makes new cells. -/
macro "go_grew" h:ident n:ident k:ident o:ident d:ident : tactic => `(tactic| (
  have $n := Grows.next $h
  have $k := Grows.heap $h
  have $o := Grows.world $h
  have $d := Grows.defers $h
  try simp only [next_set, next_push, next_deferring] at $n:ident $k:ident
  try simp only [world_set, world_push, world_deferring] at $o:ident
  try simp only [defers_set, defers_push, defers_deferring] at $d:ident))

/-- The same after the `Xdr` method of an interface value. -/
macro "go_framed" h:ident n:ident k:ident o:ident d:ident : tactic => `(tactic| (
  have $n := Frame.next $h
  have $k := Frame.heap $h
  have $o := Frame.world $h
  have $d := Frame.defers $h
  try simp only [next_set, next_push, next_deferring] at $n:ident $k:ident
  try simp only [world_set, world_push, world_deferring] at $o:ident
  try simp only [defers_set, defers_push, defers_deferring] at $d:ident))

/-- xdr/helper.go:3-7 -/
theorem EncodeBuf_spec {τ : Type} (E : Ext ω) (k : Nat) {av : V} {own : Nat → Prop} {R R' : St ω → τ → Prop}
    {f : XdrState → τ → XdrState × τ} (hx : Xdrs E (k + 1) av own R R' f) {st : St ω} {y : τ} (hR : R st y) :
    wp (callN goProg E (k + 2) (.fn "xdr" "EncodeBuf") [av])
      (fun r st' => ∃ b e c, r = [b, e] ∧ st.next ≤ c ∧ BytesAt st' c b (Xdr.writeBuf (f (Xdr.makeWriter []) y).1) ∧
        ErrRel e (f (Xdr.makeWriter []) y).1.err ∧ R' st' (f (Xdr.makeWriter []) y).2 ∧
        (∀ j, j < st.next → ¬ own j → st'.heap j = st.heap j) ∧ st.next ≤ st'.next ∧ st'.world = st.world) st := by
  rw [wp_callN _ _ _ _ _ _ _ _ _ find_helper_EncodeBuf, wp_callFunc, helper_EncodeBuf]
  have hav := hx.ref
  go_run
  refine wp_mono (MakeWriter_spec E k (c := st.next) .nil (by go_lt)) ?_
  rintro _ st1 ⟨x, w, rfl, hx1, hxs, hw, hg⟩
  go_grew hg n1 k1 o1 d1
  simp only [next_set, next_push, next_deferring] at hx1
  obtain rfl : w = x := by rcases hw with h | h; exact h.2; exact absurd rfl h.1
  go_run [k1]
  have hlt : ∀ j, own j → j < st.next := fun j => hx.lt st y j hR
  have hox : ¬ own w := fun h => by have := hlt w h; omega
  have := hxs.xlt
  refine wp_mono (hx.call (hxs.mono (by go_run) (by go_run) (by go_run) (by go_lt)) y
    (hx.stable st _ y hR (fun j hj => by have := hlt j hj; go_run [k1]) (by go_lt)) hox hox hox) ?_
  rintro _ st2 ⟨rfl, w2, hw2, hxs2, hfr, hR'⟩
  go_framed hfr n2 k2 o2 d2
  simp only [next_set, next_push, next_deferring] at hw2
  have k2' : ∀ j, j < st1.next + 1 → st.next ≤ j → j ≠ w → st2.heap j = (st1.push (V.ptr "" { id := w, path := [] })).heap j :=
    fun j a b c => k2 j a c c (fun h => by have := hlt j h; omega)
  obtain ⟨e2, b2, hex2, he2, _⟩ := hxs2.cell
  go_run [k2', hex2]
  have hr2 : (f (Xdr.makeWriter []) y).1.reader = false := hx.reader _ _
  refine wp_mono (WriteBuf_spec E k hxs2 hr2) ?_
  rintro _ st3 ⟨b, rfl, hb, hbn, hxs3, hg3⟩
  go_grew hg3 n3 k3 o3 d3
  have := hxs2.xlt
  have := hxs2.wlt
  go_run [k3, k2', hex2, d1, d2, d3]
  refine ⟨_, _, w2, rfl, by omega, hb.mono (by go_run), he2, hR' _ (fun j _ _ => by go_run [k3]) (by go_lt), fun j hj hn => ?_, by go_lt, by go_run [o3, o2, o1]⟩
  go_run [k3, k2, k1]

/-- xdr/helper.go:9-13 -/
theorem DecodeBuf_spec {τ : Type} (E : Ext ω) (k : Nat) {av : V} {own : Nat → Prop} {R R' : St ω → τ → Prop}
    {f : XdrState → τ → XdrState × τ} (hx : Xdrs E (k + 1) av own R R' f) {st : St ω} {y : τ} (hR : R st y)
    {c : Nat} {b : V} {l : List UInt8} (hb : BytesAt st c b l) (hc : c < st.next) (hoc : ¬ own c) :
    wp (callN goProg E (k + 2) (.fn "xdr" "DecodeBuf") [b, av])
      (fun r st' => ∃ e, r = [e] ∧ 
        ErrRel e (f (Xdr.makeReader l) y).1.err ∧ R' st' (f (Xdr.makeReader l) y).2 ∧
        (∀ j, j < st.next → ¬ own j → st'.heap j = st.heap j) ∧ st.next ≤ st'.next ∧ st'.world = st.world) st := by
  rw [wp_callN _ _ _ _ _ _ _ _ _ find_helper_DecodeBuf, wp_callFunc, helper_DecodeBuf]
  have hav := hx.ref
  go_run
  refine wp_mono (MakeReader_spec E k (hb.mono (by go_run)) (by go_lt)) ?_
  rintro _ st1 ⟨x, a, rfl, hx1, hxs, hw, hg⟩
  go_grew hg n1 k1 o1 d1
  simp only [next_set, next_push, next_deferring] at hx1
  have hlt : ∀ j, own j → j < st.next := fun j => hx.lt st y j hR
  have hox : ¬ own x := fun h => by have := hlt x h; omega
  have hoa : ¬ own a := by
    rcases hw with ⟨_, rfl⟩ | ⟨_, rfl⟩
    · exact hox
    · exact hoc
  have := hxs.xlt
  have := hxs.alt
  go_run [k1]
  refine wp_mono (hx.call (hxs.mono (by go_run) (by go_run) (by go_run) (by go_lt)) y
    (hx.stable st _ y hR (fun j hj => by have := hlt j hj; go_run [k1]) (by go_lt)) hox hoa hox) ?_
  rintro _ st2 ⟨rfl, w2, hw2, hxs2, hfr, hR'⟩
  go_framed hfr n2 k2 o2 d2
  have k2' : ∀ j, j < st1.next + 1 → st.next ≤ j → j ≠ x → st2.heap j = (st1.push (V.ptr "" { id := x, path := [] })).heap j :=
    fun j a b c => k2 j a c c (fun h => by have := hlt j h; omega)
  obtain ⟨e2, b2, hex2, he2, _⟩ := hxs2.cell
  have := hxs2.xlt
  go_run [k2', hex2, d2, d1]
  refine ⟨_, rfl, he2, hR' _ (fun j _ _ => by go_run) (by go_lt), fun j hj hn => ?_, by go_lt, by go_run [o2, o1]⟩
  go_run [k2, k1]

end Verif.Lang
