/-
What the methods of rfc1057/xdr.go that the client and the server use, as read from the file, do: what the
functions of Verif.Rpc.Msg do, to a structure in memory.
-/
import Verif.Lang.LibVar
import Verif.Rpc.Msg
namespace Verif.Lang
open Verif.Xdr (XErr XdrState)
open Verif.Rpc
variable {ω : Type}
set_option linter.unusedSimpArgs false

/-! ### Fields -/

theorem at_append {p q : List String} : ∀ {v u : V}, v.at p = some u → v.at (p ++ q) = u.at q := by
  induction p with
  | nil => intro v u h; rw [at_nil] at h; cases h; rfl
  | cons f p ih =>
    intro v u h
    cases v with
    | struct T fs =>
      rw [at_cons] at h
      rw [List.cons_append, at_cons]
      cases hl : fs.lookup f with
      | none => rw [hl] at h; cases h
      | some y => rw [hl] at h; exact ih h
    | vals l =>
      rw [at_vals] at h
      rw [List.cons_append, at_vals]
      cases hl : l[f.length]? with
      | none => rw [hl] at h; cases h
      | some y => rw [hl] at h; exact ih h
    | _ => simp [V.at, V.field] at h

theorem put_append {p q : List String} : ∀ {v u w u' : V}, v.at p = some u → V.put w u q = some u' →
    V.put w v (p ++ q) = V.put u' v p := by
  induction p with
  | nil => intro v u w u' h e; rw [at_nil] at h; cases h; rw [List.nil_append, put_nil, e]
  | cons f p ih =>
    intro v u w u' h e
    cases v with
    | struct T fs =>
      rw [at_cons] at h
      rw [List.cons_append, put_cons, put_cons]
      cases hl : fs.lookup f with
      | none => rfl
      | some y => rw [hl] at h; simp only [ih h e]
    | vals l =>
      rw [at_vals] at h
      rw [List.cons_append, put_vals, put_vals]
      cases hl : l[f.length]? with
      | none => rfl
      | some y => rw [hl] at h; simp only [ih h e]
    | _ => simp [V.at, V.field] at h

theorem setFld_setFld (fs : List (String × V)) (f : String) (v w : V) : setFld f v (setFld f w fs) = setFld f v fs := by
  induction fs with
  | nil => rfl
  | cons g fs ih =>
    obtain ⟨g, y⟩ := g
    rw [setFld_cons, setFld_cons]
    by_cases e : g = f
    · rw [if_pos e, if_pos e, setFld_cons, if_pos e]
    · rw [if_neg e, if_neg e, setFld_cons, if_neg e, ih]

theorem put_put {p : List String} : ∀ {v w u v' : V}, V.put w v p = some v' → V.put u v' p = V.put u v p := by
  induction p with
  | nil => intro v w u v' _; rw [put_nil, put_nil]
  | cons f p ih =>
    intro v w u v' h
    cases v with
    | struct T fs =>
      rw [put_cons] at h
      cases hl : fs.lookup f with
      | none => rw [hl] at h; cases h
      | some y =>
        rw [hl] at h
        cases hp : V.put w y p with
        | none => simp only [hp] at h; cases h
        | some y' =>
          simp only [hp] at h
          cases h
          rw [put_cons, put_cons, lookup_setFld_same hl, hl]
          simp only [ih hp, setFld_setFld]
    | vals l =>
      rw [put_vals] at h
      cases hl : l[f.length]? with
      | none => rw [hl] at h; cases h
      | some y =>
        rw [hl] at h
        cases hp : V.put w y p with
        | none => simp only [hp] at h; cases h
        | some y' =>
          simp only [hp] at h
          cases h
          rw [put_vals, put_vals, getElem?_set_same hl, hl]
          simp only [ih hp, List.set_set]
    | _ => simp [V.put] at h

/-- Changing a field of a structure. -/
theorem put_field {p : List String} {v v' w u : V} {T : String} {fs : List (String × V)} {f : String}
    (h : v.at p = some (.struct T fs)) (hl : fs.lookup f = some u) (hp : V.put w v (p ++ [f]) = some v') :
    V.put (.struct T (setFld f w fs)) v p = some v' := by
  rw [← hp]
  refine (put_append h ?_).symm
  rw [put_cons, hl]
  rfl

/-! ### What the methods of the message types have in common -/

/-- A `[]byte` whose array is none of these cells. -/
structure Bs (st : St ω) (x w t : Nat) (v : V) (b : Xdr.GoBytes) : Prop where
  val : GoB st v b
  sep : ∀ s, v = .slice s → s.base.id < st.next ∧ s.base.id ≠ x ∧ s.base.id ≠ w ∧ s.base.id ≠ t

/-- How a value of type `τ` is in memory. -/
abbrev Rel (ω τ : Type) := St ω → Nat → Nat → Nat → V → τ → Prop

/-- The relation survives changes of the cells of an `XdrState` and of `t`. -/
def Rel.Stable {τ : Type} (R : Rel ω τ) : Prop :=
  ∀ ⦃st st' : St ω⦄ ⦃x w w' t : Nat⦄ ⦃v : V⦄ ⦃y : τ⦄, R st x w t v y →
    (∀ j, j < st.next → j ≠ x → j ≠ w → j ≠ t → st'.heap j = st.heap j) → st.next ≤ st'.next →
    (w' = w ∨ st.next ≤ w') → R st' x w' t v y

theorem Bs.stable : Rel.Stable (Bs (ω := ω)) := by
  intro st st' x w w' t v y h hk hn hw
  refine ⟨h.val.mono fun s hs => ?_, fun s hs => ?_⟩
  · obtain ⟨a, b, c, d⟩ := h.sep s hs
    exact hk _ a b c d
  · obtain ⟨a, b, c, d⟩ := h.sep s hs
    exact ⟨by omega, b, by omega, d⟩

theorem Rel.Stable.keeps {τ : Type} {R : Rel ω τ} (hR : Rel.Stable R) {st st' : St ω} {x w w' t : Nat} {v : V} {y : τ}
    (h : R st x w t v y) (hk : Keeps x w t st st') (hw : w' = w ∨ st.next ≤ w') : R st' x w' t v y :=
  hR h hk.heap hk.next hw

variable [Others]

/-- A method, called on the value at `⟨t, p⟩` with the `XdrState` in `x`, does `f`. -/
def Codec {τ : Type} (E : Ext ω) (n : Nat) (key : FKey) (R : Rel ω τ) (f : XdrState → τ → XdrState × τ) : Prop :=
  ∀ ⦃st : St ω⦄ ⦃x a w xs⦄, Xs st x a w xs → ∀ (T : String) (t : Nat) (p : List String) (v : V) (y : τ),
    (st.heap t).at p = some v → R st x w t v y → t < st.next → t ≠ x → t ≠ a → t ≠ w →
    wp (callN goProg E n key [.ptr T ⟨t, p⟩, .ptr "" ⟨x, []⟩])
      (fun r st' => r = [] ∧ ∃ w', (w' = w ∨ st.next ≤ w') ∧ Xs st' x a w' (f xs y).1 ∧ Keeps x w t st st' ∧
        ∃ v', V.put v' (st.heap t) p = some (st'.heap t) ∧ R st' x w' t v' (f xs y).2) st

def RU32 : Rel ω UInt32 := fun _ _ _ _ v y => v = .u32 y

theorem RU32.stable : Rel.Stable (RU32 (ω := ω)) := fun _ _ _ _ _ _ _ _ h _ _ _ => h

theorem RU32.codec {E : Ext ω} {k : Nat} {key : FKey}
    (h : ∀ ⦃st : St ω⦄ ⦃x a w xs⦄, Xs st x a w xs → ∀ (T : String) (t : Nat) (p : List String) (v : UInt32),
      (st.heap t).at p = some (.u32 v) → t < st.next → t ≠ x → t ≠ a → t ≠ w →
      wp (callN goProg E k key [.ptr T ⟨t, p⟩, .ptr "" ⟨x, []⟩])
        (fun r st' => r = [] ∧ Post st st' x a w t (Xdr.xdrU32 xs v).1 ∧
          V.put (.u32 (Xdr.xdrU32 xs v).2) (st.heap t) p = some (st'.heap t)) st) :
    Codec E k key RU32 Xdr.xdrU32 := by
  intro st x a w xs hx T t p v y hv hR h0 h1 h2 h3
  subst hR
  refine wp_mono (h hx T t p y hv h0 h1 h2 h3) ?_
  rintro _ st1 ⟨rfl, ⟨w1, hw1, h1', hk⟩, hp⟩
  exact ⟨rfl, w1, hw1, h1', hk, _, hp, rfl⟩

/-- The methods of the enumerations. -/
macro "go_enum" f:term:max d:term:max E:term:max k:term:max : tactic => `(tactic| (
  refine RU32.codec fun st x a w xs h T t p v hv h0 h1 h2 h3 => ?_
  rw [wp_callN _ _ _ _ _ _ _ _ _ $f, wp_callFunc, $d:term]
  have := h.xlt
  have := h.alt
  have := h.wlt
  go_run
  refine wp_mono (XdrU32_spec $E $k (h.mono (by go_run) (by go_run) (by go_run) (by go_lt)) _ t p v (by go_run [hv]) (by go_lt) h1 h2 h3) ?_
  rintro _ st1 ⟨rfl, ⟨w1, hw1, h1', hk⟩, hp⟩
  go_after hk n1 k1 o1 d1
  simp only [next_set, next_push, next_deferring] at hw1
  go_run [k1, d1]
  refine ⟨Post.via (by omega) h1' (by go_run) (by go_run) (by go_run) (by go_lt) (by go_keeps' [k1, o1]), ?_⟩
  rw [← hp]
  go_run))

theorem Auth_flavor_codec (E : Ext ω) (k : Nat) : Codec E (k + 3) (.meth "rfc1057.Auth_flavor" "Xdr") RU32 Xdr.xdrU32 := by
  go_enum find_rpcXdr_Auth_flavor_Xdr rpcXdr_Auth_flavor_Xdr E k

theorem Msg_type_codec (E : Ext ω) (k : Nat) : Codec E (k + 3) (.meth "rfc1057.Msg_type" "Xdr") RU32 Xdr.xdrU32 := by
  go_enum find_rpcXdr_Msg_type_Xdr rpcXdr_Msg_type_Xdr E k

theorem Reply_stat_codec (E : Ext ω) (k : Nat) : Codec E (k + 3) (.meth "rfc1057.Reply_stat" "Xdr") RU32 Xdr.xdrU32 := by
  go_enum find_rpcXdr_Reply_stat_Xdr rpcXdr_Reply_stat_Xdr E k

theorem Accept_stat_codec (E : Ext ω) (k : Nat) : Codec E (k + 3) (.meth "rfc1057.Accept_stat" "Xdr") RU32 Xdr.xdrU32 := by
  go_enum find_rpcXdr_Accept_stat_Xdr rpcXdr_Accept_stat_Xdr E k

theorem Reject_stat_codec (E : Ext ω) (k : Nat) : Codec E (k + 3) (.meth "rfc1057.Reject_stat" "Xdr") RU32 Xdr.xdrU32 := by
  go_enum find_rpcXdr_Reject_stat_Xdr rpcXdr_Reject_stat_Xdr E k

theorem Auth_stat_codec (E : Ext ω) (k : Nat) : Codec E (k + 3) (.meth "rfc1057.Auth_stat" "Xdr") RU32 Xdr.xdrU32 := by
  go_enum find_rpcXdr_Auth_stat_Xdr rpcXdr_Auth_stat_Xdr E k


/-- Running a method: what has been done since `st0`.  The value that `t` has at `p` is `v`. -/
structure In (st0 st : St ω) (x a w0 t : Nat) (p : List String) (w : Nat) (xs : XdrState) (v : V) : Prop where
  xs : Xs st x a w xs
  keeps : Keeps x w0 t st0 st
  hw : w = w0 ∨ st0.next ≤ w
  cell : V.put v (st0.heap t) p = some (st.heap t)

omit [Others] in
theorem Keeps.trans {x w w1 t : Nat} {st0 st1 st2 : St ω} (h : Keeps x w t st0 st1) (h' : Keeps x w1 t st1 st2)
    (hw : w1 = w ∨ st0.next ≤ w1) : Keeps x w t st0 st2 := by
  have n1 := h.next
  have n2 := h'.next
  refine ⟨fun j a b c d => ?_, by omega, h'.world.trans h.world, h'.defers.trans h.defers⟩
  rw [h'.heap j (by omega) b (by omega) d, h.heap j a b c d]

theorem In.start {st : St ω} {x a w t : Nat} {p : List String} {xs : XdrState} {v : V} (h : Xs st x a w xs)
    (hv : (st.heap t).at p = some v) : In st st x a w t p w xs v :=
  ⟨h, ⟨fun _ _ _ _ _ => rfl, Nat.le_refl _, rfl, rfl⟩, .inl rfl, put_at hv⟩

/-- The next call. -/
theorem Codec.step {τ : Type} {E : Ext ω} {n : Nat} {key : FKey} {R : Rel ω τ} {f : XdrState → τ → XdrState × τ}
    (hc : Codec E n key R f) {st0 st : St ω} {x a w0 t : Nat} {p : List String} {w : Nat} {xs : XdrState} {v : V}
    (hin : In st0 st x a w0 t p w xs v) (q : List String) {p' : List String} (hp : p' = p ++ q) {u : V} (hq : v.at q = some u)
    {y : τ} (hR : R st x w t u y) (T : String) (h0 : t < st0.next) (h1 : t ≠ x) (h2 : t ≠ a) (h3 : t ≠ w0) :
    wp (callN goProg E n key [.ptr T ⟨t, p'⟩, .ptr "" ⟨x, []⟩])
      (fun r st' => r = [] ∧ ∃ w' u' v', V.put u' v q = some v' ∧ In st0 st' x a w0 t p w' (f xs y).1 v' ∧
        R st' x w' t u' (f xs y).2 ∧ Keeps x w t st st' ∧ (w' = w ∨ st.next ≤ w')) st := by
  subst hp
  have := hin.keeps.next
  have := hin.hw
  have hv : (st.heap t).at p = some v := at_put hin.cell
  refine wp_mono (hc hin.xs T t (p ++ q) u y (by rw [at_append hv, hq]) hR (by omega) h1 h2 (by omega)) ?_
  rintro _ st1 ⟨rfl, w1, hw1, h1', hk, u', hu, hR'⟩
  obtain ⟨v', hv'⟩ := put_some hq u'
  refine ⟨rfl, w1, u', v', hv', ⟨h1', hin.keeps.trans hk hin.hw, by omega, ?_⟩, hR', hk, hw1⟩
  rw [put_append hv hv', put_put hin.cell] at hu
  exact hu

/-- A method from its body. -/
theorem Codec.ofBody {τ : Type} {E : Ext ω} {n : Nat} {key : FKey} {R : Rel ω τ} {f : XdrState → τ → XdrState × τ} {ty : Ty}
    {m : String} {body : List Stmt}
    (hf : goProg.find key = some ("rfc1057", ⟨some ("v", .ptr ty), m, [("xs", Ty.ptr (Ty.qual "xdr" "XdrState"))], [], body⟩))
    (hR : Rel.Stable R)
    (H : ∀ ⦃st0 : St ω⦄ ⦃x a w xs⦄, Xs st0 x a w xs → ∀ (T : String) (t : Nat) (p : List String) (v : V) (y : τ) (iv ix : Nat),
      (st0.heap t).at p = some v → R st0 x w t v y → t < st0.next → t ≠ x → t ≠ a → t ≠ w →
      st0.heap iv = .ptr T ⟨t, p⟩ → st0.heap ix = .ptr "" ⟨x, []⟩ → iv < st0.next → ix < st0.next →
      iv ≠ x → iv ≠ w → iv ≠ t → ix ≠ x → ix ≠ w → ix ≠ t →
      wp (execs ⟨goProg, callN goProg E n, E.ext, E.spawn, E.grow, E.loops⟩ "rfc1057" body [[("xs", ix), ("v", iv)]] .next)
        (fun r st' => r.2 = .next ∧ ∃ w' v', In st0 st' x a w t p w' (f xs y).1 v' ∧ R st' x w' t v' (f xs y).2) st0) :
    Codec E (n + 1) key R f := by
  intro st x a w xs h T t p v y hv hr h0 h1 h2 h3
  rw [wp_callN _ _ _ _ _ _ _ _ _ hf, wp_callFunc]
  have := h.xlt
  have := h.alt
  have := h.wlt
  go_run
  refine wp_mono (H (h.mono (by go_run) (by go_run) (by go_run) (by go_lt)) T t p v y st.next (st.next + 1)
    (by go_run [hv]) (hR hr (fun j _ _ _ _ => by go_run) (by go_lt) (.inl rfl)) (by go_lt) h1 h2 h3 (by go_run) (by go_run) (by go_lt) (by go_lt)
    (by omega) (by omega) (by omega) (by omega) (by omega) (by omega)) ?_
  rintro r st1 ⟨hr1, w1, v1, hin, hR1⟩
  have hk := hin.keeps
  have hw1 := hin.hw
  go_after hk n1 k1 o1 d1
  simp only [next_set, next_push, next_deferring] at hw1
  rw [hr1]
  go_run [d1]
  refine ⟨w1, by omega, hin.xs.mono (by go_run) (by go_run) (by go_run) (by go_lt), by go_keeps' [k1, o1], v1, ?_,
    hR hR1 (fun j _ _ _ _ => by go_run) (by go_lt) (.inl rfl)⟩
  have := hin.cell
  rw [← this]
  go_run

/-- Fields of a structure in a hypothesis. -/
macro "go_at" h:ident : tactic => `(tactic|
  simp (disch := go_ne) only [go_sim, ↓reduceIte, String.reduceEq, String.reduceNe, String.reduceBEq, String.reduceAppend,
    reduceCtorEq, Option.some.injEq] at $h:ident)

theorem u32_step (E : Ext ω) (k : Nat) {st0 st : St ω} {x a w0 t : Nat} {p : List String} {w : Nat} {xs : XdrState} {v : V}
    (hin : In st0 st x a w0 t p w xs v) (q : List String) {p' : List String} (hp : p' = p ++ q) {y : UInt32} (hq : v.at q = some (.u32 y))
    (T : String) (h0 : t < st0.next) (h1 : t ≠ x) (h2 : t ≠ a) (h3 : t ≠ w0) :
    wp (callN goProg E (k + 2) (.fn "xdr" "XdrU32") [.ptr "" ⟨x, []⟩, .ptr T ⟨t, p'⟩])
      (fun r st' => r = [] ∧ ∃ w' v', V.put (.u32 (Xdr.xdrU32 xs y).2) v q = some v' ∧ In st0 st' x a w0 t p w' (Xdr.xdrU32 xs y).1 v' ∧
        Keeps x w t st st' ∧ (w' = w ∨ st.next ≤ w')) st := by
  subst hp
  have := hin.keeps.next
  have := hin.hw
  have hv : (st.heap t).at p = some v := at_put hin.cell
  refine wp_mono (XdrU32_spec E k hin.xs T t (p ++ q) y (by rw [at_append hv, hq]) (by omega) h1 h2 (by omega)) ?_
  rintro _ st1 ⟨rfl, ⟨w1, hw1, h1', hk⟩, hu⟩
  obtain ⟨v', hv'⟩ := put_some hq (.u32 (Xdr.xdrU32 xs y).2)
  refine ⟨rfl, w1, v', hv', ⟨h1', hin.keeps.trans hk hin.hw, by omega, ?_⟩, hk, hw1⟩
  rw [put_append hv hv', put_put hin.cell] at hu
  exact hu

theorem bytes_step (E : Ext ω) (k : Nat) {st0 st : St ω} {x a w0 t : Nat} {p : List String} {w : Nat} {xs : XdrState} {v : V}
    (hin : In st0 st x a w0 t p w xs v) (m : Int) (q : List String) {p' : List String} (hp : p' = p ++ q) {u : V} {y : Xdr.GoBytes}
    (hq : v.at q = some u) (hR : Bs st x w t u y)
    (T : String) (h0 : t < st0.next) (h1 : t ≠ x) (h2 : t ≠ a) (h3 : t ≠ w0) :
    wp (callN goProg E (k + 2) (.fn "xdr" "XdrVarArray") [.ptr "" ⟨x, []⟩, .int m, .ptr T ⟨t, p'⟩])
      (fun r st' => r = [] ∧ ∃ w' u' v', V.put u' v q = some v' ∧ In st0 st' x a w0 t p w' (Xdr.xdrVarArray xs m y).1 v' ∧
        Bs st' x w' t u' (Xdr.xdrVarArray xs m y).2 ∧ Keeps x w t st st' ∧ (w' = w ∨ st.next ≤ w')) st := by
  subst hp
  have := hin.keeps.next
  have := hin.hw
  have hv : (st.heap t).at p = some v := at_put hin.cell
  refine wp_mono (XdrVarArray_spec E k hin.xs m T t (p ++ q) u y (by rw [at_append hv, hq]) hR.val
    (fun s hs => by have := hR.sep s hs; omega) (by omega) h1 h2 (by omega)) ?_
  rintro _ st1 ⟨rfl, ⟨w1, hw1, h1', hk⟩, u', hu, hg, hs⟩
  obtain ⟨v', hv'⟩ := put_some hq u'
  refine ⟨rfl, w1, u', v', hv', ⟨h1', hin.keeps.trans hk hin.hw, by omega, ?_⟩, ⟨hg, fun s hs' => ?_⟩, hk, hw1⟩
  · rw [put_append hv hv', put_put hin.cell] at hu
    exact hu
  · have := hk.next
    rcases hs with rfl | rfl | ⟨hax, o, n, rfl⟩
    · have := hR.sep s hs'
      omega
    · cases hs'
    · cases hs'
      have := h1'.alt
      have hwa := h1'.other
      dsimp only
      split at hwa
      · omega
      · exact absurd hwa hax

/-- `Opaque_auth`. -/
def ROpaque : Rel ω OpaqueAuth := fun st x w t v y =>
  ∃ b, v = .struct "rfc1057.Opaque_auth" [("Flavor", .u32 y.flavor), ("Body", b)] ∧ Bs st x w t b y.body

theorem ROpaque.stable : Rel.Stable (ROpaque (ω := ω)) := by
  rintro st st' x w w' t v y ⟨b, rfl, hb⟩ hk hn hw
  exact ⟨b, rfl, Bs.stable hb hk hn hw⟩

/-- rfc1057/xdr.go:8-11 -/
theorem Opaque_auth_codec (E : Ext ω) (k : Nat) : Codec E (k + 4) (.meth "rfc1057.Opaque_auth" "Xdr") ROpaque fun xs y => OpaqueAuth.xdr xs y := by
  refine Codec.ofBody find_rpcXdr_Opaque_auth_Xdr ROpaque.stable ?_
  rintro st0 x a w xs h T t p _ ⟨flavor, body⟩ iv ix hv ⟨b, rfl, hb⟩ h0 h1 h2 h3 hiv hix i1 i2 i3 i4 i5 i6 i7 i8
  have hin := In.start h hv
  go_run [hiv, hix]
  refine wp_mono ((Auth_flavor_codec E k).step (y := flavor) hin ["Flavor"] rfl (by go_run) rfl _ h0 h1 h2 h3) ?_
  rintro _ st1 ⟨rfl, w1, _, v1, hv1, hin1, rfl, hk1, hw1⟩
  have hb1 := Bs.stable.keeps hb hk1 hw1
  have k1 := hin1.keeps.heap
  go_at hv1
  subst hv1
  go_run [k1, hiv, hix]
  refine wp_mono (bytes_step E (k + 1) hin1 _ ["Body"] rfl (by go_run) hb1 _ h0 h1 h2 h3) ?_
  rintro _ st2 ⟨rfl, w2, b2, v2, hv2, hin2, hb2, hk2, hw2⟩
  go_at hv2
  subst hv2
  go_run
  exact ⟨w2, _, hin2, _, rfl, hb2⟩

/-- `Call_body`. -/
def RCall : Rel ω CallBody := fun st x w t v y =>
  ∃ c f, v = .struct "rfc1057.Call_body" [("Rpcvers", .u32 y.rpcvers), ("Prog", .u32 y.prog), ("Vers", .u32 y.vers),
      ("Proc", .u32 y.proc), ("Cred", c), ("Verf", f)] ∧ ROpaque st x w t c y.cred ∧ ROpaque st x w t f y.verf

theorem RCall.stable : Rel.Stable (RCall (ω := ω)) := by
  rintro st st' x w w' t v y ⟨c, f, rfl, hc, hf⟩ hk hn hw
  exact ⟨c, f, rfl, ROpaque.stable hc hk hn hw, ROpaque.stable hf hk hn hw⟩

/-- rfc1057/xdr.go:37-44 -/
theorem Call_body_codec (E : Ext ω) (k : Nat) : Codec E (k + 5) (.meth "rfc1057.Call_body" "Xdr") RCall fun xs y => CallBody.xdr xs y := by
  refine Codec.ofBody find_rpcXdr_Call_body_Xdr RCall.stable ?_
  rintro st0 x a w xs h T t p _ ⟨rpcvers, prog, vers, proc, cred, verf⟩ iv ix hv ⟨c, f, rfl, hc, hf⟩ h0 h1 h2 h3 hiv hix i1 i2 i3 i4 i5 i6 i7 i8
  have hin := In.start h hv
  go_run [hiv, hix]
  refine wp_mono (u32_step E (k + 2) (y := rpcvers) hin ["Rpcvers"] rfl (by go_run) _ h0 h1 h2 h3) ?_
  rintro _ st1 ⟨rfl, w1, v1, hv1, hin1, hk1, hw1⟩
  have hc1 := ROpaque.stable.keeps hc hk1 hw1
  have hf1 := ROpaque.stable.keeps hf hk1 hw1
  have k1 := hin1.keeps.heap
  go_at hv1
  subst hv1
  go_run [k1, hiv, hix]
  refine wp_mono (u32_step E (k + 2) (y := prog) hin1 ["Prog"] rfl (by go_run) _ h0 h1 h2 h3) ?_
  rintro _ st2 ⟨rfl, w2, v2, hv2, hin2, hk2, hw2⟩
  have hc2 := ROpaque.stable.keeps hc1 hk2 hw2
  have hf2 := ROpaque.stable.keeps hf1 hk2 hw2
  have k2 := hin2.keeps.heap
  go_at hv2
  subst hv2
  go_run [k2, hiv, hix]
  refine wp_mono (u32_step E (k + 2) (y := vers) hin2 ["Vers"] rfl (by go_run) _ h0 h1 h2 h3) ?_
  rintro _ st3 ⟨rfl, w3, v3, hv3, hin3, hk3, hw3⟩
  have hc3 := ROpaque.stable.keeps hc2 hk3 hw3
  have hf3 := ROpaque.stable.keeps hf2 hk3 hw3
  have k3 := hin3.keeps.heap
  go_at hv3
  subst hv3
  go_run [k3, hiv, hix]
  refine wp_mono (u32_step E (k + 2) (y := proc) hin3 ["Proc"] rfl (by go_run) _ h0 h1 h2 h3) ?_
  rintro _ st4 ⟨rfl, w4, v4, hv4, hin4, hk4, hw4⟩
  have hc4 := ROpaque.stable.keeps hc3 hk4 hw4
  have hf4 := ROpaque.stable.keeps hf3 hk4 hw4
  have k4 := hin4.keeps.heap
  go_at hv4
  subst hv4
  go_run [k4, hiv, hix]
  refine wp_mono ((Opaque_auth_codec E k).step hin4 ["Cred"] rfl (by go_run) hc4 _ h0 h1 h2 h3) ?_
  rintro _ st5 ⟨rfl, w5, c5, v5, hv5, hin5, hc5, hk5, hw5⟩
  have hf5 := ROpaque.stable.keeps hf4 hk5 hw5
  have k5 := hin5.keeps.heap
  go_at hv5
  subst hv5
  go_run [k5, hiv, hix]
  refine wp_mono ((Opaque_auth_codec E k).step hin5 ["Verf"] rfl (by go_run) hf5 _ h0 h1 h2 h3) ?_
  rintro _ st6 ⟨rfl, w6, c6, v6, hv6, hin6, hf6, hk6, hw6⟩
  have hc6 := ROpaque.stable.keeps hc5 hk6 hw6
  go_at hv6
  subst hv6
  go_run
  exact ⟨w6, _, hin6, _, _, rfl, hc6, hf6⟩

/-- `Mismatch_info`. -/
def mmV (y : Mismatch) : V := .struct "" [("Low", .u32 y.low), ("High", .u32 y.high)]

/-- `Rejected_reply`. -/
def RRejected : Rel ω RejectedReply := fun _ _ _ _ v y =>
  v = .struct "rfc1057.Rejected_reply" [("Stat", .u32 y.stat), ("Mismatch_info", mmV y.mismatch), ("Astat", .u32 y.astat)]

theorem RRejected.stable : Rel.Stable (RRejected (ω := ω)) := by
  rintro st st' x w w' t v y h _ _ _
  exact h

/-- rfc1057/xdr.go:66-75 -/
theorem Rejected_reply_codec (E : Ext ω) (k : Nat) :
    Codec E (k + 4) (.meth "rfc1057.Rejected_reply" "Xdr") RRejected fun xs y => RejectedReply.xdr xs y := by
  refine Codec.ofBody find_rpcXdr_Rejected_reply_Xdr RRejected.stable ?_
  rintro st0 x a w xs h T t p _ ⟨stat, ⟨low, high⟩, astat⟩ iv ix hv rfl h0 h1 h2 h3 hiv hix i1 i2 i3 i4 i5 i6 i7 i8
  have hin := In.start h hv
  simp only [mmV] at hin
  go_run [hiv, hix]
  refine wp_mono ((Reject_stat_codec E k).step (y := stat) hin ["Stat"] rfl (by go_run) rfl _ h0 h1 h2 h3) ?_
  rintro _ st1 ⟨rfl, w1, _, v1, hv1, hin1, rfl, hk1, hw1⟩
  have k1 := hin1.keeps.heap
  cases hs : Xdr.xdrU32 xs stat with
  | mk xs1 s1 =>
  simp only [RejectedReply.xdr, Mismatch.xdr, hs]
  rw [hs] at hv1 hin1
  have c1 := at_append (q := ["Stat"]) (at_put hin1.cell)
  go_at hv1
  subst hv1
  go_at c1
  dsimp only at hin1 ⊢
  by_cases e0 : s1 = 0
  · subst e0
    go_run [k1, hiv, hix, c1]
    refine wp_mono (u32_step E (k + 1) (y := low) hin1 ["Mismatch_info", "Low"] (p' := p ++ ["Mismatch_info"] ++ ["Low"]) (by simp) (by go_run) _ h0 h1 h2 h3) ?_
    rintro _ st2 ⟨rfl, w2, v2, hv2, hin2, hk2, hw2⟩
    have k2 := hin2.keeps.heap
    go_at hv2
    subst hv2
    go_run [k2, hiv, hix]
    refine wp_mono (u32_step E (k + 1) (y := high) hin2 ["Mismatch_info", "High"] (p' := p ++ ["Mismatch_info"] ++ ["High"]) (by simp) (by go_run) _ h0 h1 h2 h3) ?_
    rintro _ st3 ⟨rfl, w3, v3, hv3, hin3, hk3, hw3⟩
    go_at hv3
    subst hv3
    go_run
    exact ⟨w3, _, hin3, rfl⟩
  · have e0' : (s1 == 0) = false := by simp [e0]
    by_cases e1 : s1 = 1
    · subst e1
      go_run [k1, hiv, hix, c1, e0', if_neg e0]
      refine wp_mono ((Auth_stat_codec E k).step (y := astat) hin1 ["Astat"] rfl (by go_run) rfl _ h0 h1 h2 h3) ?_
      rintro _ st2 ⟨rfl, w2, _, v2, hv2, hin2, rfl, hk2, hw2⟩
      go_at hv2
      subst hv2
      go_run
      exact ⟨w2, _, hin2, rfl⟩
    · have e1' : (s1 == 1) = false := by simp [e1]
      go_run [k1, hiv, hix, c1, e0', e1', if_neg e0, if_neg e1]
      exact ⟨w1, _, hin1, rfl⟩

theorem array0_step (E : Ext ω) (k : Nat) {st0 st : St ω} {x a w0 t : Nat} {p : List String} {w : Nat} {xs : XdrState} {v : V}
    (hin : In st0 st x a w0 t p w xs v) (q : List String) {p' : List String} (hp : p' = p ++ q) (hq : v.at q = some (.bytes []))
    (h0 : t < st0.next) (h1 : t ≠ x) (h2 : t ≠ a) (h3 : t ≠ w0) :
    wp (callN goProg E (k + 2) (.fn "xdr" "XdrArray") [.ptr "" ⟨x, []⟩, .slice ⟨⟨t, p'⟩, 0, 0, 0⟩])
      (fun r st' => r = [] ∧ ∃ w', In st0 st' x a w0 t p w' (Xdr.xdrArray xs []).1 v ∧
        Keeps x w t st st' ∧ (w' = w ∨ st.next ≤ w')) st := by
  subst hp
  have := hin.keeps.next
  have := hin.hw
  have hv : (st.heap t).at p = some v := at_put hin.cell
  have hl : (Xdr.xdrArray xs []).2 = [] := by
    simp [Xdr.xdrArray, Xdr.xdrRW]
  refine wp_mono (XdrArray_spec E k hin.xs ⟨⟨t, p ++ q⟩, 0, 0, 0⟩ [] ⟨by rw [at_append hv, hq], by simp, by simp⟩ (by dsimp only; omega) h1 h2 (by dsimp only; omega)) ?_
  rintro _ st1 ⟨rfl, ⟨w1, hw1, h1', hk⟩, hu⟩
  have e : sub ⟨⟨t, p ++ q⟩, 0, 0, 0⟩ [] = [] := rfl
  rw [e] at h1' hu
  rw [hl] at hu
  refine ⟨rfl, w1, ⟨h1', hin.keeps.trans hk hin.hw, by omega, ?_⟩, hk, hw1⟩
  have e' : overwrite [] 0 [] = [] := rfl
  dsimp only at hu
  rw [e'] at hu
  rw [put_append hv (put_at hq), put_put hin.cell] at hu
  exact hu

/-- `Accepted_reply`. -/
def RAccepted : Rel ω AcceptedReply := fun st x w t v y =>
  ∃ f, v = .struct "rfc1057.Accepted_reply" [("Verf", f), ("Reply_data", .struct "" [("Stat", .u32 y.stat), ("Results", .bytes []),
    ("Mismatch_info", mmV y.mismatch)])] ∧ ROpaque st x w t f y.verf

theorem RAccepted.stable : Rel.Stable (RAccepted (ω := ω)) := by
  rintro st st' x w w' t v y ⟨f, rfl, hf⟩ hk hn hw
  exact ⟨f, rfl, ROpaque.stable hf hk hn hw⟩

/-- rfc1057/xdr.go:54-65 -/
theorem Accepted_reply_codec (E : Ext ω) (k : Nat) :
    Codec E (k + 5) (.meth "rfc1057.Accepted_reply" "Xdr") RAccepted fun xs y => AcceptedReply.xdr xs y := by
  refine Codec.ofBody find_rpcXdr_Accepted_reply_Xdr RAccepted.stable ?_
  rintro st0 x a w xs h T t p _ ⟨verf, stat, ⟨low, high⟩⟩ iv ix hv ⟨f, rfl, hf⟩ h0 h1 h2 h3 hiv hix i1 i2 i3 i4 i5 i6 i7 i8
  have hin := In.start h hv
  simp only [mmV] at hin
  go_run [hiv, hix]
  refine wp_mono ((Opaque_auth_codec E k).step hin ["Verf"] rfl (by go_run) hf _ h0 h1 h2 h3) ?_
  rintro _ st1 ⟨rfl, w1, f1, v1, hv1, hin1, hf1, hk1, hw1⟩
  have k1 := hin1.keeps.heap
  go_at hv1
  subst hv1
  go_run [k1, hiv, hix]
  refine wp_mono ((Accept_stat_codec E (k + 1)).step (y := stat) hin1 ["Reply_data", "Stat"] (p' := p ++ ["Reply_data"] ++ ["Stat"]) (by simp) (by go_run) rfl _ h0 h1 h2 h3) ?_
  rintro _ st2 ⟨rfl, w2, _, v2, hv2, hin2, rfl, hk2, hw2⟩
  have hf2 := ROpaque.stable.keeps hf1 hk2 hw2
  have k2 := hin2.keeps.heap
  cases ho : OpaqueAuth.xdr xs verf with
  | mk xs1 verf1 =>
  cases hs : Xdr.xdrU32 xs1 stat with
  | mk xs2 s2 =>
  simp only [AcceptedReply.xdr, Mismatch.xdr, ho, hs]
  simp only [ho, hs] at hv2 hin2 hf2
  have c2 := at_append (q := ["Reply_data", "Stat"]) (at_put hin2.cell)
  go_at hv2
  subst hv2
  go_at c2
  by_cases e0 : s2 = 0
  · subst e0
    go_run [k2, hiv, hix, c2, List.append_assoc]
    have c2' := at_append (q := ["Reply_data", "Results"]) (at_put hin2.cell)
    go_at c2'
    go_run [k2, hiv, hix, c2', List.append_assoc]
    refine wp_mono (array0_step E (k + 2) hin2 ["Reply_data", "Results"] ?_ (by go_run) h0 h1 h2 h3) ?_
    · simp [Loc.field]
    rintro _ st3 ⟨rfl, w3, hin3, hk3, hw3⟩
    go_run
    exact ⟨w3, _, hin3, _, rfl, ROpaque.stable.keeps hf2 hk3 hw3⟩
  · have e0' : (s2 == 0) = false := by simp [e0]
    by_cases e1 : s2 = 2
    · subst e1
      go_run [k2, hiv, hix, c2, e0', if_neg e0, List.append_assoc]
      refine wp_mono (u32_step E (k + 2) (y := low) hin2 ["Reply_data", "Mismatch_info", "Low"] ?_ (by go_run) _ h0 h1 h2 h3) ?_
      · simp [Loc.field]
      rintro _ st3 ⟨rfl, w3, v3, hv3, hin3, hk3, hw3⟩
      have k3 := hin3.keeps.heap
      go_at hv3
      subst hv3
      go_run [k3, hiv, hix, List.append_assoc]
      refine wp_mono (u32_step E (k + 2) (y := high) hin3 ["Reply_data", "Mismatch_info", "High"] ?_ (by go_run) _ h0 h1 h2 h3) ?_
      · simp [Loc.field]
      rintro _ st4 ⟨rfl, w4, v4, hv4, hin4, hk4, hw4⟩
      go_at hv4
      subst hv4
      go_run
      exact ⟨w4, _, hin4, _, rfl, ROpaque.stable.keeps (ROpaque.stable.keeps hf2 hk3 hw3) hk4 hw4⟩
    · have e1' : (s2 == 2) = false := by simp [e1]
      go_run [k2, hiv, hix, c2, e0', e1', if_neg e0, if_neg e1, List.append_assoc]
      exact ⟨w2, _, hin2, _, rfl, hf2⟩

/-- `Reply_body`. -/
def RReply : Rel ω ReplyBody := fun st x w t v y =>
  ∃ a r, v = .struct "rfc1057.Reply_body" [("Stat", .u32 y.stat), ("Areply", a), ("Rreply", r)] ∧
    RAccepted st x w t a y.areply ∧ RRejected st x w t r y.rreply

theorem RReply.stable : Rel.Stable (RReply (ω := ω)) := by
  rintro st st' x w w' t v y ⟨a, r, rfl, ha, hr⟩ hk hn hw
  exact ⟨a, r, rfl, RAccepted.stable ha hk hn hw, RRejected.stable hr hk hn hw⟩

/-- rfc1057/xdr.go:45-53 -/
theorem Reply_body_codec (E : Ext ω) (k : Nat) :
    Codec E (k + 6) (.meth "rfc1057.Reply_body" "Xdr") RReply fun xs y => ReplyBody.xdr xs y := by
  refine Codec.ofBody find_rpcXdr_Reply_body_Xdr RReply.stable ?_
  rintro st0 x a w xs h T t p _ ⟨stat, areply, rreply⟩ iv ix hv ⟨va, vr, rfl, ha, hr⟩ h0 h1 h2 h3 hiv hix i1 i2 i3 i4 i5 i6 i7 i8
  have hin := In.start h hv
  go_run [hiv, hix]
  refine wp_mono ((Reply_stat_codec E (k + 2)).step (y := stat) hin ["Stat"] rfl (by go_run) rfl _ h0 h1 h2 h3) ?_
  rintro _ st1 ⟨rfl, w1, _, v1, hv1, hin1, rfl, hk1, hw1⟩
  have ha1 := RAccepted.stable.keeps ha hk1 hw1
  have hr1 := RRejected.stable.keeps hr hk1 hw1
  have k1 := hin1.keeps.heap
  cases hs : Xdr.xdrU32 xs stat with
  | mk xs1 s1 =>
  simp only [ReplyBody.xdr, hs]
  rw [hs] at hv1 hin1
  have c1 := at_append (q := ["Stat"]) (at_put hin1.cell)
  go_at hv1
  subst hv1
  go_at c1
  by_cases e0 : s1 = 0
  · subst e0
    go_run [k1, hiv, hix, c1]
    refine wp_mono ((Accepted_reply_codec E k).step hin1 ["Areply"] rfl (by go_run) ha1 _ h0 h1 h2 h3) ?_
    rintro _ st2 ⟨rfl, w2, va2, v2, hv2, hin2, ha2, hk2, hw2⟩
    go_at hv2
    subst hv2
    go_run
    exact ⟨w2, _, hin2, _, _, rfl, ha2, RRejected.stable.keeps hr1 hk2 hw2⟩
  · have e0' : (s1 == 0) = false := by simp [e0]
    by_cases e1 : s1 = 1
    · subst e1
      go_run [k1, hiv, hix, c1, e0', if_neg e0]
      refine wp_mono ((Rejected_reply_codec E (k + 1)).step hin1 ["Rreply"] rfl (by go_run) hr1 _ h0 h1 h2 h3) ?_
      rintro _ st2 ⟨rfl, w2, vr2, v2, hv2, hin2, hr2, hk2, hw2⟩
      go_at hv2
      subst hv2
      go_run
      exact ⟨w2, _, hin2, _, _, rfl, RAccepted.stable.keeps ha1 hk2 hw2, hr2⟩
    · have e1' : (s1 == 1) = false := by simp [e1]
      go_run [k1, hiv, hix, c1, e0', e1', if_neg e0, if_neg e1]
      exact ⟨w1, _, hin1, _, _, rfl, ha1, hr1⟩

/-- `Rpc_msg`. -/
def RMsg : Rel ω RpcMsg := fun st x w t v y =>
  ∃ c r, v = .struct "rfc1057.Rpc_msg" [("Xid", .u32 y.xid), ("Body", .struct "" [("Mtype", .u32 y.mtype), ("Cbody", c), ("Rbody", r)])] ∧
    RCall st x w t c y.cbody ∧ RReply st x w t r y.rbody

theorem RMsg.stable : Rel.Stable (RMsg (ω := ω)) := by
  rintro st st' x w w' t v y ⟨c, r, rfl, hc, hr⟩ hk hn hw
  exact ⟨c, r, rfl, RCall.stable hc hk hn hw, RReply.stable hr hk hn hw⟩

/-- rfc1057/xdr.go:27-36 -/
theorem Rpc_msg_codec (E : Ext ω) (k : Nat) :
    Codec E (k + 7) (.meth "rfc1057.Rpc_msg" "Xdr") RMsg fun xs y => RpcMsg.xdr xs y := by
  refine Codec.ofBody find_rpcXdr_Rpc_msg_Xdr RMsg.stable ?_
  rintro st0 x a w xs h T t p _ ⟨xid, mtype, cbody, rbody⟩ iv ix hv ⟨vc, vr, rfl, hc, hr⟩ h0 h1 h2 h3 hiv hix i1 i2 i3 i4 i5 i6 i7 i8
  have hin := In.start h hv
  go_run [hiv, hix]
  refine wp_mono (u32_step E (k + 4) (y := xid) hin ["Xid"] rfl (by go_run) _ h0 h1 h2 h3) ?_
  rintro _ st1 ⟨rfl, w1, v1, hv1, hin1, hk1, hw1⟩
  have hc1 := RCall.stable.keeps hc hk1 hw1
  have hr1 := RReply.stable.keeps hr hk1 hw1
  have k1 := hin1.keeps.heap
  go_at hv1
  subst hv1
  go_run [k1, hiv, hix]
  refine wp_mono ((Msg_type_codec E (k + 3)).step (y := mtype) hin1 ["Body", "Mtype"] (p' := p ++ ["Body"] ++ ["Mtype"]) (by simp) (by go_run) rfl _ h0 h1 h2 h3) ?_
  rintro _ st2 ⟨rfl, w2, _, v2, hv2, hin2, rfl, hk2, hw2⟩
  have hc2 := RCall.stable.keeps hc1 hk2 hw2
  have hr2 := RReply.stable.keeps hr1 hk2 hw2
  have k2 := hin2.keeps.heap
  cases ho : Xdr.xdrU32 xs xid with
  | mk xs1 xid1 =>
  cases hs : Xdr.xdrU32 xs1 mtype with
  | mk xs2 s2 =>
  simp only [RpcMsg.xdr, ho, hs]
  simp only [ho, hs] at hv2 hin2
  have c2 := at_append (q := ["Body", "Mtype"]) (at_put hin2.cell)
  go_at hv2
  subst hv2
  go_at c2
  by_cases e0 : s2 = 0
  · subst e0
    go_run [k2, hiv, hix, c2, List.append_assoc]
    refine wp_mono ((Call_body_codec E (k + 1)).step hin2 ["Body", "Cbody"] ?_ (by go_run) hc2 _ h0 h1 h2 h3) ?_
    · simp [Loc.field]
    rintro _ st3 ⟨rfl, w3, vc3, v3, hv3, hin3, hc3, hk3, hw3⟩
    go_at hv3
    subst hv3
    go_run
    exact ⟨w3, _, hin3, _, _, rfl, hc3, RReply.stable.keeps hr2 hk3 hw3⟩
  · have e0' : (s2 == 0) = false := by simp [e0]
    by_cases e1 : s2 = 1
    · subst e1
      go_run [k2, hiv, hix, c2, e0', if_neg e0, List.append_assoc]
      refine wp_mono ((Reply_body_codec E k).step hin2 ["Body", "Rbody"] ?_ (by go_run) hr2 _ h0 h1 h2 h3) ?_
      · simp [Loc.field]
      rintro _ st3 ⟨rfl, w3, vr3, v3, hv3, hin3, hr3, hk3, hw3⟩
      go_at hv3
      subst hv3
      go_run
      exact ⟨w3, _, hin3, _, _, rfl, RCall.stable.keeps hc2 hk3 hw3, hr3⟩
    · have e1' : (s2 == 1) = false := by simp [e1]
      go_run [k2, hiv, hix, c2, e0', e1', if_neg e0, if_neg e1, List.append_assoc]
      exact ⟨w2, _, hin2, _, _, rfl, hc2, hr2⟩

end Verif.Lang
