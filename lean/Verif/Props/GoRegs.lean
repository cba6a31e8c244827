/-
PROPERTY C67: a server with a generated package, as Go text.

The program consists of package xdr and package rfc1057, as read from their files, and of other packages, among them the
generated package `q` (`Generated`, Props/GoWrapper.lean).  The user's object `h` is outside of the program: its methods
are `X.ext`.
-/
import Verif.Props.GoWrapper
import Verif.Props.GoServer
import Verif.Props.Program
import Verif.Lang.RegsSpec
import Verif.Lang.DemoNet

namespace Verif.Props
open Verif.Xdr Verif.Spec Verif.Gen Verif.Rpc Verif.Lang Verif.Lang.Text

variable {ω σ : Type}

attribute [local irreducible] wp callN

/-! ### Specification -/

/-- A list of no value, or of a Go value that refers to memory in `ok` only. -/
def Carries (st : St ω) (ok : Nat → Prop) : Option GoVal → List V → Prop
  | none, vs => vs = []
  | some y, vs => ∃ u, vs = [u] ∧ Rep st ok u y

/-- An argument of the type that the procedure has. -/
def ArgumentOf (E : Spec.Env) (c : ProgCall) (arg : Option GoVal) : Prop :=
  match c.arg with
  | some (.ident n) => ∃ y, arg = some y ∧ Typed E n y
  | _ => arg = none

/-- A result of the type that the procedure has; the type's definition is unfolded at most `d` times. -/
def ResultIn (E : Spec.Env) (d : Nat) (c : ProgCall) (r : Option GoVal) : Prop :=
  match c.res with
  | some (.ident n) => ∃ y, r = some y ∧ hasN E d n y
  | _ => r = none

/-- How a method of the user's object ends, `res` being what the model of the object says: the state of the application, which
is in memory `app`, and the result.  Of the other memory that there was it changes only that of its argument (`ok`). -/
structure Returned (W : Wire ω) (I : (Nat → Prop) → St ω → σ → Prop) (E : Spec.Env) (d : Nat) (c : ProgCall) (res : σ × Option GoVal)
    (app app' ok ok' : Nat → Prop) (rs : List V) (st st' : St ω) : Prop where
  inv : I app' st' res.1
  more : ∀ j, app' j → app j ∨ st.next ≤ j
  typ : ResultIn E d c res.2
  holds : Carries st' ok' res.2 rs
  own : ∀ j, ok' j → (ok j ∨ st.next ≤ j) ∧ ¬ app' j
  frame : ∀ j, j < st.next → ¬ app j → ¬ ok j → st'.heap j = st.heap j
  next : st.next ≤ st'.next
  defers : st'.defers = st.defers
  sent : W.sent st'.world = W.sent st.world
  input : W.input st'.world = W.input st.world
  wok : W.ok st'.world = W.ok st.world

/-- The object `h` implements the interface of version `v`: its methods do what `hi` does. -/
def Object (X : Ext ω) (W : Wire ω) (I : (Nat → Prop) → St ω → σ → Prop) (E : Spec.Env) (d : Nat) (v : ProgVer) (h : Nat) (hi : Impl σ) : Prop :=
  ∀ c ∈ v.calls, ∀ (st : St ω) (app : Nat → Prop) (y : σ) (arg : Option GoVal) (vs : List V) (ok : Nat → Prop), I app st y →
    (∀ j, ok j → ¬ app j) → ArgumentOf E c arg → Carries st ok arg vs →
    ∃ rs st' app' ok', X.ext (i c.name) (.obj h :: vs) st = .ok (rs, st') ∧
      Returned W I E d c ((hi (i c.name) arg).run () y) app app' ok ok' rs st st'

/-- The results of the object fit into a record. -/
def Small (E : Spec.Env) (hi : Impl σ) (v : ProgVer) : Prop :=
  ∀ c ∈ v.calls, ∀ n, c.res = some (.ident n) → ∀ arg s y x, ArgumentOf E c arg → ((hi (i c.name) arg).run () s).2 = some y →
    Denotes E n y x → IsValue E n x → 24 + (enc x).length < 2 ^ 31

/-- The state of the application, and the value `w` in the cell `o`. -/
def Beside (o : Nat) (w : V) (I : (Nat → Prop) → St ω → σ → Prop) (app : Nat → Prop) (st : St ω) (y : σ) : Prop :=
  ∃ app0, I app0 st y ∧ o < st.next ∧ st.heap o = w ∧ ¬ app0 o ∧ ∀ j, app j ↔ app0 j ∨ j = o

/-- The registrations of version `v` of program `p`: one for each procedure, in order, with the numbers of the specification; the
handler of each does what is required of that procedure. -/
structure Registrations (C : Spec.Env) (g : GoProg) (hi : Impl σ) (p : ProgDef) (v : ProgVer) (regs : List (ProcReg σ)) : Prop where
  numbers : regs.map (fun r => (r.prog.toNat, r.vers.toNat, r.proc.toNat)) = v.calls.map fun c => (p.id, v.id, c.id)
  serves : ∀ (k : Nat) c r, v.calls[k]? = some c → regs[k]? = some r → Serves C g hi c r.handler
  orderly : Orderly regs

/-- A server with the procedures of version `v` of program `p` of the package `name`, for the object `h`, on the connection `rw`: the
registration function is called with the object, then `MakeServer`, `RegisterMany`, and `Run`. -/
def Served [Others] (X : Ext ω) (W : Wire ω) (I : (Nat → Prop) → St ω → σ → Prop) (C : Spec.Env) (g : GoProg) (hi : Impl σ) (p : ProgDef) (v : ProgVer)
    (name : String) (h : Nat) (rw : V) : Prop :=
    ∃ regs, Registrations C g hi p v regs ∧ ∃ N, ∀ k, N ≤ k → ∀ (st : St ω) (app : Nat → Prop) (y : σ), I app st y →
      (W.input st.world).flatten.length < X.loops → ∀ ms e, Stream (W.input st.world).flatten ms e →
      ∃ rv st1, callN goProg X k (.fn name (versName p v "_regs")) [.obj h] st = .ok ([rv], st1) ∧
        ∃ w x st' y' out app', serverMain (atOnce X k) rv rw st1 = .ok ([w], st') ∧ RunRel w x ∧ Reported e x ∧
          Responses regs ms y y' out ∧ I app' st' y' ∧ W.sent st'.world = W.sent st.world ++ out

/-! ### The memory of the application and the wrapper -/

theorem Beside.app {X : Ext ω} {W : Wire ω} {rw : V} (T : Transport X W rw) {I : (Nat → Prop) → St ω → σ → Prop} (A : App X rw I) (o : Nat) (w : V) :
    App X rw (Beside o w I) where
  lt := by
    rintro app st y j ⟨app0, h1, h2, h3, h4, h5⟩ hj
    rcases (h5 j).mp hj with h | rfl
    · exact A.lt j h1 h
    · exact h2
  stable := by
    rintro app st y st' ⟨app0, h1, h2, h3, h4, h5⟩ hh hw hn
    exact ⟨app0, A.stable st' h1 (fun j hj => hh j ((h5 j).mpr (.inl hj))) hw hn, by omega, by rw [hh o ((h5 o).mpr (.inr rfl)), h3], h4, h5⟩
  write := by
    rintro app st y s arr ha ⟨app0, h1, h2, h3, h4, h5⟩
    refine wp_mono (wp_conj (T.write st s arr ha) (A.write s arr ha h1)) ?_
    rintro _ st' ⟨⟨_, _, -, -, -, -, hh, hn, -⟩, hI⟩
    exact ⟨app0, hI, by omega, by rw [hh o h2, h3], h4, h5⟩

theorem Beside.back {X : Ext ω} {W : Wire ω} {I : (Nat → Prop) → St ω → σ → Prop} (B : Back X W I) (o : Nat) (w : V) : Back X W (Beside o w I) where
  put := by
    rintro app st y a b ⟨app0, h1, h2, h3, h4, h5⟩ hs ha haa
    have hao : a ≠ o := fun e => haa ((h5 a).mpr (.inr e))
    refine wp_mono (B.put h1 hs ha fun h => haa ((h5 a).mpr (.inl h))) ?_
    rintro _ st' ⟨⟨app', k1, k2⟩, k3, k4, k5, k6, k7⟩
    refine ⟨⟨fun j => app' j ∨ j = o, ⟨app', k1, by omega, by rw [k3 o h2 h4 (Ne.symm hao), h3], fun h => ?_, fun _ => Iff.rfl⟩, ?_⟩, ?_, k4, k5, k6, k7⟩
    · rcases k2 o h with h | h | h
      · exact h4 h
      · exact hao h.symm
      · omega
    · rintro j (h | rfl)
      · rcases k2 j h with h | h
        · exact .inl ((h5 j).mpr (.inl h))
        · exact .inr h
      · exact .inl ((h5 j).mpr (.inr rfl))
    · exact fun j hj ha hg => k3 j hj (fun h => ha ((h5 j).mpr (.inl h))) hg
  log := by
    rintro app st y e ⟨app0, h1, h2, h3, h4, h5⟩
    refine wp_mono (B.log h1) ?_
    rintro _ st' ⟨⟨app', k1, k2⟩, k3, k4, k5, k6, k7⟩
    refine ⟨⟨fun j => app' j ∨ j = o, ⟨app', k1, by omega, by rw [k3 o h2 h4 id, h3], fun h => ?_, fun _ => Iff.rfl⟩, ?_⟩, ?_, k4, k5, k6, k7⟩
    · rcases k2 o h with h | h | h
      · exact h4 h
      · exact h
      · omega
    · rintro j (h | rfl)
      · rcases k2 j h with h | h
        · exact .inl ((h5 j).mpr (.inl h))
        · exact .inr h
      · exact .inl ((h5 j).mpr (.inr rfl))
    · exact fun j hj ha hg => k3 j hj (fun h => ha ((h5 j).mpr (.inl h))) hg

theorem Beside.front {X : Ext ω} {W : Wire ω} {rw : V} (T : Transport X W rw) {I : (Nat → Prop) → St ω → σ → Prop} (F : Front X W rw I) (o : Nat) (w : V) :
    Front X W rw (Beside o w I) where
  get := by
    rintro app st y ⟨app0, h1, h2, h3, h4, h5⟩
    refine wp_mono (F.get h1) ?_
    rintro _ st' ⟨v, rfl, ⟨⟨app', k1, k2, k0⟩, k3, k4, k5, k6⟩, k7⟩
    refine ⟨v, rfl, ⟨⟨fun j => app' j ∨ j = o, ⟨app', k1, by omega, by rw [k3 o h2 h4, h3], fun h => ?_, fun _ => Iff.rfl⟩, ?_, ?_⟩, ?_, k4, k5, k6⟩, k7⟩
    · rcases k2 o h with h | h
      · exact h4 h
      · omega
    · rintro j (h | rfl)
      · rcases k2 j h with h | h
        · exact .inl ((h5 j).mpr (.inl h))
        · exact .inr h
      · exact .inl ((h5 j).mpr (.inr rfl))
    · rcases k0 with k0 | ⟨s, arr, k0, q1, q2, q3, q4, q5⟩
      · exact .inl k0
      · refine .inr ⟨s, arr, k0, q1, q2, q3, ?_, q5.imp_left fun h => (h5 _).mpr (.inl h)⟩
        rintro (h | h)
        · exact q4 h
        · rw [h] at q5
          rcases q5 with h | h
          · exact h4 h
          · omega
    · exact fun j hj ha => k3 j hj fun h => ha ((h5 j).mpr (.inl h))
  read := by
    rintro app st y s arr ⟨app0, h1, h2, h3, h4, h5⟩ ha hp hs hl
    refine wp_mono (wp_conj (T.read st s arr ha hp) (F.read s arr h1 ha hp (fun h => hs ((h5 _).mpr (.inl h))) hl)) ?_
    rintro _ st' ⟨⟨_, _, _, -, -, -, -, -, -, hh, hn, -⟩, hI⟩
    exact ⟨app0, hI, by omega, by rw [hh o h2 fun e => hs ((h5 _).mpr (.inr e.symm)), h3], h4, h5⟩

/-! ### Results -/

section
variable [Others] {fl : Flags} {s : Gen.Spec} {g : GoProg} {vs : List GoVers} {q : Pkg} (G : Generated fl s g vs q)
  (hq : Has (rpcPkg :: Others.ps) (typedPkg q)) (X : Ext ω) (hX : 2 ^ 32 ≤ X.loops)

local notation "E" => envOf fl.unsignedEnum s

include G in
/-- What encoding a result does. -/
theorem encodes_at {d : Nat} {n : Ident} {y : GoVal} (hy : hasN E d n y) {F : Nat} (hF : d ≤ F) (xs : XdrState) (hr : xs.reader = false) :
    ∃ xs', codecN g (defsOf fl s) F (i n) xs y = .ok (xs', y) ∧ methodXdrable g (i n) y xs = xs' ∧ xs'.reader = false ∧
      xs.buf.length ≤ xs'.buf.length := by
  have hs := supported_of G.comp
  have key : ∃ xs', codecN g (defsOf fl s) F (i n) xs y = .ok (xs', y) ∧ xs'.reader = false ∧ xs.buf.length ≤ xs'.buf.length := by
    cases he : xs.err with
    | some e => exact ⟨xs, codecN_sticky_le (link G.gen hs) (by rw [he]; rfl) hF n y hy, hr, Nat.le_refl _⟩
    | none =>
      obtain ⟨err, rd, buf⟩ := xs
      cases he
      cases hr
      obtain ⟨x, -, h⟩ := codecN_encode (link G.gen hs) d n y hy
      rcases h buf with ⟨-, h⟩ | ⟨-, xs', h, -, h1, t, h2⟩
      · exact ⟨_, codecN_le hF _ _ _ _ h, rfl, by simp [makeWriter]⟩
      · exact ⟨_, codecN_le hF _ _ _ _ h, h1, by simp [h2]⟩
  obtain ⟨xs', h1, h2, h3⟩ := key
  refine ⟨xs', h1, ?_, h2, h3⟩
  rw [methodXdrable, callMethod_eq (runs_of_codecN G.gen hs h1)]

include G hq hX in
/-- A pointer to a variable of a generated type, as a value of type `xdr.Xdrable`. -/
theorem writes_named {d : Nat} {n : Ident} {y : GoVal} (hy : hasN E d n y) {N : Nat} (hN : d + 2 ≤ N) (t : Nat) (own : Nat → Prop) (ht : own t) :
    Writes X N (.ptr (goName q n) ⟨t, []⟩) own (fun st (_ : Unit) => (∀ j, own j → j < st.next) ∧ Rep st own (st.heap t) y)
      fun xs _ => methodXdrable g (i n) y xs where
  ref := rfl
  reader := fun _ xs _ _ hr => by
    obtain ⟨xs', -, h2, h3, -⟩ := encodes_at G hy (Nat.le_refl _) xs hr
    rw [h2, h3]
  lt := fun st _ j h hj => h.1 j hj
  stable := fun st st' _ h hh hn => ⟨fun j hj => by have := h.1 j hj; omega, by
    rw [hh t ht]; exact h.2.mono (fun j hj _ => hh j hj) hn fun _ h _ => h⟩
  call := by
    intro st x a w xs hx hr _ hR h1 h2 h3
    obtain ⟨m, rfl⟩ : ∃ m, N = m + d + 2 := ⟨N - d - 2, by omega⟩
    obtain ⟨xs', e1, e2, -, -⟩ := encodes_at G hy (Nat.le_refl _) xs hr
    rw [wp_meth_ptr (h := dot_ne q.name (i n)), e2]
    have hc := callOK_text (q := typedPkg q) G.gen G.comp G.const G.text.typed hq G.noDot X hX m d n
    refine wp_mono (hc (rd := false) (ok := own) ⟨hx, hr, rfl, hR.1 t ht, fun e => h1 (e ▸ ht), fun e => h2 (e ▸ ht), fun e => h3 (e ▸ ht), ?_⟩ hR.2 e1) ?_
    · exact fun j hj => ⟨fun e => h1 (e ▸ hj), fun e => h3 (e ▸ hj), fun e => absurd e Bool.false_ne_true, fun _ => hR.1 j hj⟩
    · rintro _ st' ⟨w', v', hD, -⟩
      exact ⟨w', hD.hw, hD.at'.hx, fun j k1 k2 k3 k4 => hD.keeps.heap j k1 k2 k3 fun e => k4 (e ▸ ht), hD.keeps.next, hD.keeps.world, hD.keeps.defers⟩

/-- A pointer to an `xdr.Void`. -/
theorem writes_void {N : Nat} (hN : 1 ≤ N) (t : Nat) :
    Writes X N (.ptr "" ⟨t, []⟩) (· = t) (fun st (_ : Unit) => t < st.next ∧ st.heap t = .struct "xdr.Void" []) fun xs _ => voidXdrable xs where
  ref := rfl
  reader := fun _ xs _ _ hr => hr
  lt := fun st _ j h hj => by rw [hj]; exact h.1
  stable := fun st st' _ h hh hn => ⟨by omega, by rw [hh t rfl]; exact h.2⟩
  call := by
    intro st x a w xs hx hr _ hR h1 h2 h3
    obtain ⟨m, rfl⟩ : ∃ m, N = m + 1 := ⟨N - 1, by omega⟩
    rw [wp_meth_ptr0]
    dsimp only
    rw [at_nil, hR.2]
    dsimp only
    refine wp_mono (Void_codec X m hx "" t [] (.struct "xdr.Void" []) () (by rw [hR.2]; rfl) rfl hR.1 (fun e => h1 e.symm) (fun e => h2 e.symm) (fun e => h3 e.symm)) ?_
    rintro _ st' ⟨-, w', k1, k2, k3, -⟩
    exact ⟨w', k1, k2, fun j j1 j2 j3 j4 => k3.heap j j1 j2 j3 j4, k3.next, k3.world, k3.defers⟩

/-! ### Wrappers -/

/-- How the method ends, seen from the wrapper, which has been called in the state `st` with a decoder in the cell `x` of a request in the
cell `a`; `L` are cells of the wrapper's own. -/
structure MethodEnd (W : Wire ω) (I : (Nat → Prop) → St ω → σ → Prop) (C : Spec.Env) (d : Nat) (c : ProgCall) (res : σ × Option GoVal)
    (x a : Nat) (app app' : Nat → Prop) (st : St ω) (r : Option GoVal) (rs : List V) (L : Nat → Prop) (st2 : St ω) : Prop where
  eq : r = res.2
  inv : I app' st2 res.1
  more : ∀ j, app' j → app j ∨ st.next ≤ j
  apart : ∀ j, app' j → ¬ L j
  typ : ResultIn C d c res.2
  holds : Carries st2 (fun j => (j = a ∨ st.next ≤ j) ∧ ¬ app' j ∧ ¬ L j) res.2 rs
  frame : ∀ j, j < st.next → ¬ app j → j ≠ x → j ≠ a → st2.heap j = st.heap j
  next : st.next ≤ st2.next
  sent : W.sent st2.world = W.sent st.world
  input : W.input st2.world = W.input st.world
  wok : W.ok st2.world = W.ok st.world

omit [Others] in
theorem Carries.mono {st : St ω} {ok ok' : Nat → Prop} {r : Option GoVal} {rs : List V} (h : Carries st ok r rs) (ho : ∀ j, ok j → ok' j) : Carries st ok' r rs := by
  cases r with
  | none => exact h
  | some y =>
    obtain ⟨u, rfl, hu⟩ := h
    exact ⟨u, rfl, hu.mono (fun _ _ _ => rfl) (Nat.le_refl _) fun j h _ => ho j h⟩

omit [Others] in
theorem Object.calls {W : Wire ω} {I : (Nat → Prop) → St ω → σ → Prop} {rw : V} (A : App X rw I) {C : Spec.Env} {d : Nat} {v : ProgVer} {h : Nat} {hi : Impl σ}
    (O : Object X W I C d v h hi) {c : ProgCall} (hc : c ∈ v.calls) (hr : nameG c.res = none → c.res = none) {arg : Option GoVal} {y : GoVal}
    (ht : ArgumentOf C c arg) (ha : nameG c.arg = none ∧ arg = none ∨ nameG c.arg ≠ none ∧ arg = some y)
    {st : St ω} {app : Nat → Prop} {z : σ} (hI : I app st z) {x a : Nat} (hx : ¬ app x) (haa : ¬ app a) :
    Lang.Text.Calls X h (i c.name) (nameG c.arg) (nameG c.res) x a st y
      fun r rs L st2 => ∃ app', MethodEnd W I C d c ((hi (i c.name) arg).run () z) x a app app' st r rs L st2 := by
  intro st1 as L hL hA hh hn hw
  have hlt : ∀ j, app j → j < st.next := fun j => A.lt j hI
  have hP : Carries st1 (fun j => (j = a ∨ st.next ≤ j) ∧ ¬ L j) arg as := by
    rcases ha with ⟨e, rfl⟩ | ⟨e, rfl⟩
    · rw [e] at hA; exact hA
    · cases e' : nameG c.arg with
      | none => exact absurd e' e
      | some t => rw [e'] at hA; exact hA
  obtain ⟨rs, st2, app', ok', h1, h2⟩ := O c hc st1 app z arg as _
    (A.stable st1 hI (fun j hj => hh j (hlt j hj) fun e => hx (e ▸ hj)) hw hn)
    (fun j hj hj' => by
      rcases hj.1 with rfl | h
      · exact haa hj'
      · have := hlt j hj'; omega) ht hP
  have hap : ∀ j, app' j → ¬ L j := fun j hj hl => by
    have := hL j hl
    rcases h2.more j hj with h | h
    · have := hlt j h; omega
    · omega
  have hok : ∀ j, ok' j → (j = a ∨ st.next ≤ j) ∧ ¬ app' j ∧ ¬ L j := fun j hj => by
    obtain ⟨h | h, h'⟩ := h2.own j hj
    · exact ⟨h.1, h', h.2⟩
    · exact ⟨.inr (by omega), h', fun hl => by have := hL j hl; omega⟩
  refine wp_ok h1 ⟨_, ?_, ⟨app', rfl, h2.inv, fun j hj => (h2.more j hj).imp_right fun h => by omega, hap, h2.typ, h2.holds.mono hok,
    fun j k1 k2 k3 k4 => ?_, by have := h2.next; omega, by rw [h2.sent, hw], by rw [h2.input, hw], by rw [h2.wok, hw]⟩, fun j hj => ?_, h2.next, h2.defers⟩
  · have h3 := h2.typ
    have h4 := h2.holds.mono hok
    revert h3 h4
    generalize ((hi (i c.name) arg).run () z).2 = r
    intro h3 h4
    cases e : nameG c.res with
    | none =>
      unfold ResultIn at h3
      rw [hr e] at h3
      exact h3
    | some u =>
      have : ∃ n, c.res = some (.ident n) := by
        unfold nameG at e
        split at e
        · exact ⟨_, by assumption⟩
        · cases e
      obtain ⟨n, hn⟩ := this
      unfold ResultIn at h3
      rw [hn] at h3
      obtain ⟨y', rfl, -⟩ := h3
      obtain ⟨u', rfl, hu⟩ := h4
      exact ⟨u', y', rfl, rfl, hu.mono (fun _ _ _ => rfl) (Nat.le_refl _) fun j h _ => h.2.2⟩
  · rw [h2.frame j (by omega) k2 (by rintro ⟨h | h, -⟩; exact k4 h; omega), hh j k1 k3]
  · have := hL j hj
    exact h2.frame j this.2 (fun h => by have := hlt j h; omega) fun h => h.2 hj

/-- The result of a wrapper as the model has it. -/
noncomputable def outcome (g : GoProg) (c : ProgCall) (r : Option GoVal) : Option Xdrable × Bool :=
  match finish g c r with
  | .ok r => r
  | .error _ => (none, true)

/-- The wrapper `w` in the cell `o`. -/
abbrev wrapV (q : Pkg) (p : ProgDef) (v : ProgVer) (h : Nat) : V := .struct (q.name ++ "." ++ versName p v "_handler_wrapper") [("h", .obj h)]

include G hq hX in
theorem handler_end {W : Wire ω} {I : (Nat → Prop) → St ω → σ → Prop} {rw : V} (A : App X rw I) {c : ProgCall} (hres : namedOpt fl s c.res = true)
    {d N : Nat} (hN : d + 2 ≤ N) {st st' : St ω} {app0 app : Nat → Prop} {o x a : Nat} {w : V} (ho : o < st.next) (hw : st.heap o = w) (h0 : ¬ app0 o)
    (happ : ∀ j, app j ↔ app0 j ∨ j = o) (hx : ¬ app x) (ha : ¬ app a) {res : σ × Option GoVal} {rs : List V}
    (h : Lang.Text.Gives q.name (nameG c.res) st (fun r rs L st2 => ∃ app', MethodEnd W I E d c res x a app0 app' st r rs L st2) rs st') :
    ∃ rv ev app', rs = [rv, ev] ∧ HandlerEnd X W N (Beside o w I) x a app app' (res.1, outcome g c res.2) rv ev st st' := by
  obtain ⟨t, r, st2, rfl, t1, t2, hO, ⟨L, rs2, ⟨app', M⟩, hLt, hLL, hrs⟩, k1, k2, k3, k4⟩ := h
  have hox : o ≠ x := fun e => hx ((happ x).mpr (.inr e.symm))
  have hoa : o ≠ a := fun e => ha ((happ a).mpr (.inr e.symm))
  have hI' : I app' st' res.1 := A.stable st' M.inv (fun j hj => k1 j fun e => M.apart j hj (e ▸ hLt)) k3 (by omega)
  have ho' : ¬ app' o := fun h => by
    rcases M.more o h with h | h
    · exact h0 h
    · omega
  have hoc : st'.heap o = w := by rw [k1 o (by omega), M.frame o ho h0 hox hoa, hw]
  have hnx := M.next
  have hta : ¬ app' t := fun h => M.apart t h hLt
  refine ⟨_, _, fun j => app' j ∨ j = o, rfl, ⟨app', hI', by omega, hoc, ho', fun _ => Iff.rfl⟩, ?_, ?_, ?_, ?_, by omega, k4, by rw [k3, M.sent], by rw [k3, M.input],
    by rw [k3, M.wok]⟩
  · rintro j (h | rfl)
    · exact (M.more j h).imp_left fun h => (happ j).mpr (.inl h)
    · exact .inl ((happ j).mpr (.inr rfl))
  · have := M.typ
    unfold ResultIn at this
    unfold outcome Verif.Rpc.finish
    cases hc : c.res with
    | none => rfl
    | some u =>
      rw [hc] at hres this
      cases u with
      | ident n =>
        obtain ⟨y, e, -⟩ := this
        rw [e]
        rfl
      | _ => exact absurd hres Bool.false_ne_true
  · have hty := M.typ
    have hh := M.holds
    have heq := M.eq
    revert hty hh heq
    generalize res.2 = r'
    intro hty hh heq
    subst heq
    unfold ResultIn at hty
    unfold outcome Verif.Rpc.finish
    cases hc : c.res with
    | none =>
      rw [hc] at hty hO
      refine .some (writes_void X (by omega) t) (y := ()) ⟨t2, hO⟩ (fun _ _ => rfl) (fun _ _ => Nat.le_refl _) rfl ?_
      rintro j rfl
      refine ⟨.inr t1, ?_⟩
      rintro (h | h)
      · exact hta h
      · omega
    | some u =>
      rw [hc] at hres hty hO hrs
      cases u with
      | ident n =>
        obtain ⟨y, rfl, hy⟩ := hty
        obtain ⟨u, hu1, hu⟩ := hh
        have := hrs rfl
        rw [hu1] at this
        cases this
        refine .some (writes_named G hq X hX hy hN t (fun j => j = t ∨ ((j = a ∨ st.next ≤ j) ∧ ¬ app' j ∧ ¬ L j) ∧ j < st'.next) (.inl rfl)) (y := ())
          ⟨?_, ?_⟩ (fun _ _ => rfl) (fun xs hr => ?_) rfl ?_
        · rintro j (rfl | h)
          · exact t2
          · exact h.2
        · refine hu.mono (fun j hj _ => k1 j fun e => hj.2.2 (e ▸ hLt)) (by omega) fun j hj hl => .inr ⟨hj, by omega⟩
        · obtain ⟨xs', -, e2, -, e4⟩ := encodes_at G hy (Nat.le_refl _) xs hr
          rw [e2]
          exact e4
        · rintro j (rfl | h)
          · refine ⟨.inr t1, ?_⟩
            rintro (h | h)
            · exact hta h
            · omega
          · refine ⟨h.1.1, ?_⟩
            rintro (h' | rfl)
            · exact h.1.2.1 h'
            · rcases h.1.1 with h | h
              · exact hoa h
              · omega
      | _ => exact absurd hres Bool.false_ne_true
  · intro j j1 j2 j3 j4
    rw [k1 j (by omega), M.frame j j1 (fun h => j2 ((happ j).mpr (.inl h))) j3 j4]

omit [Others] in
theorem all_named {r : TypespecOpt} (h : namedOpt fl s r = true) : r.all (Named E) = true := by
  cases r with
  | none => rfl
  | some t => cases t <;> first | exact h | exact absurd h Bool.false_ne_true

include G hq hX in
/-- The wrapper of a procedure as a handler: what the Go text does is what the model of it does. -/
theorem wrapper_handles {W : Wire ω} {I : (Nat → Prop) → St ω → σ → Prop} {rw : V} (A : App X rw I) {p : ProgDef} {v : ProgVer} {c : ProgCall}
    (hP : Procedure s p v c) {d h : Nat} {hi : Impl σ} (O : Object X W I E d v h hi) {w : GoWrapper} (hw : emitWrapper p v c = some w) :
    ∃ N, ∀ n, N ≤ n → ∀ o, Handles X W n (Beside o (wrapV q p v h) I) (.bound (wrapperKey q p v c) (.ptr "" ⟨o, []⟩)) (wrapperHandler g hi w) := by
  have hs := supported_of G.comp
  obtain ⟨h1, h2, hf⟩ := find_wrap (compilable_comp G.gen G.comp).1 G.text G.vers G.wraps hq G.noDot hP.prog hP.vers hP.call
  obtain ⟨z, hz⟩ := zero_res G.gen G.comp G.text hq h2
  have hres := namedOpt_res h2
  have ok := pkgOK_typed G.gen G.comp G.const G.text hq G.noDot
  cases hc : c.arg with
  | none =>
    have hT : nameG c.arg = none := by rw [hc]; rfl
    refine ⟨d + 2, fun n hn o => ⟨fun _ e => (by cases e), fun st x a w' l hx hl app y hI hax haa => ?_⟩⟩
    obtain ⟨app0, hI0, ho, hoc, h0, happ⟩ := hI
    obtain ⟨k, rfl⟩ : ∃ k, n = k + 1 := ⟨n - 1, by omega⟩
    have hcall := Object.calls X A O hP.call hres (arg := none) (y := .bool false) (by unfold ArgumentOf; rw [hc]) (.inl ⟨hT, rfl⟩) hI0 (x := x) (a := a)
      (fun h => hax ((happ x).mpr (.inl h))) (fun h => haa ((happ a).mpr (.inl h)))
    have hm : (wrapperHandler g hi w).run (makeReader l) y =
        (((hi (i c.name) none).run () y).1, outcome g c ((hi (i c.name) none).run () y).2) := by
      rw [wrapperHandler, Proc.run_map, wrapperRun]
      simp only [Proc.run]
      rw [execW_void G.gen hs hi hw (all_named h2) hc, Proc.run_bind, Proc.run_comap]
      rfl
    rw [wp_val_bound, hm]
    refine wp_mono (wrap_void (k := k) ok hf hT hx.alt (Tn := "") hz hoc ho (fun e => hax ((happ x).mpr (.inr e.symm))) hx.xlt hcall) ?_
    intro rs st' hG
    exact handler_end G hq X hX A h2 hn ho hoc h0 happ hax haa hG
  | some t =>
    cases t with
    | ident m =>
      have hm0 : ((E).typeOf m).isSome := by rw [hc] at h1; exact h1
      have hT : nameG c.arg = some (i m) := by rw [hc]; rfl
      obtain ⟨y0, z1, ⟨k0, z2⟩, -⟩ := zero_fresh G.gen hs hm0
      obtain ⟨z0, hz0, hr0⟩ := zero_text (q := typedPkg q) (Ps := rpcPkg :: Others.ps) (compilable_comp G.gen G.comp).1 G.text.typed hq (t := .named (i m))
        (by simp [plainT]) y0 (by rw [GoProg.zero, zeroGo]; exact z1)
      generalize hF : k0 + 2 ^ 31 / 4 * g.depth = F
      refine ⟨d + F + 3, fun n hn o => ⟨fun _ e => (by cases e), fun st x a w' l hx hl app y hI hax haa => ?_⟩⟩
      obtain ⟨app0, hI0, ho, hoc, h0, happ⟩ := hI
      obtain ⟨m', rfl⟩ : ∃ m', n = m' + F + 3 := ⟨n - F - 3, by omega⟩
      have hox : o ≠ x := fun e => hax ((happ x).mpr (.inr e.symm))
      have hle : k0 + l.length / 4 * g.depth ≤ F := by
        have : l.length / 4 * g.depth ≤ 2 ^ 31 / 4 * g.depth := Nat.mul_le_mul_right _ (Nat.div_le_div_right (by omega))
        omega
      have hdec := codecN_decode (link G.gen hs) hle z2
      have key := fun xs' y R h3 => wrap_arg (k := m' + F + 2) ok hf hT (k' := m' + F + 1) rfl
        (callOK_text (q := typedPkg q) G.gen G.comp G.const G.text.typed hq G.noDot X hX m' F m) (Tn := "") (xs' := xs') (y := y) (R := R) hz hz0 hr0 hoc ho hox hx rfl h3
      rw [wp_val_bound]
      rcases hdec with ⟨x', p', rest, v', e1, e2, e3, e4, e5, e6⟩ | ⟨xs', v', e1, e2, e3, e4⟩
      · have hm : (wrapperHandler g hi w).run (makeReader l) y =
            (((hi (i c.name) (some v')).run () y).1, outcome g c ((hi (i c.name) (some v')).run () y).2) := by
          rw [wrapperHandler, Proc.run_map, wrapperRun]
          simp only [Proc.run]
          rw [execW_arg G.gen hs hi hw (all_named h2) hc hm0 z1 (runs_of_codecN G.gen hs e4), if_neg (by simp [makeReader]), Proc.run_bind, Proc.run_comap]
          rfl
        rw [hm]
        have hcall := Object.calls X A O hP.call hres (arg := some v') (y := v') (by unfold ArgumentOf; rw [hc]; exact ⟨_, rfl, e6⟩) (.inr ⟨by rw [hT]; simp, rfl⟩)
          hI0 (x := x) (a := a) (fun h => hax ((happ x).mpr (.inl h))) (fun h => haa ((happ a).mpr (.inl h)))
        refine wp_mono ((key _ _ _ e4).1 rfl hcall) ?_
        intro rs st' hG
        exact handler_end G hq X hX A h2 (by omega) ho hoc h0 happ hax haa hG
      · have hm : (wrapperHandler g hi w).run (makeReader l) y = (y, none, true) := by
          rw [wrapperHandler, Proc.run_map, wrapperRun]
          simp only [Proc.run]
          rw [execW_arg G.gen hs hi hw (all_named h2) hc hm0 z1 (runs_of_codecN G.gen hs e1), if_pos e2.1]
          rfl
        rw [hm]
        refine wp_mono ((key _ _ (fun _ _ _ _ => True) e1).2 (by intro e; have := e2.1; rw [e] at this; exact absurd this Bool.false_ne_true)) ?_
        rintro _ st' ⟨⟨e, vs, rfl⟩, k1, k2, k3, k4⟩
        have hA := A.stable st' hI0 (fun j hj => k1 j (A.lt j hI0 hj) fun e => hax ((happ x).mpr (.inl (e ▸ hj)))) k3 k2
        exact ⟨_, _, app, rfl, ⟨app0, hA, by omega, by rw [k1 o ho hox, hoc], h0, happ⟩, fun j hj => .inl hj, ⟨_, _, rfl⟩, .none,
          fun j j1 _ j3 _ => k1 j j1 j3, k2, k4, by rw [k3], by rw [k3], by rw [k3]⟩
    | _ => rw [hc] at h1; exact absurd h1 Bool.false_ne_true

/-! ### The registration function -/

omit [Others] in
theorem mapM'_rel {α β : Type} {f : α → Option β} {l : List α} {r : List β} (h : mapM' f l = some r) :
    List.Forall₂ (fun a b => a ∈ l ∧ f a = some b) l r := by
  have key : ∀ {l : List α} {r : List β}, mapM' f l = some r → List.Forall₂ (fun a b => f a = some b) l r := by
    intro l
    induction l with
    | nil => intro r h; cases h; exact .nil
    | cons a l ih =>
      intro r h
      simp only [mapM'] at h
      obtain ⟨b, hb, h⟩ := bind_some h
      obtain ⟨r', hr', h⟩ := bind_some h
      cases h
      exact .cons hb (ih hr')
  have h1 := key h
  clear h
  induction h1 with
  | nil => exact .nil
  | cons h _ ih => exact .cons ⟨List.mem_cons_self, h⟩ (ih.imp fun _ _ h => ⟨List.mem_cons_of_mem _ h.1, h.2⟩)

omit [Others] in
theorem all_large {α : Type} {P : Nat → α → Prop} {l : List α} (h : ∀ a ∈ l, ∃ N, ∀ n, N ≤ n → P n a) : ∃ N, ∀ a ∈ l, ∀ n, N ≤ n → P n a := by
  induction l with
  | nil => exact ⟨0, fun _ h => by cases h⟩
  | cons a l ih =>
    obtain ⟨N1, h1⟩ := h a List.mem_cons_self
    obtain ⟨N2, h2⟩ := ih fun a ha => h a (List.mem_cons_of_mem _ ha)
    refine ⟨N1 + N2, fun b hb n hn => ?_⟩
    rcases List.mem_cons.mp hb with rfl | hb
    · exact h1 n (by omega)
    · exact h2 b hb n (by omega)

omit [Others] in
theorem emitWrapper_names {p : ProgDef} {v : ProgVer} {c : ProgCall} {w : GoWrapper} (h : emitWrapper p v c = some w) :
    w.recv = versName p v "_handler_wrapper" ∧ w.name = i c.name := by
  obtain ⟨nm, a, r, id⟩ := c
  simp only [emitWrapper] at h
  cases a with
  | none =>
    cases r with
    | none => cases h; exact ⟨rfl, rfl⟩
    | some t =>
      obtain ⟨_, _, h⟩ := bind_some h
      obtain ⟨_, _, h⟩ := bind_some h
      cases h
      exact ⟨rfl, rfl⟩
  | some t =>
    obtain ⟨_, _, h⟩ := bind_some h
    cases r with
    | none => cases h; exact ⟨rfl, rfl⟩
    | some t =>
      obtain ⟨_, _, h⟩ := bind_some h
      obtain ⟨_, _, h⟩ := bind_some h
      cases h
      exact ⟨rfl, rfl⟩

omit [Others] in
theorem versName_not_pre (p : ProgDef) (v : ProgVer) (x : String) : versName p v x ∉ Text.predeclared := by
  intro h
  have h1 : '_' ∈ (versName p v x).toList := by simp [versName]
  have h2 : ∀ t ∈ Text.predeclared, '_' ∉ t.toList := by decide
  exact h2 _ h h1

omit [Others] in
include G in
theorem callable_of {p : ProgDef} (hp : .program p ∈ s) : callable E p = true := by
  have hchk := (compilable_comp G.gen G.comp).1.chk _ hp
  simp only [Gen.Defn.chk, Bool.and_eq_true, decide_eq_true_eq, List.all_eq_true] at hchk
  simp only [callable, Bool.and_eq_true, decide_eq_true_eq, List.all_eq_true]
  refine ⟨hchk.1, fun v hv => ⟨(hchk.2 v hv).1.1, fun c hc => ?_⟩⟩
  have := (hchk.2 v hv).2 c hc
  exact ⟨⟨this.1.1, all_named this.1.2⟩, all_named this.2⟩

include G hq in
theorem uint32_const {n : Ident} {k : Nat} (h : ⟨n, "uint32", .lit k⟩ ∈ g.consts) (hk : k < 2 ^ 32) :
    constU32 g n = some (UInt32.ofNat k) ∧ n ∉ ["h", "w"] ∧ Prog.const goProg q.name n = some (.u32 (UInt32.ofNat k)) := by
  have H := (compilable_comp G.gen G.comp).1
  refine ⟨?_, ?_, ?_⟩
  · have h1 := find_nodup H.facts.consts h
    have h2 : g.const (.ident n) = some k := by
      simp only at h1
      simp only [GoProg.const, constVal, h1]
    have hk' : k < 4294967296 := hk
    simp [constU32, h2, hk']
  · have hb : n ∉ badNames := by
      have h' := h
      rw [generate_consts H.facts.gen] at h'
      exact H.bad _ (constName_mem h')
    intro hx
    refine hb ?_
    simp only [List.mem_cons, List.not_mem_nil, or_false] at hx
    rcases hx with rfl | rfl <;> decide
  · have hl := G.text.consts _ h
    rw [if_neg (show ¬ ("uint32" : String) = "" by decide)] at hl
    have := prog_const (q := typedPkg q) (pkg_second hq) hl (by simp [valE]) (by simp [valE]) (zero_uint32' _ _) (n := k) rfl
    refine this.trans ?_
    simp only [coerce]
    congr 2
    exact ofInt32_nat k

include G hq hX in
/-- The registration function of a generated package, called with the user's object. -/
theorem regs_at {W : Wire ω} {I : (Nat → Prop) → St ω → σ → Prop} {rw : V} (A : App X rw I) {p : ProgDef} (hp : .program p ∈ s) {v : ProgVer} (hv : v ∈ p.vers)
    {d h : Nat} {hi : Impl σ} (O : Object X W I E d v h hi) (hI : Implements E hi v) :
    ∃ regs, Registrations E g hi p v regs ∧ ∃ N, ∀ n, N ≤ n → ∀ (st : St ω) (app : Nat → Prop) (y : σ), I app st y →
      ∀ m, ∃ rv o st', callN goProg X (m + 1) (.fn q.name (versName p v "_regs")) [.obj h] st = .ok ([rv], st') ∧
        RegsAt (Handles X W n (Beside o (wrapV q p v h) I)) st' rv regs ∧ Beside o (wrapV q p v h) I (fun j => app j ∨ j = o) st' y ∧ st.next ≤ o ∧
        (∀ j, j < st.next → st'.heap j = st.heap j) ∧ st'.world = st.world := by
  have hs := supported_of G.comp
  have hok := callable_of G hp
  obtain ⟨V, regs, he, hr, h1, h2, h3⟩ := C40_table G.gen hs hp hv hok hi hI
  refine ⟨regs, ⟨h1, h2, h3⟩, ?_⟩
  obtain ⟨V', hV, he'⟩ := generateVers_mem' G.vers hp hv
  rw [he] at he'
  cases he'
  have hV1 : ∃ sigs ws, mapM' (emitWrapper p v) v.calls = some ws ∧ V = {
      iface := versName p v "_handler", sigs := sigs, wrapperType := versName p v "_handler_wrapper", wrapperField := versName p v "_handler",
      wrappers := ws, regsName := versName p v "_regs", regsParam := versName p v "_handler", regsWrapper := versName p v "_handler_wrapper",
      regs := v.calls.map fun c => ⟨i p.name, i v.name, i c.name, i c.name⟩ } := by
    simp only [emitVers] at he
    obtain ⟨sigs, _, he⟩ := bind_some he
    obtain ⟨ws, hws, he⟩ := bind_some he
    cases he
    exact ⟨sigs, ws, hws, rfl⟩
  obtain ⟨sigs, ws, hws, rfl⟩ := hV1
  have hwc : ∀ w ∈ ws, ∃ c ∈ v.calls, emitWrapper p v c = some w ∧ w.name = i c.name := by
    intro w hw
    obtain ⟨c, hc, he⟩ := mapM'_mem hws hw
    refine ⟨c, hc, he, ?_⟩
    exact (emitWrapper_names he).2
  obtain ⟨N, hN⟩ := all_large (l := ws) (P := fun n w => ∀ o, Handles X W n (Beside o (wrapV q p v h) I)
      (.bound (.meth (q.name ++ "." ++ versName p v "_handler_wrapper") w.name) (.ptr "" ⟨o, []⟩)) (wrapperHandler g hi w)) fun w hw => by
    obtain ⟨c, hc, he, hn⟩ := hwc w hw
    rw [hn]
    exact wrapper_handles G hq X hX A ⟨hp, hv, hc⟩ O he
  refine ⟨N, fun n hn st app y hI0 m => ?_⟩
  have hrl := mapM'_rel hr
  have hpm : ∀ r ∈ v.calls.map (fun c => (⟨i p.name, i v.name, i c.name, i c.name⟩ : GoReg)), ptrMeth q (versName p v "_handler_wrapper") r.handler = true := by
    intro r hr
    obtain ⟨c, hc, rfl⟩ := List.mem_map.mp hr
    obtain ⟨w, hw, he⟩ := mapM'_mem' hws hc
    have := G.wraps.wraps _ hV w hw
    have hnm : w.recv = versName p v "_handler_wrapper" ∧ w.name = i c.name := emitWrapper_names he
    rw [hnm.1, hnm.2] at this
    rw [ptrMeth, this]
    rfl
  have hf := find_fn (q := typedPkg q) hq (typed_fn (G.wraps.regs _ hV))
  rw [typed_regs hpm] at hf
  simp only [callable, Bool.and_eq_true, decide_eq_true_eq, List.all_eq_true] at hok
  have hmem : ∀ c ∈ (emitProgConsts p).consts, c ∈ g.consts := by
    intro c hc
    rw [generate_consts G.gen, List.mem_flatMap]
    exact ⟨_, hp, hc⟩
  have c1 := uint32_const G hq (n := i p.name) (hmem _ (by simp [emitProgConsts])) hok.1
  have c2 := uint32_const G hq (n := i v.name) (hmem ⟨i v.name, "uint32", .lit v.id⟩ (by
      simp only [emitProgConsts, List.mem_cons, List.mem_flatMap]
      exact .inr ⟨v, hv, .inl rfl⟩)) (hok.2 v hv).1
  have c3 : ∀ c ∈ v.calls, _ := fun c hc => uint32_const G hq (n := i c.name) (hmem ⟨i c.name, "uint32", .lit c.id⟩ (by
      simp only [emitProgConsts, List.mem_cons, List.mem_flatMap]
      exact .inr ⟨v, hv, .inr (List.mem_map.mpr ⟨c, hc, rfl⟩)⟩)) ((hok.2 v hv).2 c hc).1.1
  have := regs_spec X m hq (up := fun r => (constU32 g r.prog).getD 0) (uv := fun r => (constU32 g r.vers).getD 0) (uc := fun r => (constU32 g r.proc).getD 0)
    hf (versName_not_pre p v _) (versName_not_pre p v _) (G.wraps.wrapper _ hV (fun e => by
      have := congrArg String.length e
      simp [versName] at this)) (G.wraps.iface _ hV) (fun r hr => by
      obtain ⟨c, hc, rfl⟩ := List.mem_map.mp hr
      have c3 := c3 c hc
      simp only [c1.1, c2.1, c3.1, Option.getD_some]
      exact ⟨⟨c1.2.1, c2.2.1, c3.2.1⟩, c1.2.2, c2.2.2, c3.2.2⟩) h st
  obtain ⟨rs, st', e, o, c, rfl, k1, k2, k3, k4, k5, k6, k7, k8⟩ := wp_iff.mp this
  refine ⟨_, o, st', e, .slice k1 k5 ?_, ⟨app, A.stable st' hI0 (fun j hj => k6 j (A.lt j hI0 hj)) k7 (by omega), by omega, k2,
    fun hj => by have := A.lt o hI0 hj; omega, fun _ => Iff.rfl⟩, by omega, k6, k7⟩
  rw [List.drop_zero, List.take_of_length_le (by simp), List.forall₂_map_left_iff]
  refine hrl.imp fun r' r hrr => ?_
  obtain ⟨-, hrr⟩ := hrr
  simp only [evalReg] at hrr
  obtain ⟨a1, b1, hrr⟩ := bind_some hrr
  obtain ⟨a2, b2, hrr⟩ := bind_some hrr
  obtain ⟨a3, b3, hrr⟩ := bind_some hrr
  obtain ⟨w, b4, hrr⟩ := bind_some hrr
  cases hrr
  have hwn := List.find?_some b4
  simp only [Bool.and_eq_true, beq_iff_eq] at hwn
  refine ⟨_, hN w (List.mem_of_find?_eq_some b4) n hn o, ?_⟩
  simp only [regS, b1, b2, b3, Option.getD_some, hwn.2]
  rfl

include G hq hX in
/-- **C67** The registration function of a generated package, called with the user's object: it returns a slice of the registrations
of the version, whose handlers are the methods of a new wrapper. -/
theorem C67_regs {W : Wire ω} {I : (Nat → Prop) → St ω → σ → Prop} {rw : V} (A : App X rw I) {p : ProgDef} (hp : .program p ∈ s) {v : ProgVer} (hv : v ∈ p.vers)
    {d h : Nat} {hi : Impl σ} (O : Object X W I E d v h hi) (hI : Implements E hi v) :
    ∃ regs, Registrations E g hi p v regs ∧ ∃ N, ∀ n, N ≤ n → ∀ (st : St ω) (app : Nat → Prop) (y : σ), I app st y →
      ∀ m, ∃ rv o st' app', callN goProg X (m + 1) (.fn q.name (versName p v "_regs")) [.obj h] st = .ok ([rv], st') ∧
        RegsAt (Handles X W n (Beside o (wrapV q p v h) I)) st' rv regs ∧ Beside o (wrapV q p v h) I app' st' y ∧
        (∀ j, j < st.next → st'.heap j = st.heap j) ∧ st'.world = st.world := by
  obtain ⟨regs, hr, N, hN⟩ := regs_at G hq X hX A hp hv O hI
  refine ⟨regs, hr, N, fun n hn st app y hI0 m => ?_⟩
  obtain ⟨rv, o, st', h1, h2, h3, -, h4, h5⟩ := hN n hn st app y hI0 m
  exact ⟨rv, o, st', _, h1, h2, h3, h4, h5⟩

omit [Others] in
theorem Registrations.modest {C : Spec.Env} {hi : Impl σ} {p : ProgDef} {v : ProgVer} {regs : List (ProcReg σ)} (hr : Registrations C g hi p v regs)
    (hs : Small C hi v) : Modest regs := by
  intro r hm args y d bytes hd he
  obtain ⟨k, hk⟩ := List.getElem?_of_mem hm
  have hl : regs.length = v.calls.length := by
    have := congrArg List.length hr.numbers
    rwa [List.length_map, List.length_map] at this
  obtain ⟨hlt, -⟩ := List.getElem?_eq_some_iff.mp hk
  have hc : v.calls[k]? = some v.calls[k] := List.getElem?_eq_getElem (by omega)
  generalize v.calls[k] = c at hc
  have hcm := List.mem_of_getElem? hc
  obtain ⟨h1, h2⟩ := hr.serves k c r hc hk args y
  have inj : ∀ t, Encodes d t → bytes = t := by
    intro t ht
    have := congrArg XdrState.buf ((he []).symm.trans (ht []))
    simpa [makeWriter] using this
  by_cases ha : ∃ arg, Arrives C g c args arg
  · obtain ⟨arg, ha⟩ := ha
    obtain ⟨d', e1, e2⟩ := h1 arg ha
    rw [e1] at hd
    cases hd
    have hA : ArgumentOf C c arg := by
      unfold Arrives at ha
      unfold ArgumentOf
      split at ha
      · rename_i h; rw [h]; exact ha
      · rename_i h; rw [h]; obtain ⟨_, _, _, _, w, _, _, _, _, _, _, hw, rfl⟩ := ha; exact ⟨w, rfl, hw⟩
      · exact ha.elim
    unfold Returns at e2
    split at e2
    · rw [inj _ e2]; decide
    · rename_i n w hn hw
      obtain ⟨x, q1, q2, q3⟩ := e2
      by_cases hx : IsValue C n x
      · rw [inj _ (q2 hx)]
        exact hs c hcm n hn arg y w x hA hw q1 hx
      · have := q3 hx []
        rw [he []] at this
        simp [makeWriter] at this
    · exact e2.elim
  · rw [h2 ha] at hd
    cases hd

include G hq hX in
/-- **C67** A server with the procedures of a generated package: the registration function is called with the user's object, then
`MakeServer`, `RegisterMany`, and `Run`, on any bytes whatever, each request being handled before the next is read.  `Run` comes
to an end, the error tells how the stream ended, and what is written are the responses to the records of the stream, in order, where
the handler of each procedure calls the method of the object. -/
theorem C67_connection {W : Wire ω} {rw : V} (T : Transport X W rw) {I : (Nat → Prop) → St ω → σ → Prop} (A : App X rw I) (B : Back X W I) (F : Front X W rw I)
    {p : ProgDef} (hp : .program p ∈ s) {v : ProgVer} (hv : v ∈ p.vers) {d h : Nat} {hi : Impl σ} (O : Object X W I E d v h hi) (hI : Implements E hi v) (hs : Small E hi v) :
    Served X W I E g hi p v q.name h rw := by
  obtain ⟨regs, hr, N, hN⟩ := C67_regs G hq X hX A hp hv O hI
  have hm := hr.modest hs
  refine ⟨regs, hr, N + 10, fun k hk st app y hI0 hl ms e hs => ?_⟩
  obtain ⟨k, rfl⟩ : ∃ k', k = k' + 9 := ⟨k - 9, by omega⟩
  obtain ⟨rv, o, st1, app1, h1, h2, h3, h4, h5⟩ := hN (k + 7) (by omega) st app y hI0 (k + 8)
  refine ⟨rv, st1, h1, ?_⟩
  rw [← h5] at hl hs ⊢
  obtain ⟨w, x, st', y', out, app', e1, e2, e3, e4, ⟨app0, e5, -⟩, e6⟩ :=
    C56_connection T (Beside.app T A o _) (Beside.back B o _) (Beside.front T F o _) h3 h2 hr.orderly hm hl hs
  exact ⟨w, x, st', y', out, app0, e1, e2, e3, e4, e5, e6⟩
end

/-- **C67** So it is with the package that the text of the generator leaves. -/
theorem C67_files [Others] {A : Lr} {sys : Sys} {fl : ToolFlags} {fs : Tool.FS} {s : Gen.Spec} {grow : Nat → Nat → Nat} {loops k : Nat} {q : Pkg}
    (R : SpecFile A sys fl fs s) (hm : succeeds (runTool A sys fl grow loops (k + 2) fs))
    (ho : outPkg fl.args (endFiles (runTool A sys fl grow loops (k + 2) fs)) = some q) (hq : Has (rpcPkg :: Others.ps) (typedPkg q))
    (X : Ext ω) (hX : 2 ^ 32 ≤ X.loops) {W : Wire ω} {rw : V} (T : Transport X W rw) {I : (Nat → Prop) → St ω → σ → Prop} (A : App X rw I)
    (B : Back X W I) (F : Front X W rw I) :
    ∃ g, generate fl.gen s = some g ∧ ∀ p, .program p ∈ s → ∀ v ∈ p.vers, ∀ (d h : Nat) (hi : Impl σ),
      Object X W I (envOf fl.gen.unsignedEnum s) d v h hi → Implements (envOf fl.gen.unsignedEnum s) hi v → Small (envOf fl.gen.unsignedEnum s) hi v →
      Served X W I (envOf fl.gen.unsignedEnum s) g hi p v q.name h rw := by
  obtain ⟨g, vs, G⟩ := C66_files R hm ho
  exact ⟨g, G.gen, fun p hp v hv d h hi O hI hs => C67_connection G hq X hX T A B F hp hv O hI hs⟩

/-! ### A concrete case: the port mapper, in a package of its own

Package pmap is generated from rfc1057/prot.x too.  The object 7 is that of `pmapImpl`
(Props/Program.lean): it has one port, which is in the cell 0 (`NetInv`). -/

def pmapPkg : Pkg := { rpcPkg with name := "pmap" }

theorem pmap_generated : Generated Inst.fl Inst.Rfc1057.spec Inst.Rfc1057.prog Inst.Rfc1057.goVers pmapPkg := by
  obtain ⟨h1, h2, h3, h4, h5, h6, -, -⟩ := C66_rfc1057
  exact ⟨h1, h2, h3, ⟨h4.1, h4.2, h4.3, h4.4, h4.5⟩, h5, ⟨h6.1, h6.2, h6.3, h6.4⟩, by decide, by decide⟩

@[instance_reducible] def withPmap : Others := ⟨[typedPkg pmapPkg], rfl, rfl, rfl⟩

attribute [local instance] withPmap

theorem has_pmap : Has (rpcPkg :: Others.ps) (typedPkg pmapPkg) :=
  ⟨by decide, [rpcPkg], [], rfl, fun p hp => by cases List.mem_singleton.mp hp; exact ⟨by decide, by decide⟩⟩

def pmapSet : V → M Net (List V)
  | .struct _ [_, _, _, (_, .u32 p)] => fun st => .ok ([.bool true], st.set 0 (.u32 p))
  | _ => stop .stuck

def pmapGet : M Net (List V) := fun st => .ok ([st.heap 0], st)

def pmapExt : String → List V → M Net (List V)
  | "PMAPPROC_NULL", [.obj 7] => pure []
  | "PMAPPROC_SET", [.obj 7, m] => pmapSet m
  | "PMAPPROC_UNSET", [.obj 7, _] => pure [.bool false]
  | "PMAPPROC_GETPORT", [.obj 7, _] => pmapGet
  | "PMAPPROC_DUMP", [.obj 7] => pure [.struct "pmap.Pmaplist" [("P", .nil)]]
  | "PMAPPROC_CALLIT", [.obj 7, _] => pure [.struct "pmap.Call_result" [("Port", .u32 0), ("Res", .nil)]]
  | n, vs => netExt n vs

def pmapNet : Ext Net := ⟨pmapExt, fun _ _ => stop .stuck, fun _ n => n, 2 ^ 32⟩

theorem pmap_transport : Transport pmapNet netWire (.obj 0) := ⟨net_transport.obj, net_transport.write, net_transport.read⟩
theorem pmap_app : App pmapNet (.obj 0) NetInv := ⟨net_app.lt, net_app.stable, net_app.write⟩
theorem pmap_back : Back pmapNet netWire NetInv := ⟨net_back.put, net_back.log⟩
theorem pmap_front : Front pmapNet netWire (.obj 0) NetInv := ⟨net_front.get, net_front.read⟩

theorem pmap_same {c : ProgCall} {r : Option GoVal} {v : List V} {app ok : Nat → Prop} {st : St Net} {y : UInt32} (hI : NetInv app st y)
    (ht : ResultIn (envOf true Inst.Rfc1057.spec) 1 c r) (hh : Carries st (fun _ => False) r v) :
    Returned netWire NetInv (envOf true Inst.Rfc1057.spec) 1 c (y, r) app app ok (fun _ => False) v st st :=
  ⟨hI, fun _ h => .inl h, ht, hh, fun _ h => h.elim, fun _ _ _ _ => rfl, Nat.le_refl _, rfl, rfl, rfl, rfl⟩

theorem pmap_object : Object pmapNet netWire NetInv (envOf true Inst.Rfc1057.spec) 1 pmapVers 7 pmapImpl := by
  intro c hc st app y arg vs ok hI hok ha hh
  simp only [pmapVers, List.mem_cons, List.not_mem_nil, or_false] at hc
  rcases hc with rfl | rfl | rfl | rfl | rfl | rfl
  · cases ha
    cases hh
    exact ⟨_, _, app, _, rfl, pmap_same hI rfl rfl⟩
  · obtain ⟨x, rfl, k, hx⟩ := ha
    cases k with
    | zero => exact hx.elim
    | succ k =>
      obtain ⟨t, ht, hx⟩ := hx
      cases ht
      obtain ⟨_, rfl, _, ⟨_, rfl, a, rfl⟩, _, ⟨_, rfl, b, rfl⟩, _, ⟨_, rfl, c, rfl⟩, _, ⟨_, rfl, d, rfl⟩, rfl⟩ := hx
      obtain ⟨u, rfl, hu⟩ := hh
      cases hu with
      | struct h1 h2 h3 =>
        rename_i T fs
        have hl := congrArg List.length h1
        match fs, hl with
        | [f1, f2, f3, (n, w)], _ =>
          have hw4 := h3 3 _ _ _ _ rfl rfl
          cases hw4
          obtain ⟨i1, i2, i3, i4⟩ := hI
          refine ⟨_, _, app, fun _ => False, rfl, ⟨show (st.set 0 (.u32 d)).heap 0 = V.u32 d from by simp [St.set], i2, ?_, i4⟩, fun _ h => .inl h, ⟨_, rfl, _, rfl, _, rfl⟩, ⟨_, rfl, .bool _⟩, fun _ h => h.elim,
            fun j _ h _ => ?_, Nat.le_refl _, rfl, rfl, rfl, rfl⟩
          · intro s hs
            obtain ⟨q1, ⟨arr, q2, q3⟩, q4, q5⟩ := i3 s hs
            refine ⟨q1, ⟨arr, ?_, q3⟩, q4, q5⟩
            rw [← q2]
            simp [St.set, q5]
          · have : j ≠ 0 := fun e => h ((i4 j).mpr (.inl e))
            simp [St.set, this]
  · obtain ⟨x, rfl, hx⟩ := ha
    obtain ⟨u, rfl, hu⟩ := hh
    exact ⟨_, _, app, _, rfl, pmap_same hI ⟨_, rfl, _, rfl, _, rfl⟩ ⟨_, rfl, .bool _⟩⟩
  · obtain ⟨x, rfl, hx⟩ := ha
    obtain ⟨u, rfl, hu⟩ := hh
    refine ⟨_, _, app, _, rfl, pmap_same hI ⟨_, rfl, _, rfl, _, rfl⟩ ⟨_, rfl, ?_⟩⟩
    rw [hI.counter]
    exact .u32 _
  · cases ha
    cases hh
    refine ⟨_, _, app, _, rfl, pmap_same hI ⟨_, rfl, _, rfl, _, rfl, _, rfl, fun _ e => (by cases e)⟩ ⟨_, rfl, .struct rfl (by decide) fun k f v g y h1 h2 => ?_⟩⟩
    match k with
    | 0 => cases h1; cases h2; exact .pnil
    | k + 1 => cases h1
  · obtain ⟨x, rfl, hx⟩ := ha
    obtain ⟨u, rfl, hu⟩ := hh
    refine ⟨_, _, app, _, rfl, pmap_same hI ⟨_, rfl, _, rfl, _, rfl, _, ⟨_, rfl, _, rfl⟩, _, ⟨_, rfl, _, rfl⟩, rfl⟩ ⟨_, rfl, .struct rfl (by decide) fun k f v g y h1 h2 => ?_⟩⟩
    match k with
    | 0 => cases h1; cases h2; exact .u32 _
    | 1 => cases h1; cases h2; exact .bytes .nil fun s e => (by cases e)
    | k + 2 => cases h1

theorem pmap_small : Small (envOf true Inst.Rfc1057.spec) pmapImpl pmapVers := by
  have key : ∀ {n v x} x0, Denotes (envOf true Inst.Rfc1057.spec) n v x → Denotes (envOf true Inst.Rfc1057.spec) n v x0 → 24 + (enc x0).length < 2 ^ 31 →
      24 + (enc x).length < 2 ^ 31 := by
    intro n v x x0 h h0 hl
    rwa [denotes_unique h h0]
  intro c hc n hn arg s y x ha hy hd hv
  simp only [pmapVers, List.mem_cons, List.not_mem_nil, or_false] at hc
  rcases hc with rfl | rfl | rfl | rfl | rfl | rfl
  · cases hn
  · cases hn; cases hy
    exact key (.bool true) hd ⟨1, rfl⟩ (by decide)
  · cases hn; cases hy
    exact key (.bool false) hd ⟨1, rfl⟩ (by decide)
  · cases hn; cases hy
    refine key (.uint s.toNat) hd ⟨1, rfl⟩ ?_
    simp only [enc, be_length]
    decide
  · cases hn; cases hy
    exact key (.opt none) hd ⟨1, rfl⟩ (by decide)
  · cases hn; cases hy
    exact key (.struct [.uint 0, .vopaque []]) hd ⟨1, rfl⟩ (by decide)

/-- The port 37 is in the cell 0. -/
def pmapSt (input : Chunks) : St Net :=
  { heap := fun _ => .u32 37, next := 1, world := ⟨input, [], true, none, []⟩, defers := [] }

theorem pmap_inv (input : Chunks) : NetInv (· = 0) (pmapSt input) 37 where
  counter := rfl
  lt := by show 0 < 1; decide
  pool := fun s h => by cases h
  cells := fun j => ⟨.inl, fun h => by rcases h with h | ⟨s, h, _⟩; exact h; cases h⟩

def pmapCall (proc : UInt32) (args : List UInt8) : List UInt8 := callBytes ⟨99, 2, 100000, 2, proc, ⟨0, []⟩, ⟨0, []⟩⟩ args

/-- A call of `PMAPPROC_SET`, one of `PMAPPROC_GETPORT`, and garbage. -/
def pmapRequests : List (List UInt8) :=
  [pmapCall 1 [0, 0, 0, 1, 0, 0, 0, 2, 0, 0, 0, 6, 0, 0, 8, 1], pmapCall 3 [0, 0, 0, 1, 0, 0, 0, 2, 0, 0, 0, 6, 0, 0, 0, 0], [1, 2, 3]]

/-- The hypotheses of C67 hold of it. -/
example (input : Chunks) (hl : input.flatten.length < 2 ^ 32) (ms : List (List UInt8)) (e : StreamEnd) (hs : Stream input.flatten ms e) :
    ∃ regs, Registrations (envOf true Inst.Rfc1057.spec) Inst.Rfc1057.prog pmapImpl pmapProg pmapVers regs ∧ ∃ k rv st1,
      callN goProg pmapNet k (.fn "pmap" "PMAP_PROG_PMAP_VERS_regs") [.obj 7] (pmapSt input) = .ok ([rv], st1) ∧
        ∃ w x st' y' out app', serverMain (atOnce pmapNet k) rv (.obj 0) st1 = .ok ([w], st') ∧ RunRel w x ∧ Reported e x ∧
          Responses regs ms 37 y' out ∧ NetInv app' st' y' ∧ st'.world.sent = out := by
  obtain ⟨regs, hr, N, hN⟩ := C67_connection pmap_generated has_pmap pmapNet (Nat.le_refl _) pmap_transport pmap_app pmap_back pmap_front
    pmapProg_mem (List.mem_singleton.mpr rfl) pmap_object pmapImpl_ok pmap_small
  exact ⟨regs, hr, N, hN N (Nat.le_refl _) (pmapSt input) _ 37 (pmap_inv input) hl ms e hs⟩

/-- And this is what the text does, step by step: `true`, and the port 2049. -/
example : (match callN goProg pmapNet 30 (.fn "pmap" "PMAP_PROG_PMAP_VERS_regs") [.obj 7] (pmapSt (pmapRequests.map fun m => be 4 (2 ^ 31 + m.length) ++ m)) with
      | .ok ([rv], st1) =>
        match serverMain (atOnce pmapNet 30) rv (.obj 0) st1 with
        | .ok ([.err m []], st) => some (m, st.world.sent)
        | _ => none
      | _ => none) =
    some (strBytes "EOF", [[128, 0, 0, 28, 0, 0, 0, 99, 0, 0, 0, 1, 0, 0, 0, 0, 0, 0, 0, 0, 0, 0, 0, 0, 0, 0, 0, 0, 0, 0, 0, 1],
      [128, 0, 0, 28, 0, 0, 0, 99, 0, 0, 0, 1, 0, 0, 0, 0, 0, 0, 0, 0, 0, 0, 0, 0, 0, 0, 0, 0, 0, 0, 8, 1]]) := by
  decide +kernel

end Verif.Props
