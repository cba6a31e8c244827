/-
Lemmas on wrappers and registration tables.
-/
import Verif.Rpc.Wrapper
import Verif.Rpc.ServerLemmas

namespace Verif.Rpc
open Verif.Xdr Verif.Gen Verif.Spec

variable {σ : Type}

namespace Proc
variable {V W α β γ : Type}

/-- Every result the computation can return satisfies `P`, whatever the states it sees. -/
def All (P : α → Prop) : Proc V σ α → Prop
  | .ret a => P a
  | .act _ n => ∀ v s, (n v s).All P

theorem All.run {P : α → Prop} {p : Proc V σ α} (h : p.All P) (v : V) (s : σ) : P (p.run v s).2 := by
  induction p generalizing s with
  | ret a => exact h
  | act u n ih => exact ih v s (h v s) (u v s)

theorem All.comap {P : α → Prop} {p : Proc W σ α} (h : p.All P) (f : V → W) : (p.comap f).All P := by
  induction p with
  | ret a => exact h
  | act u n ih => exact fun v s => ih (f v) s (h (f v) s)

theorem All.bind {P : α → Prop} {Q : β → Prop} {p : Proc V σ α} {f : α → Proc V σ β} (h : p.All P)
    (hf : ∀ a, P a → (f a).All Q) : (p.bind f).All Q := by
  induction p with
  | ret a => exact hf a h
  | act u n ih => exact fun v s => ih v s (h v s)

theorem run_map (f : α → β) (p : Proc V σ α) (v : V) (s : σ) :
    (p.map f).run v s = ((p.run v s).1, f (p.run v s).2) := by
  induction p generalizing s with
  | ret a => rfl
  | act u n ih => exact ih v s (u v s)

end Proc

theorem mapM'_some {α β : Type} {f : α → Option β} {l : List α} {r : List β} (h : mapM' f l = some r) :
    ∀ (k : Nat) a, l[k]? = some a → ∃ b, f a = some b ∧ r[k]? = some b := by
  induction l generalizing r with
  | nil => intro k a hk; simp at hk
  | cons x l ih =>
    simp only [mapM'] at h
    obtain ⟨b, hb, h⟩ := bind_some h
    obtain ⟨bs, hbs, h⟩ := bind_some h
    cases h
    intro k a hk
    cases k with
    | zero => simp at hk; subst hk; exact ⟨b, hb, rfl⟩
    | succ k => simpa using ih hbs k a (by simpa using hk)

theorem mapM'_length {α β : Type} {f : α → Option β} {l : List α} {r : List β} (h : mapM' f l = some r) :
    r.length = l.length := by
  induction l generalizing r with
  | nil => cases h; rfl
  | cons x l ih =>
    simp only [mapM'] at h
    obtain ⟨b, hb, h⟩ := bind_some h
    obtain ⟨bs, hbs, h⟩ := bind_some h
    cases h
    simp [ih hbs]

theorem mapM'_total {α β : Type} {f : α → Option β} {l : List α} (h : ∀ a ∈ l, (f a).isSome) :
    ∃ r, mapM' f l = some r := by
  induction l with
  | nil => exact ⟨[], rfl⟩
  | cons x l ih =>
    obtain ⟨b, hb⟩ := Option.isSome_iff_exists.mp (h x (by simp))
    obtain ⟨r, hr⟩ := ih fun a ha => h a (by simp [ha])
    exact ⟨b :: r, by simp [mapM', hb, hr]⟩

/-- A typespec is a reference to a declared type. -/
def Named (E : Env) : Typespec → Bool
  | .ident n => (E.typeOf n).isSome
  | _ => false

section
variable {fl : Flags} {s : Gen.Spec} {g : GoProg} (hg : generate fl s = some g)
  (hs : supported fl s = true)

local notation "E" => envOf fl.unsignedEnum s

include hg hs in
theorem method_exists {n : Ident} (hn : ((E).typeOf n).isSome) : ∃ b, g.methods.lookup (i n) = some b := by
  obtain ⟨t, ht⟩ := Option.isSome_iff_exists.mp hn
  have h := supported_facts hg hs
  obtain ⟨_, hm⟩ := generate_types hg
  obtain ⟨_, b, _, h2⟩ := lookup_mapAll _ _ n t h.types hm ht
  exact ⟨b, h2⟩

/-- The end of a wrapper: what is returned for the method's result. -/
noncomputable def finish (g : GoProg) (c : ProgCall) (r : Option GoVal) : Res (Option Xdrable × Bool) :=
  match c.res, r with
  | none, _ => .ok (some voidXdrable, false)
  | some (.ident n), some v => .ok (some (methodXdrable g (i n) v), false)
  | _, _ => .error .stuck

include hg hs in
theorem execW_tail (h : Impl σ) (c : ProgCall) (hres : c.res.all (Named E) = true)
    (b : List WStmt) (hb : b = (match c.res with
      | some t => [.varOut (.named (match t with | .ident n => i n | _ => ""))]
      | none => [WStmt.varOutVoid]))
    (st : WState) (hin : st.inV.isNone = false ∨ c.arg.isSome = false) :
    execW g h (b ++ [.callH (i c.name) c.res.isSome c.arg.isSome, .retOut]) st =
      ((h (i c.name) (if c.arg.isSome then st.inV.map (·.2) else none)).comap fun _ => ()).bind
        fun r => .ret (finish g c r) := by
  subst hb
  have hcond : ¬ (c.arg.isSome = true ∧ st.inV.isNone = true) := by
    rintro ⟨h1, h2⟩
    rcases hin with h | h <;> simp_all
  obtain ⟨name, arg, res, id⟩ := c
  cases res with
  | none =>
    simp only [List.cons_append, List.nil_append, execW, if_neg hcond, Option.isSome_none, finish]
  | some t =>
    cases t with
    | ident n =>
      simp only [Option.all_some, Named] at hres
      obtain ⟨z, hz, _⟩ := zero_fresh hg hs hres
      obtain ⟨mb, hmb⟩ := method_exists hg hs hres
      have hz' : g.zero (.named (i n)) = some z := by simpa [GoProg.zero, zeroGo] using hz
      simp only [List.cons_append, List.nil_append, execW, hz', if_neg hcond, Option.isSome_some, finish]
      congr 1
      funext r
      cases r with
      | none => rfl
      | some v => simp only [hmb]
    | _ => simp [Named] at hres

include hg hs in
/-- The body of a wrapper without argument. -/
theorem execW_void (h : Impl σ) {p : ProgDef} {v : ProgVer} {c : ProgCall} {w : GoWrapper}
    (hw : emitWrapper p v c = some w) (hres : c.res.all (Named E) = true) (harg : c.arg = none)
    (rd : XdrState) :
    execW g h w.body { args := rd, err := false, inV := none, outV := none } =
      ((h (i c.name) none).comap fun _ => ()).bind fun r => .ret (finish g c r) := by
  have ht := fun b hb => execW_tail hg hs h c hres b hb
    { args := rd, err := false, inV := none, outV := none } (.inr (by simp [harg]))
  obtain ⟨name, arg, res, id⟩ := c
  cases harg
  cases res with
  | none =>
    simp only [emitWrapper, bind, Option.bind, pure] at hw
    cases hw
    simpa using ht _ rfl
  | some t =>
    cases t with
    | ident n =>
      simp only [emitWrapper, Typespec.goType, bind, Option.bind, pure] at hw
      cases hw
      simpa using ht _ rfl
    | _ => simp [Named] at hres

include hg hs in
/-- The body of a wrapper with argument. -/
theorem execW_arg (h : Impl σ) {p : ProgDef} {v : ProgVer} {c : ProgCall} {w : GoWrapper} {n : Ident}
    (hw : emitWrapper p v c = some w) (hres : c.res.all (Named E) = true) (harg : c.arg = some (.ident n))
    (hn : ((E).typeOf n).isSome) {z : GoVal} (hz : g.zeroNamed (i n) = some z)
    {rd xs : XdrState} {x : GoVal} (hr : Runs g (i n) rd z xs x) :
    execW g h w.body { args := rd, err := false, inV := none, outV := none } =
      if xs.err.isSome then .ret (.ok (none, true))
      else ((h (i c.name) (some x)).comap fun _ => ()).bind fun r => .ret (finish g c r) := by
  have hz' : g.zero (.named (i n)) = some z := by simpa [GoProg.zero, zeroGo] using hz
  obtain ⟨mb, hmb⟩ := method_exists hg hs hn
  have ht := fun b hb => execW_tail hg hs h c hres b hb
    { args := xs, err := xs.err.isSome, inV := some (.named (i n), x), outV := none } (.inl rfl)
  obtain ⟨name, arg, res, id⟩ := c
  cases harg
  simp only [Option.isSome_some, if_true, Option.map_some] at ht
  have key : ∀ b, execW g h ([.varIn (.named (i n)), .inXdr, .setErr, .retIfErr] ++ b)
      { args := rd, err := false, inV := none, outV := none } =
      if xs.err.isSome then .ret (.ok (none, true))
      else execW g h b { args := xs, err := xs.err.isSome, inV := some (.named (i n), x), outV := none } := by
    intro b
    simp only [List.cons_append, List.nil_append, execW, hz', hmb, callMethod_eq hr, error]
    rfl
  cases res with
  | none =>
    simp only [emitWrapper, Typespec.goType, bind, Option.bind, pure] at hw
    cases hw
    rw [List.append_assoc, key]
    have := ht _ rfl
    simp only [Option.isSome_none] at this
    simp only [Option.isSome_none, Option.isSome_some, this]
  | some t =>
    cases t with
    | ident m =>
      simp only [emitWrapper, Typespec.goType, bind, Option.bind, pure] at hw
      cases hw
      rw [List.append_assoc, key]
      have := ht _ rfl
      simp only [Option.isSome_some] at this
      simp only [Option.isSome_some, this]
    | _ => simp [Named] at hres

/-! ### Results as `xdr.Xdrable` -/

include hg hs in
theorem methodXdrable_encodes {n : Ident} {v : GoVal} (hv : Typed E n v) : ∃ y, Denotes E n v y ∧
    (IsValue E n y → Encodes (methodXdrable g (i n) v) (enc y)) ∧
    (¬ IsValue E n y → Unencodable (methodXdrable g (i n) v)) := by
  obtain ⟨y, hy, h⟩ := runs_encode hg hs hv
  refine ⟨y, hy, fun hp w => ?_, fun hp w => ?_⟩
  · rcases h w with ⟨_, h1⟩ | ⟨h1, _⟩
    · simp [methodXdrable, callMethod_eq h1]
    · exact absurd hp h1
  · rcases h w with ⟨h1, _⟩ | ⟨_, xs', h1, h2, _⟩
    · exact absurd h1 hp
    · simp [methodXdrable, callMethod_eq h1, h2]

theorem voidXdrable_encodes : Encodes voidXdrable [] := fun w => by simp [voidXdrable]

end

end Verif.Rpc
