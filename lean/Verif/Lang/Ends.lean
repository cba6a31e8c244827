/-
Rules for programs that end in one way or another.
-/
import Verif.Lang.Stops
import Verif.Lang.Actions

namespace Verif.Lang
set_option linter.unusedSimpArgs false

/-- `Q` holds of how `m` ends and of the state then. -/
def ends {ω α : Type} (m : M ω α) (Q : Except Stop α → St ω → Prop) (st : St ω) : Prop :=
  match m st with
  | .ok (a, s) => Q (.ok a) s
  | .error (e, s) => Q (.error e) s

section
variable {ω α β : Type}

theorem ends_wp {m : M ω α} {Q : Except Stop α → St ω → Prop} {st : St ω} (h : wp m (fun a s => Q (.ok a) s) st) : ends m Q st := by
  obtain ⟨a, s, e, h⟩ := wp_iff.mp h
  unfold ends
  rw [e]
  exact h

theorem ends_dies {m : M ω α} {e : Stop} {Q : Except Stop α → St ω → Prop} {st : St ω} (h : dies m e (fun s => Q (.error e) s) st) : ends m Q st := by
  obtain ⟨s, e, h⟩ := h
  unfold ends
  rw [e]
  exact h

theorem ends_bind {m : M ω α} {f : α → M ω β} {Q : Except Stop β → St ω → Prop} {st : St ω}
    (h : ends m (fun r s => match r with | .ok a => ends (f a) Q s | .error e => Q (.error e) s) st) : ends (m >>= f) Q st := by
  show (match M.bind m f st with | .ok (a, s) => Q (.ok a) s | .error (e, s) => Q (.error e) s)
  unfold M.bind
  unfold ends at h
  cases hm : m st with
  | ok r => rw [hm] at h; exact h
  | error r => rw [hm] at h; exact h

theorem ends_mono {m : M ω α} {Q R : Except Stop α → St ω → Prop} {st : St ω} (h : ends m Q st) (hq : ∀ r s, Q r s → R r s) : ends m R st := by
  unfold ends at *
  cases hm : m st with
  | ok r => rw [hm] at h; exact hq _ _ h
  | error r => rw [hm] at h; exact hq _ _ h

theorem ends_next {S : Sem ω} {p : String} {s : Stmt} {b : List Stmt} {ρ : Env} {Q : Except Stop (Env × Ctl) → St ω → Prop} {st : St ω}
    (h : wp (exec S p s ρ) (fun r s => ends (execs S p b r.1 r.2) Q s) st) : ends (execs S p (s :: b) ρ .next) Q st := by
  rw [execs]
  exact ends_bind (ends_wp h)

theorem ends_nil {S : Sem ω} {p : String} {ρ : Env} {c : Ctl} {Q : Except Stop (Env × Ctl) → St ω → Prop} {st : St ω}
    (h : Q (.ok (ρ, c)) st) : ends (execs S p [] ρ c) Q st := by
  rw [execs]
  exact h

/-- How a function ends. -/
theorem ends_callFunc {S : Sem ω} {p : String} {f : Func} {args : List V} {Q : Except Stop (List V) → St ω → Prop} {st : St ω}
    (h : wp (bindParams S.prog p f.args args [[]]) (fun ρ s => wp (bindResults S.prog p f.results ρ) (fun ρ s =>
      ends (execs S p f.body ρ .next) (fun r s => match r with
        | .ok r => wp (finish S p ρ f r.2) (fun vs s => wp (runDefers S s.defers) (fun _ s => Q (.ok vs) (s.deferring st.defers)) s) s
        | .error .panic => wp (runDefers S s.defers) (fun _ s => Q (.error .panic) (s.deferring st.defers)) s
        | .error e => Q (.error e) s) s) s) (st.deferring [])) : ends (callFunc S p f args) Q st := by
  have hb : ends (runBody S p f args) (fun r s => match r with
      | .ok vs => wp (runDefers S s.defers) (fun _ s => Q (.ok vs) (s.deferring st.defers)) s
      | .error .panic => wp (runDefers S s.defers) (fun _ s => Q (.error .panic) (s.deferring st.defers)) s
      | .error e => Q (.error e) s) (st.deferring []) := by
    unfold runBody
    refine ends_bind (ends_wp (wp_mono h fun ρ s h => ?_))
    refine ends_bind (ends_wp (wp_mono h fun ρ s h => ?_))
    refine ends_bind (ends_mono h fun r s h => ?_)
    cases r with
    | ok r => exact ends_wp h
    | error e => cases e <;> exact h
  unfold callFunc
  refine ends_bind (ends_wp ?_)
  refine wp_iff.mpr ⟨_, _, rfl, ?_⟩
  refine ends_bind (ends_wp ?_)
  refine wp_iff.mpr ⟨_, _, rfl, ?_⟩
  show ends (finally' _ _) Q (st.deferring [])
  unfold ends at hb
  cases hm : runBody S p f args (st.deferring []) with
  | ok r =>
    obtain ⟨vs, s⟩ := r
    rw [hm] at hb
    obtain ⟨_, s', e, hb⟩ := wp_iff.mp hb
    refine ends_wp (wp_iff.mpr ⟨vs, s'.deferring st.defers, ?_, hb⟩)
    unfold finally'
    rw [hm]
    exact ok_bind (ok_bind rfl (ok_bind e rfl)) rfl
  | error r =>
    obtain ⟨e, s⟩ := r
    rw [hm] at hb
    cases e with
    | panic =>
      obtain ⟨_, s', e, hb⟩ := wp_iff.mp hb
      refine ends_dies (e := .panic) ⟨s'.deferring st.defers, ?_, hb⟩
      unfold finally'
      rw [hm]
      exact ok_bind (ok_bind rfl (ok_bind e rfl)) rfl
    | _ =>
      refine ends_dies ⟨s, ?_, hb⟩
      unfold finally'
      rw [hm]

theorem ends_callN {P : Prog} {E : Ext ω} {k : Nat} {key : FKey} {p : String} {f : Func} {args : List V}
    {Q : Except Stop (List V) → St ω → Prop} {st : St ω} (hf : P.find key = some (p, f))
    (h : ends (callFunc ⟨P, callN P E k, E.ext, E.spawn, E.grow, E.loops⟩ p f args) Q st) :
    ends (callN P E (k + 1) key args) Q st := by
  simp only [callN, hf]
  exact h

theorem exec_ite_true {S : Sem ω} {p : String} {c : Expr} {a b rest : List Stmt} {ρ : Env} {Q : Except Stop (Env × Ctl) → St ω → Prop}
    {st : St ω} (hc : wp (evalM S p ρ c) (fun vs s => vs = [.bool true] ∧ s = st) st)
    (h : ends (execs S p a ([] :: ρ) .next) (fun r s => match r with
      | .ok r => ends (execs S p rest ρ r.2) Q s
      | .error e => Q (.error e) s) st) : ends (execs S p (.ite c a b :: rest) ρ .next) Q st := by
  obtain ⟨_, _, e, rfl, rfl⟩ := wp_iff.mp hc
  rw [execs, exec]
  refine ends_bind (ends_bind (ends_wp (wp_iff.mpr ⟨.bool true, _, ok_bind e rfl, ?_⟩)))
  refine ends_bind (ends_mono h fun r s h => ?_)
  cases r with
  | ok r => exact h
  | error r => exact h

theorem exec_ite_false {S : Sem ω} {p : String} {c : Expr} {a b rest : List Stmt} {ρ : Env} {Q : Except Stop (Env × Ctl) → St ω → Prop}
    {st : St ω} (hc : wp (evalM S p ρ c) (fun vs s => vs = [.bool false] ∧ s = st) st)
    (h : ends (execs S p b ([] :: ρ) .next) (fun r s => match r with
      | .ok r => ends (execs S p rest ρ r.2) Q s
      | .error e => Q (.error e) s) st) : ends (execs S p (.ite c a b :: rest) ρ .next) Q st := by
  obtain ⟨_, _, e, rfl, rfl⟩ := wp_iff.mp hc
  rw [execs, exec]
  refine ends_bind (ends_bind (ends_wp (wp_iff.mpr ⟨.bool false, _, ok_bind e rfl, ?_⟩)))
  refine ends_bind (ends_mono h fun r s h => ?_)
  cases r with
  | ok r => exact h
  | error r => exact h

/-- A call of a function, as a statement. -/
theorem exec_call {S : Sem ω} {p f : String} {args : List Expr} {b : List Stmt} {ρ : Env} {Q : Except Stop (Env × Ctl) → St ω → Prop}
    {st : St ω} (hf : ρ.find f = none) (hm : f ≠ "make") (hn : f ≠ "new") (hb : builtins.contains f = false)
    (ht : isType S.prog p f = false) (ha : ∀ t args', args = .ty t :: args' → False)
    (h : wp (evalArgs S p ρ args) (fun vs s => ends (S.call (.fn p f) vs) (fun r s => match r with
      | .ok _ => ends (execs S p b ρ .next) Q s
      | .error e => Q (.error e) s) s) st) : ends (execs S p (.expr (.call (.id f) args false) :: b) ρ .next) Q st := by
  rw [execs, exec]
  refine ends_bind (ends_bind ?_)
  rw [evalM]
  · simp only [hf, if_neg hm, if_neg hn]
    refine ends_bind (ends_wp (wp_mono h fun vs s h => ?_))
    simp only [hb, ht, Bool.false_eq_true, if_false]
    refine ends_mono h fun r s h => ?_
    cases r with
    | ok r => exact h
    | error r => exact h
  · exact fun t args' h => ha t args' h
end

attribute [irreducible] ends

end Verif.Lang
