/-
Rules for programs that stop: with a panic, or with `os.Exit`.
-/
import Verif.Lang.Simps

namespace Verif.Lang
variable {ω : Type}
set_option linter.unusedSimpArgs false

/-- `m` stops with `e` in a state of which `Q` holds. -/
def dies {α : Type} (m : M ω α) (e : Stop) (Q : St ω → Prop) (st : St ω) : Prop := ∃ s, m st = .error (e, s) ∧ Q s

theorem dies_mono {α : Type} {m : M ω α} {e : Stop} {Q Q' : St ω → Prop} {st : St ω} (h : dies m e Q st)
    (hq : ∀ s, Q s → Q' s) : dies m e Q' st := by
  obtain ⟨s, h1, h2⟩ := h
  exact ⟨s, h1, hq s h2⟩

theorem dies_stop {α : Type} {e : Stop} {Q : St ω → Prop} {st : St ω} (h : Q st) : dies (stop e : M ω α) e Q st := ⟨st, rfl, h⟩

theorem dies_bind {α β : Type} {m : M ω α} {f : α → M ω β} {e : Stop} {Q : St ω → Prop} {st : St ω}
    (h : wp m (fun a s => dies (f a) e Q s) st) : dies (m >>= f) e Q st := by
  rw [wp_iff] at h
  obtain ⟨a, s, h1, s', h2, h3⟩ := h
  refine ⟨s', ?_, h3⟩
  show M.bind m f st = _
  unfold M.bind
  rw [h1]
  exact h2

theorem dies_left {α β : Type} {m : M ω α} {f : α → M ω β} {e : Stop} {Q : St ω → Prop} {st : St ω}
    (h : dies m e Q st) : dies (m >>= f) e Q st := by
  obtain ⟨s, h1, h2⟩ := h
  refine ⟨s, ?_, h2⟩
  show M.bind m f st = _
  unfold M.bind
  rw [h1]

theorem execs_append (S : Sem ω) (p : String) (b' : List Stmt) : ∀ (b : List Stmt) (ρ : Env) (c : Ctl),
    execs S p (b ++ b') ρ c = (execs S p b ρ c >>= fun r => execs S p b' r.1 r.2) := by
  intro b
  induction b with
  | nil => intro ρ c; rfl
  | cons s b ih =>
    intro ρ c
    cases c with
    | next =>
      rw [List.cons_append, execs, execs]
      simp only [ih]
      funext st
      show M.bind (exec S p s ρ) _ st = M.bind (M.bind (exec S p s ρ) _) _ st
      unfold M.bind
      cases exec S p s ρ st <;> rfl
    | ret vs => cases s <;> simp only [List.cons_append, execs, ih]
    | goto l => cases s <;> simp only [List.cons_append, execs, ih]

theorem dies_execs {S : Sem ω} {p : String} {b b' : List Stmt} {ρ : Env} {e : Stop} {Q : St ω → Prop} {st : St ω}
    (h : wp (execs S p b ρ .next) (fun r s => dies (execs S p b' r.1 r.2) e Q s) st) :
    dies (execs S p (b ++ b') ρ .next) e Q st := by
  rw [execs_append]
  exact dies_bind h

theorem dies_head {S : Sem ω} {p : String} {s : Stmt} {b : List Stmt} {ρ : Env} {e : Stop} {Q : St ω → Prop} {st : St ω}
    (h : dies (exec S p s ρ) e Q st) : dies (execs S p (s :: b) ρ .next) e Q st := by
  rw [execs]
  exact dies_left h

/-- A statement by itself ends. -/
theorem dies_next {S : Sem ω} {p : String} {s : Stmt} {b : List Stmt} {ρ : Env} {e : Stop} {Q : St ω → Prop} {st : St ω}
    (h : wp (exec S p s ρ) (fun r s => dies (execs S p b r.1 r.2) e Q s) st) : dies (execs S p (s :: b) ρ .next) e Q st := by
  rw [execs]
  exact dies_bind h

theorem dies_finally {α : Type} {m : M ω α} {d : M ω Unit} {Q : St ω → Prop} {st : St ω}
    (h : dies m .panic (fun s => wp d (fun _ s => Q s) s) st) : dies (finally' m d) .panic Q st := by
  obtain ⟨s, h1, h2⟩ := h
  rw [wp_iff] at h2
  obtain ⟨_, s', h2, h3⟩ := h2
  refine ⟨s', ?_, h3⟩
  unfold finally'
  rw [h1]
  show M.bind d _ s = _
  unfold M.bind
  rw [h2]
  rfl

theorem dies_body {S : Sem ω} {p : String} {f : Func} {args : List V} {e : Stop} {Q : St ω → Prop} {st : St ω}
    (h : wp (bindParams S.prog p f.args args [[]]) (fun ρ s => wp (bindResults S.prog p f.results ρ) (fun ρ s =>
        dies (execs S p f.body ρ .next) e Q s) s) st) : dies (runBody S p f args) e Q st := by
  unfold runBody
  refine dies_bind (wp_mono h fun ρ s h => ?_)
  exact dies_bind (wp_mono h fun ρ s h => dies_left h)

/-- A function that panics, and then runs what it deferred. -/
theorem dies_callFunc {S : Sem ω} {p : String} {f : Func} {args : List V} {Q : St ω → Prop} {st : St ω}
    (h : dies (runBody S p f args) .panic (fun s => wp (runDefers S s.defers) (fun _ s => Q (s.deferring st.defers)) s)
      (st.deferring [])) : dies (callFunc S p f args) .panic Q st := by
  unfold callFunc
  refine dies_bind ?_
  refine dies_bind (st := st) ?_
  show dies (finally' _ _) _ _ (st.deferring [])
  refine dies_finally (dies_mono h fun s h => ?_)
  simp only [wp_bind]
  exact h

/-- A function in which the process ends. -/
theorem exits_callFunc {S : Sem ω} {p : String} {f : Func} {args : List V} {Q : St ω → Prop} {st : St ω}
    (h : dies (runBody S p f args) .exit Q (st.deferring [])) : dies (callFunc S p f args) .exit Q st := by
  unfold callFunc
  refine dies_bind ?_
  refine dies_bind (st := st) ?_
  obtain ⟨s, h1, h2⟩ := h
  refine ⟨s, ?_, h2⟩
  show finally' _ _ (st.deferring []) = _
  unfold finally'
  rw [h1]

theorem dies_callN {P : Prog} {E : Ext ω} {k : Nat} {key : FKey} {p : String} {f : Func} {args : List V} {e : Stop}
    {Q : St ω → Prop} {st : St ω} (hf : P.find key = some (p, f))
    (h : dies (callFunc ⟨P, callN P E k, E.ext, E.spawn, E.grow, E.loops⟩ p f args) e Q st) :
    dies (callN P E (k + 1) key args) e Q st := by
  simp only [callN, hf]
  exact h

end Verif.Lang
