/-
Linearization of the executions of `Verif.Rpc.Machine`, for handlers that act on the shared state
once.
-/
import Verif.Rpc.MachineInv

namespace Verif.Rpc
open Verif.Xdr Verif.Spec Verif.Props

variable {V W σ α β : Type}

/-- The rest of the computation neither changes the shared state nor depends on it. -/
def Proc.Silent (v : V) : Proc V σ α → Prop
  | .ret _ => True
  | .act u n => (∀ s, u v s = s) ∧ (∀ s s', n v s = n v s') ∧ ∀ s, (n v s).Silent v

/-- The computation consults or changes the shared state in at most one of its actions. -/
def Proc.OneShot (v : V) : Proc V σ α → Prop
  | .ret _ => True
  | .act u n => ((∀ s, u v s = s) ∧ (∀ s s', n v s = n v s') ∧ ∀ s, (n v s).OneShot v) ∨
      ∀ s, (n v s).Silent v

theorem Proc.Silent.run {v : V} : ∀ {p : Proc V σ α}, p.Silent v → ∀ s₀, ∀ s, p.run v s = (s, (p.run v s₀).2)
  | .ret a, _, _, s => rfl
  | .act u n, h, s₀, s => by
    simp only [Proc.run, h.1]
    rw [h.2.1 s₀ s]
    exact (h.2.2 s).run s₀ s

theorem Proc.Silent.oneShot {v : V} : ∀ {p : Proc V σ α}, p.Silent v → p.OneShot v
  | .ret _, _ => trivial
  | .act _ _, h => .inl ⟨h.1, h.2.1, fun s => (h.2.2 s).oneShot⟩

theorem Proc.Silent.bind {v : V} {f : α → Proc V σ β} (hf : ∀ a, (f a).Silent v) :
    ∀ {p : Proc V σ α}, p.Silent v → (p.bind f).Silent v
  | .ret a, _ => hf a
  | .act u n, h => ⟨h.1, fun s s' => by dsimp only; rw [h.2.1 s s'], fun s => Silent.bind hf (h.2.2 s)⟩

theorem Proc.OneShot.bind {v : V} {f : α → Proc V σ β} (hf : ∀ a, (f a).Silent v) :
    ∀ {p : Proc V σ α}, p.OneShot v → (p.bind f).OneShot v
  | .ret a, _ => (hf a).oneShot
  | .act u n, .inl h => .inl ⟨h.1, fun s s' => by dsimp only; rw [h.2.1 s s'], fun s => OneShot.bind hf (h.2.2 s)⟩
  | .act u n, .inr h => .inr fun s => Silent.bind hf (h s)

theorem Proc.Silent.comap {v : V} {f : V → W} : ∀ {p : Proc W σ α}, p.Silent (f v) → (p.comap f).Silent v
  | .ret _, _ => trivial
  | .act u n, h => ⟨h.1, fun s s' => by dsimp only; rw [h.2.1 s s'], fun s => Silent.comap (h.2.2 s)⟩

theorem Proc.OneShot.comap {v : V} {f : V → W} : ∀ {p : Proc W σ α}, p.OneShot (f v) → (p.comap f).OneShot v
  | .ret _, _ => trivial
  | .act u n, .inl h => .inl ⟨h.1, fun s s' => by dsimp only; rw [h.2.1 s s'], fun s => OneShot.comap (h.2.2 s)⟩
  | .act u n, .inr h => .inr fun s => Silent.comap (h s)

/-- All handlers of a table act on the shared state at most once per call. -/
def Handlers.OneShot (hs : Handlers σ) : Prop :=
  ∀ p v c h, hs.lookup p v c = some h → ∀ rd, Proc.OneShot rd h

theorem handleReqErr_oneShot {hs : Handlers σ} (h : hs.OneShot) (buf : List UInt8) :
    (handleReqErr hs).OneShot buf := by
  refine .inl ⟨fun _ => rfl, fun _ _ => rfl, fun s => ?_⟩
  dsimp only
  generalize hr : RpcMsg.zero.xdr (makeReader buf) = rr
  obtain ⟨rd, req⟩ := rr
  dsimp only
  split
  · trivial
  split
  · trivial
  split
  · trivial
  split
  · trivial
  next vermap hp =>
  split
  · trivial
  next procmap hv =>
  split
  · trivial
  next hd hc =>
  refine Proc.OneShot.bind (fun a => ?_) (Proc.OneShot.comap (h req.cbody.prog req.cbody.vers req.cbody.proc hd ?_ _))
  · split <;> trivial
  · simp only [Handlers.lookup, Handlers.vers, hp, hv, hc, Option.bind_some]

/-- The requests of the goroutines `o`, processed one after the other with these outcomes, take the
shared state from `s` to `s'`. -/
inductive Serial (hs : Nat → Handlers σ) (jobs : List (Job σ)) : σ → List (Nat × Outcome) → σ → Prop
  | nil (s : σ) : Serial hs jobs s [] s
  | cons {s s' s'' : σ} {j : Nat} {J : Job σ} {r : Outcome} {o : List (Nat × Outcome)} :
      jobs[j]? = some J → (handleReqErr (hs J.conn)).run J.req s = (s', r) →
      Serial hs jobs s' o s'' → Serial hs jobs s ((j, r) :: o) s''

variable {hs : Nat → Handlers σ} {whole : Bool}

theorem Serial.snoc {jobs : List (Job σ)} {s s' s'' : σ} {o : List (Nat × Outcome)} {j : Nat} {J : Job σ}
    {r : Outcome} (h : Serial hs jobs s o s') (hj : jobs[j]? = some J)
    (hr : (handleReqErr (hs J.conn)).run J.req s' = (s'', r)) : Serial hs jobs s (o ++ [(j, r)]) s'' := by
  induction h with
  | nil s => exact .cons hj hr (.nil _)
  | cons h1 h2 _ ih => exact .cons h1 h2 (ih hr)

theorem Serial.congr {jobs jobs' : List (Job σ)} {s s' : σ} {o : List (Nat × Outcome)}
    (h : Serial hs jobs s o s')
    (hj : ∀ (j : Nat) J, jobs[j]? = some J → ∃ J', jobs'[j]? = some J' ∧ J'.conn = J.conn ∧ J'.req = J.req) :
    Serial hs jobs' s o s' := by
  induction h with
  | nil s => exact .nil s
  | cons h1 h2 _ ih =>
    obtain ⟨J', g1, g2, g3⟩ := hj _ _ h1
    exact .cons g1 (by rw [g2, g3]; exact h2) ih

/-- `o` is a linearization of the execution that led to `m`. -/
structure Lin (hs : Nat → Handlers σ) (s₀ : σ) (m : Machine σ) (o : List (Nat × Outcome)) : Prop where
  nodup : (o.map (·.1)).Nodup
  serial : Serial hs m.jobs s₀ o m.st
  res : ∀ (j : Nat) J r, m.jobs[j]? = some J → J.res = some r → (j, r) ∈ o
  running : ∀ (j : Nat) J p, m.jobs[j]? = some J → J.phase = .running p →
    (∃ r, (j, r) ∈ o ∧ p.Silent J.req ∧ ∀ s, (p.run J.req s).2 = r) ∨
    (j ∉ o.map (·.1) ∧ p.OneShot J.req ∧ ∀ s, p.run J.req s = (handleReqErr (hs J.conn)).run J.req s)
  lt : ∀ j ∈ o.map (·.1), j < m.jobs.length

/-- A goroutine is replaced by one with the same request, that is no longer at an earlier point. -/
private theorem Lin.set {s₀ : σ} {m m1 : Machine σ} {o : List (Nat × Outcome)} (h : Lin hs s₀ m o) {j : Nat}
    {J J' : Job σ} (hj : m.jobs[j]? = some J) (hm : m1.jobs = m.jobs) (hst : m1.st = m.st)
    (hc : J'.conn = J.conn) (hr : J'.req = J.req)
    (hres : ∀ r, J'.res = some r → (j, r) ∈ o)
    (hp : ∀ p, J'.phase = .running p →
      (∃ r, (j, r) ∈ o ∧ p.Silent J.req ∧ ∀ s, (p.run J.req s).2 = r) ∨
      (j ∉ o.map (·.1) ∧ p.OneShot J.req ∧ ∀ s, p.run J.req s = (handleReqErr (hs J.conn)).run J.req s)) :
    Lin hs s₀ (m1.setJob j J') o := by
  have hlt : j < m.jobs.length := (List.getElem?_eq_some_iff.mp hj).1
  refine ⟨h.nodup, ?_, fun j' J'' r hj' hr' => ?_, fun j' J'' p hj' hp' => ?_, fun j' hj' => ?_⟩
  · show Serial hs (m1.jobs.set j J') s₀ o m1.st
    rw [hst, hm]
    refine h.serial.congr fun j' J'' hj' => ?_
    by_cases e : j = j'
    · subst e
      rw [hj] at hj'; cases hj'
      exact ⟨J', by simp [hlt], hc, hr⟩
    · exact ⟨J'', by rw [List.getElem?_set_ne e]; exact hj', rfl, rfl⟩
  · rcases setJob_jobs hj' with ⟨rfl, rfl⟩ | ⟨_, hj'⟩
    · exact hres r hr'
    · exact h.res j' J'' r (hm ▸ hj') hr'
  · rcases setJob_jobs hj' with ⟨rfl, rfl⟩ | ⟨_, hj'⟩
    · rw [hr, hc]; exact hp p hp'
    · exact h.running j' J'' p (hm ▸ hj') hp'
  · show j' < (m1.jobs.set j J').length
    rw [hm, List.length_set]; exact h.lt j' hj'

/-- A goroutine reaches its place in the linearization. -/
private theorem Lin.commit {s₀ : σ} {m m1 : Machine σ} {o : List (Nat × Outcome)} (h : Lin hs s₀ m o) {j : Nat}
    {J J' : Job σ} {r : Outcome} (hj : m.jobs[j]? = some J) (hm : m1.jobs = m.jobs)
    (hc : J'.conn = J.conn) (hr : J'.req = J.req) (hnot : j ∉ o.map (·.1))
    (hrun : (handleReqErr (hs J.conn)).run J.req m.st = (m1.st, r))
    (hres : ∀ r', J'.res = some r' → r' = r)
    (hp : ∀ p, J'.phase = .running p → p.Silent J.req ∧ ∀ s, (p.run J.req s).2 = r) :
    Lin hs s₀ (m1.setJob j J') (o ++ [(j, r)]) := by
  have hlt : j < m.jobs.length := (List.getElem?_eq_some_iff.mp hj).1
  refine ⟨?_, ?_, fun j' J'' r' hj' hr' => ?_, fun j' J'' p hj' hp' => ?_, fun j' hj' => ?_⟩
  · rw [List.map_append, List.nodup_append]
    refine ⟨h.nodup, by simp, fun a ha b hb => ?_⟩
    rw [List.mem_singleton.mp hb]
    exact fun e : a = j => hnot (e ▸ ha)
  · show Serial hs (m1.jobs.set j J') s₀ _ m1.st
    rw [hm]
    have hcongr : ∀ (j' : Nat) J'', m.jobs[j']? = some J'' →
        ∃ J1, (m.jobs.set j J')[j']? = some J1 ∧ J1.conn = J''.conn ∧ J1.req = J''.req := by
      intro j' J'' hj'
      by_cases e : j = j'
      · subst e
        rw [hj] at hj'; cases hj'
        exact ⟨J', by simp [hlt], hc, hr⟩
      · exact ⟨J'', by rw [List.getElem?_set_ne e]; exact hj', rfl, rfl⟩
    exact (h.serial.snoc hj hrun).congr hcongr
  · rcases setJob_jobs hj' with ⟨rfl, rfl⟩ | ⟨_, hj'⟩
    · rw [hres r' hr']; simp
    · exact List.mem_append_left _ (h.res j' J'' r' (hm ▸ hj') hr')
  · rcases setJob_jobs hj' with ⟨rfl, rfl⟩ | ⟨hne, hj'⟩
    · rw [hr]
      exact .inl ⟨r, by simp, hp p hp'⟩
    · rcases h.running j' J'' p (hm ▸ hj') hp' with ⟨r', g1, g2⟩ | ⟨g1, g2⟩
      · exact .inl ⟨r', List.mem_append_left _ g1, g2⟩
      · refine .inr ⟨?_, g2⟩
        rw [List.map_append, List.mem_append]
        rintro (h | h)
        · exact g1 h
        · exact hne (by simpa using h)
  · show j' < (m1.jobs.set j J').length
    rw [hm, List.length_set]
    rw [List.map_append, List.mem_append] at hj'
    rcases hj' with h' | h'
    · exact h.lt j' h'
    · rw [show j' = j by simpa using h']; exact hlt

theorem step_lin (hone : ∀ k, (hs k).OneShot) {s₀ : σ} {m m' : Machine σ} {o : List (Nat × Outcome)}
    (ho : ∃ o, Owns m o) (hcomp : ∀ (j : Nat) J, m.jobs[j]? = some J → Computes hs whole J)
    (h : Lin hs s₀ m o) (hs' : Step hs whole m m') : ∃ o', Lin hs s₀ m' (o ++ o') := by
  have keep : ∀ {m1 : Machine σ}, m1.jobs = m.jobs → m1.st = m.st → ∃ o', Lin hs s₀ m1 (o ++ o') := by
    intro m1 h1 h2
    refine ⟨[], ?_⟩
    rw [List.append_nil]
    exact ⟨h.nodup, by rw [h1, h2]; exact h.serial, by rw [h1]; exact h.res, by rw [h1]; exact h.running,
      by rw [h1]; exact h.lt⟩
  cases hs' with
  | readHeader => exact keep rfl rfl
  | readBody => exact keep rfl rfl
  | eofHeader => exact keep rfl rfl
  | eofBody => exact keep rfl rfl
  | fragment => exact keep rfl rfl
  | buf k choice got hp h1 h2 =>
    obtain ⟨_, g2, g3, _⟩ := getReqBuf_conns m choice (getU32 got &&& 0x7fffffff).toNat
    exact keep g2 g3
  | spawn k b got hp h1 =>
    refine ⟨[], ?_⟩
    rw [List.append_nil]
    refine ⟨h.nodup, ?_, fun j J r hj hr => ?_, fun j J p hj hp => ?_, fun j hj => ?_⟩
    · refine h.serial.congr fun j J hj => ⟨J, ?_, rfl, rfl⟩
      exact List.getElem?_append_left (List.getElem?_eq_some_iff.mp hj).1 |>.trans hj
    · rcases append_jobs hj with hj | ⟨rfl, rfl⟩
      · exact h.res j J r hj hr
      · cases hr
    · rcases append_jobs hj with hj | ⟨rfl, rfl⟩
      · exact h.running j J p hj hp
      · cases hp
        refine .inr ⟨fun hm => ?_, handleReqErr_oneShot (hone k) _, fun s => rfl⟩
        exact absurd (h.lt _ hm) (by omega)
    · have := h.lt j hj
      show j < (m.jobs ++ _).length
      rw [List.length_append]; omega
  | act j J u n hj hp =>
    obtain ⟨ow, ho⟩ := ho
    obtain ⟨_, _, _, hlive⟩ := ho.job j J hj (by rw [hp]; rfl)
    rw [hlive]
    obtain ⟨_, hc⟩ := hcomp j J hj
    rw [hp] at hc
    rcases h.running j J _ hj hp with ⟨r, g1, g2, g3⟩ | ⟨g1, g2, g3⟩
    · refine ⟨[], ?_⟩
      rw [List.append_nil]
      refine h.set (J := J) hj rfl (g2.1 m.st) rfl rfl (fun r hr => ?_) fun p hp' => .inl ?_
      · exact h.res j J r hj hr
      · cases hp'
        refine ⟨r, g1, g2.2.2 m.st, fun s => ?_⟩
        have := g3 s
        simp only [Proc.run, g2.1] at this
        rw [g2.2.1 m.st s]; exact this
    · rcases g2 with ⟨f1, f2, f3⟩ | f
      · refine ⟨[], ?_⟩
        rw [List.append_nil]
        refine h.set (J := J) hj rfl (f1 m.st) rfl rfl (fun r hr => ?_) fun p hp' => .inr ?_
        · exact h.res j J r hj hr
        · cases hp'
          refine ⟨g1, f3 m.st, fun s => ?_⟩
          have := g3 s
          simp only [Proc.run, f1] at this
          rw [f2 m.st s]; exact this
      · refine ⟨[(j, ((n J.req m.st).run J.req m.st).2)], ?_⟩
        refine h.commit (J := J) hj rfl rfl rfl g1 ?_ (fun r' hr' => ?_) fun p hp' => ?_
        · rw [← g3 m.st, Proc.run]
          exact (f m.st).run m.st _
        · have : J.res = some r' := hr'
          rw [hc.1] at this; cases this
        · cases hp'
          refine ⟨f m.st, fun s => ?_⟩
          rw [(f m.st).run m.st s]
  | retOk j J w hj hp =>
    rcases h.running j J _ hj hp with ⟨r, g1, g2, g3⟩ | ⟨g1, g2, g3⟩
    · refine ⟨[], ?_⟩
      rw [List.append_nil]
      refine h.set (J := J) hj rfl rfl rfl rfl (fun r' hr => ?_) fun p hp' => by cases hp'
      cases hr
      rw [show (Except.ok w : Outcome) = r from g3 m.st]; exact g1
    · refine ⟨[(j, .ok w)], ?_⟩
      refine h.commit (J := J) hj rfl rfl rfl g1 (g3 m.st).symm (fun r' hr' => ?_) fun p hp' => by cases hp'
      cases hr'; rfl
  | retErr j J e hj hp =>
    rcases h.running j J _ hj hp with ⟨r, g1, g2, g3⟩ | ⟨g1, g2, g3⟩
    · refine ⟨[], ?_⟩
      rw [List.append_nil]
      refine h.set (J := J) hj rfl rfl rfl rfl (fun r' hr => ?_) fun p hp' => by cases hp'
      cases hr
      rw [show (Except.error e : Outcome) = r from g3 m.st]; exact g1
    · refine ⟨[(j, .error e)], ?_⟩
      refine h.commit (J := J) hj rfl rfl rfl g1 (g3 m.st).symm (fun r' hr' => ?_) fun p hp' => by cases hp'
      cases hr'; rfl
  | write j n J rest hj hp h1 h2 h3 =>
    refine ⟨[], ?_⟩
    rw [List.append_nil]
    refine h.set (J := J) hj rfl rfl rfl rfl (fun r hr => h.res j J r hj hr) fun p hp' => ?_
    dsimp only at hp'
    split at hp' <;> cases hp'
  | fail j n J rest hj hp h1 h2 =>
    refine ⟨[], ?_⟩
    rw [List.append_nil]
    refine h.set (J := J) hj rfl rfl rfl rfl (fun r hr => h.res j J r hj hr) fun p hp' => by cases hp'
  | put j J hj hp =>
    refine ⟨[], ?_⟩
    rw [List.append_nil]
    refine h.set (J := J) hj rfl rfl rfl rfl (fun r hr => h.res j J r hj hr) fun p hp' => by cases hp'
  | drop => exact keep rfl rfl

theorem exec_lin (hone : ∀ k, (hs k).OneShot) {s₀ : σ} (as : List Act) {m m' : Machine σ}
    {o : List (Nat × Outcome)} (ho : ∃ o, Owns m o)
    (hcomp : ∀ (j : Nat) J, m.jobs[j]? = some J → Computes hs whole J) (h : Lin hs s₀ m o)
    (he : exec hs whole m as = some m') : ∃ o', Lin hs s₀ m' (o ++ o') := by
  induction as generalizing m o with
  | nil => cases he; exact ⟨[], by simpa using h⟩
  | cons a as ih =>
    simp only [exec] at he
    cases hm : step hs whole m a with
    | none => rw [hm] at he; cases he
    | some m1 =>
      rw [hm] at he
      have hst := step_sound hm
      obtain ⟨o1, h1⟩ := step_lin hone ho hcomp h hst
      obtain ⟨o2, h2⟩ := ih (step_owns ho hst) (step_computes ho hcomp hst) h1 he
      exact ⟨o1 ++ o2, by rw [← List.append_assoc]; exact h2⟩

theorem start_lin (inp : Nat → List UInt8) (s₀ : σ) : Lin hs s₀ (start inp s₀) [] :=
  ⟨by simp, .nil _, by simp [start], by simp [start], by simp⟩

end Verif.Rpc
