/-
Invariants of the executions of `Verif.Rpc.Machine`: what the readers have read, what the goroutines
compute, what has been written.
-/
import Verif.Rpc.MachineLemmas
import Verif.Props.Stream

namespace Verif.Rpc
open Verif.Xdr Verif.Spec Verif.Props

variable {σ : Type} {hs : Nat → Handlers σ} {whole : Bool}

/-! ### Reading -/

/-- The requests that were read from connection `k`, in order. -/
def reqsOf (m : Machine σ) (k : Nat) : List (List UInt8) :=
  (m.jobs.filter fun J => J.conn == k).map Job.req

/-- `b` starts with the records `ms`, followed by `rest`. -/
def After (b : List UInt8) (ms : List (List UInt8)) (rest : List UInt8) : Prop :=
  (∀ m ∈ ms, m.length < 2 ^ 31) ∧ b = (ms.map fun m => be 4 (2 ^ 31 + m.length) ++ m).flatten ++ rest

theorem After.snoc {b : List UInt8} {ms : List (List UInt8)} {m rest : List UInt8}
    (h : After b ms (be 4 (2 ^ 31 + m.length) ++ m ++ rest)) (hm : m.length < 2 ^ 31) :
    After b (ms ++ [m]) rest := by
  refine ⟨fun x hx => ?_, ?_⟩
  · rcases List.mem_append.mp hx with hx | hx
    · exact h.1 x hx
    · rw [List.mem_singleton.mp hx]; exact hm
  · rw [h.2]; simp

theorem After.stream {b : List UInt8} {ms ms' : List (List UInt8)} {rest : List UInt8} {e : StreamEnd}
    (h : After b ms rest) (hs : Stream rest ms' e) : Stream b (ms ++ ms') e := by
  induction ms generalizing b with
  | nil => rw [h.2]; simpa using hs
  | cons m ms ih =>
    have hm := h.1 m (List.mem_cons_self ..)
    rw [h.2, List.map_cons, List.flatten_cons, List.append_assoc]
    exact .record m _ _ _ _ ⟨hm, rfl⟩ (ih ⟨fun x hx => h.1 x (List.mem_cons_of_mem _ hx), rfl⟩)

/-- The reader of connection `k` has read the requests of the goroutines it has started, and what its
phase says. -/
def Reading (inp : List UInt8) (reqs : List (List UInt8)) (c : Conn) : Prop :=
  match c.phase with
  | .header got => got.length ≤ 4 ∧ After inp reqs (got ++ c.input)
  | .body b got => b.len < 2 ^ 31 ∧ got.length ≤ b.len ∧
      After inp reqs (be 4 (2 ^ 31 + b.len) ++ (got ++ c.input))
  | .stopped e => ∃ rest e', After inp reqs rest ∧ Stream rest [] e' ∧ Reported e' e

theorem map_set_self {α β : Type} {f : α → β} {l : List α} {j : Nat} {a b : α} (h : l[j]? = some a)
    (hf : f b = f a) : (l.set j b).map f = l.map f := by
  apply List.ext_getElem?
  intro i
  simp only [List.getElem?_map, List.getElem?_set]
  split
  · next e =>
    subst e
    have hlt : j < l.length := (List.getElem?_eq_some_iff.mp h).1
    have h' : l[j] = a := by rw [List.getElem?_eq_getElem hlt] at h; exact Option.some.inj h
    simp [hlt, h', hf]
  · rfl

theorem reqsOf_eq (m : Machine σ) (k : Nat) :
    reqsOf m k = ((m.jobs.map fun J => (J.conn, J.req)).filter (·.1 == k)).map (·.2) := by
  rw [reqsOf, List.filter_map, List.map_map]; rfl

theorem reqsOf_setJob {m : Machine σ} {j : Nat} {J J' : Job σ} (h : m.jobs[j]? = some J)
    (hc : J'.conn = J.conn) (hr : J'.req = J.req) (k : Nat) : reqsOf (m.setJob j J') k = reqsOf m k := by
  rw [reqsOf_eq, reqsOf_eq, Machine.setJob, map_set_self h (by rw [hc, hr])]

theorem getReqBuf_conns (m : Machine σ) (choice : Option Nat) (n : Nat) :
    (getReqBuf m choice n).1.conns = m.conns ∧ (getReqBuf m choice n).1.jobs = m.jobs ∧
      (getReqBuf m choice n).1.st = m.st ∧ (getReqBuf m choice n).2.len = n := by
  unfold getReqBuf
  split
  · dsimp only; split <;> exact ⟨rfl, rfl, rfl, rfl⟩
  · exact ⟨rfl, rfl, rfl, rfl⟩

private theorem reported_full {got : List UInt8} (n : Nat) (hn : n < 2 ^ 31) (hl : got.length < n) :
    ∃ e', Stream (be 4 (2 ^ 31 + n) ++ got) [] e' ∧ Reported e' (fullErr got) := by
  refine ⟨_, .shortBody n got hn hl, ?_⟩
  unfold fullErr
  cases got.isEmpty
  · exact .inl rfl
  · exact .inr rfl

private theorem reported_short {got : List UInt8} (hl : got.length < 4) :
    ∃ e', Stream got [] e' ∧ Reported e' (fullErr got) := by
  cases hg : got with
  | nil => exact ⟨_, .clean, rfl⟩
  | cons x l => subst hg; exact ⟨_, .short _ (by simp) hl, .inl rfl⟩

theorem step_reading {inp : Nat → List UInt8} {m m' : Machine σ}
    (h : ∀ k, Reading (inp k) (reqsOf m k) (m.conns k)) (hs' : Step hs whole m m') :
    ∀ k, Reading (inp k) (reqsOf m' k) (m'.conns k) := by
  have other : ∀ (k : Nat) (c : Conn), Reading (inp k) (reqsOf m k) c → ∀ k',
      Reading (inp k') (reqsOf m k') ((m.setConn k c).conns k') := by
    intro k c hc k'
    rw [setConn_conns]
    split
    · next e => subst e; exact hc
    · exact h k'
  cases hs' with
  | readHeader k n got hp h1 h2 h3 =>
    refine other k _ ?_
    have := h k
    rw [Reading, hp] at this
    refine ⟨by simp; omega, ?_⟩
    dsimp only
    rw [List.append_assoc, List.take_append_drop]; exact this.2
  | readBody k n b got hp h1 h2 h3 =>
    refine other k _ ?_
    have := h k
    rw [Reading, hp] at this
    refine ⟨this.1, by simp; omega, ?_⟩
    dsimp only
    rw [List.append_assoc, List.take_append_drop]; exact this.2.2
  | eofHeader k got hp h1 h2 =>
    refine other k _ ?_
    have := h k
    rw [Reading, hp] at this
    dsimp only at this
    rw [h2, List.append_nil] at this
    obtain ⟨e', g1, g2⟩ := reported_short h1
    exact ⟨_, e', this.2, g1, g2⟩
  | eofBody k b got hp h1 h2 =>
    refine other k _ ?_
    have := h k
    rw [Reading, hp] at this
    dsimp only at this
    rw [h2, List.append_nil] at this
    obtain ⟨e', g1, g2⟩ := reported_full b.len this.1 h1
    exact ⟨_, e', this.2.2, g1, g2⟩
  | fragment k got hp h1 h2 =>
    refine other k _ ?_
    have := h k
    rw [Reading, hp] at this
    have hpb : got = be 4 (beVal got) := by rw [← h1, be_beVal]
    have hlt : beVal got < 2 ^ 32 := by have := beVal_lt got; rw [h1] at this; omega
    rw [hpb, getU32_be, mark_bit hlt] at h2
    rw [hpb] at this
    exact ⟨_, _, this.2, .fragment _ _ h2, rfl⟩
  | buf k choice got hp h1 h2 =>
    obtain ⟨g1, g2, _, g3⟩ := getReqBuf_conns m choice (getU32 got &&& 0x7fffffff).toNat
    intro k'
    have hr : ∀ k, reqsOf ((getReqBuf m choice (getU32 got &&& 0x7fffffff).toNat).1.setConn k'
        (m.conns k')) k = reqsOf m k := fun k => by rw [reqsOf, reqsOf]; simp only [Machine.setConn, g2]
    rw [setConn_conns]
    have hr' : reqsOf ((getReqBuf m choice (getU32 got &&& 0x7fffffff).toNat).1.setConn k
        { m.conns k with phase := .body (getReqBuf m choice (getU32 got &&& 0x7fffffff).toNat).2 [] }) k' =
        reqsOf m k' := by rw [reqsOf, reqsOf]; simp only [Machine.setConn, g2]
    rw [hr']
    split
    · next e =>
      subst e
      have := h k'
      rw [Reading, hp] at this
      have hpb : got = be 4 (beVal got) := by rw [← h1, be_beVal]
      have hlt : beVal got < 2 ^ 32 := by have := beVal_lt got; rw [h1] at this; omega
      have h2' : ¬ beVal got < 2 ^ 31 := by
        intro hx; rw [hpb, getU32_be] at h2; exact h2 ((mark_bit hlt).mpr hx)
      have h3 : (getU32 got &&& 0x7fffffff).toNat = beVal got - 2 ^ 31 := by
        rw [hpb, getU32_be, mark_len hlt, ← hpb]; omega
      refine ⟨by rw [g3, h3]; omega, by simp, ?_⟩
      rw [g3, h3, show 2 ^ 31 + (beVal got - 2 ^ 31) = beVal got by omega, ← hpb]
      exact this.2
    · rw [g1]; exact h k'
  | spawn k b got hp h1 =>
    intro k'
    rw [setConn_conns]
    have := h k
    rw [Reading, hp] at this
    by_cases e : k' = k
    · subst e
      have hr : reqsOf ({ m with jobs := m.jobs ++
          [{ conn := k', buf := b, phase := .running (handleReqErr (hs k')), req := got, res := none }] :
          Machine σ }.setConn k' { m.conns k' with phase := .header [] }) k' = reqsOf m k' ++ [got] := by
        simp [reqsOf, Machine.setConn]
      rw [if_pos rfl, hr]
      refine ⟨by simp, ?_⟩
      apply After.snoc
      · rw [h1]; simpa using this.2.2
      · omega
    · have hr : reqsOf ({ m with jobs := m.jobs ++
          [{ conn := k, buf := b, phase := .running (handleReqErr (hs k)), req := got, res := none }] :
          Machine σ }.setConn k { m.conns k with phase := .header [] }) k' = reqsOf m k' := by
        have : ¬ k = k' := fun h => e h.symm
        simp [reqsOf, Machine.setConn, this]
      rw [if_neg e, hr]
      exact h k'
  | act j J u n hj hp =>
    intro k
    rw [reqsOf_setJob (J := J)]
    · exact h k
    · exact hj
    · rfl
    · rfl
  | retOk j J w hj hp =>
    intro k
    rw [reqsOf_setJob (J := J)]
    · exact h k
    · exact hj
    · rfl
    · rfl
  | retErr j J e hj hp =>
    intro k
    rw [reqsOf_setJob (J := J)]
    · exact h k
    · exact hj
    · rfl
    · rfl
  | write j n J rest hj hp h1 h2 h3 =>
    intro k
    rw [reqsOf_setJob (J := J)]
    · exact other J.conn { m.conns J.conn with output := (m.conns J.conn).output ++ rest.take n }
        (by have := h J.conn; exact this) k
    · exact hj
    · rfl
    · rfl
  | fail j n J rest hj hp h1 h2 =>
    intro k
    rw [reqsOf_setJob (J := J)]
    · exact other J.conn { m.conns J.conn with output := (m.conns J.conn).output ++ rest.take n, broken := true }
        (by have := h J.conn; exact this) k
    · exact hj
    · rfl
    · rfl
  | put j J hj hp =>
    intro k
    rw [reqsOf_setJob (J := J)]
    · exact h k
    · exact hj
    · rfl
    · rfl
  | drop i => exact h

theorem exec_reading {inp : Nat → List UInt8} {s : σ} {as : List Act} {m : Machine σ}
    (h : exec hs whole (start inp s) as = some m) (k : Nat) : Reading (inp k) (reqsOf m k) (m.conns k) := by
  refine exec_inv (P := fun m => ∀ k, Reading (inp k) (reqsOf m k) (m.conns k))
    (fun m a m' h h' => step_reading h (step_sound h')) as _ _ ?_ h k
  intro k
  exact ⟨by simp, by simp [reqsOf, start], by simp [reqsOf, start]⟩

/-! ### Computing -/

/-- `p.Yields v a`: the computation `p` on the memory `v` may end with `a`, for some behaviour of
the other users of the shared state. -/
inductive Proc.Yields {V σ α : Type} : Proc V σ α → V → α → Prop
  | ret (a : α) (v : V) : Yields (.ret a) v a
  | act {u : V → σ → σ} {n : V → σ → Proc V σ α} {v : V} (s : σ) {a : α} :
      Yields (n v s) v a → Yields (.act u n) v a

/-- Has the goroutine left `handleReqErr`? -/
def JobPhase.finished : JobPhase σ → Bool
  | .returning => true
  | .done => true
  | _ => false

/-- The goroutine `J` computes a possible outcome for its request. -/
def Computes (hs : Nat → Handlers σ) (whole : Bool) (J : Job σ) : Prop :=
  (∀ r, J.res = some r → (handleReqErr (hs J.conn)).Yields J.req r) ∧
  match J.phase with
  | .running p => J.res = none ∧ ∀ r, p.Yields J.req r → (handleReqErr (hs J.conn)).Yields J.req r
  | .writing rest => ∃ w, J.res = some (.ok w) ∧ (whole = true → rest = w)
  | _ => J.res.isSome = true

theorem step_computes {m m' : Machine σ} (ho : ∃ o, Owns m o)
    (h : ∀ (j : Nat) J, m.jobs[j]? = some J → Computes hs whole J) (hs' : Step hs whole m m') :
    ∀ (j : Nat) J, m'.jobs[j]? = some J → Computes hs whole J := by
  have set : ∀ {m1 : Machine σ} (j : Nat) (J : Job σ), m1.jobs = m.jobs → Computes hs whole J →
      ∀ (j' : Nat) J', (m1.setJob j J).jobs[j']? = some J' → Computes hs whole J' := by
    intro m1 j J hm hJ j' J' hj'
    rcases setJob_jobs hj' with ⟨rfl, rfl⟩ | ⟨_, hj'⟩
    · exact hJ
    · exact h j' J' (hm ▸ hj')
  cases hs' with
  | readHeader => exact h
  | readBody => exact h
  | eofHeader => exact h
  | eofBody => exact h
  | fragment => exact h
  | buf k choice got hp h1 h2 =>
    intro j J hj
    rw [show ((getReqBuf m choice (getU32 got &&& 0x7fffffff).toNat).1.setConn k _).jobs = m.jobs from
      (getReqBuf_conns m choice _).2.1] at hj
    exact h j J hj
  | spawn k b got hp h1 =>
    intro j J hj
    rcases append_jobs hj with hj | ⟨rfl, rfl⟩
    · exact h j J hj
    · exact ⟨by simp, rfl, fun r hr => hr⟩
  | act j J u n hj hp =>
    obtain ⟨o, ho⟩ := ho
    obtain ⟨_, _, _, hlive⟩ := ho.job j J hj (by rw [hp]; rfl)
    refine set j _ (by rfl) ?_
    obtain ⟨h1, h2⟩ := h j J hj
    rw [hp] at h2
    refine ⟨h1, h2.1, fun r hr => h2.2 r ?_⟩
    dsimp only at hr
    rw [hlive] at hr
    exact .act _ hr
  | retOk j J w hj hp =>
    refine set j _ (by rfl) ?_
    obtain ⟨h1, h2⟩ := h j J hj
    rw [hp] at h2
    have hw := h2.2 _ (.ret _ _)
    exact ⟨fun r hr => by cases hr; exact hw, w, rfl, fun _ => rfl⟩
  | retErr j J e hj hp =>
    refine set j _ (by rfl) ?_
    obtain ⟨h1, h2⟩ := h j J hj
    rw [hp] at h2
    have hw := h2.2 _ (.ret _ _)
    exact ⟨fun r hr => by cases hr; exact hw, rfl⟩
  | write j n J rest hj hp h1 h2 h3 =>
    refine set j _ (by rfl) ?_
    obtain ⟨g1, g2⟩ := h j J hj
    rw [hp] at g2
    obtain ⟨w, g2, g3⟩ := g2
    refine ⟨g1, ?_⟩
    by_cases hn : n = rest.length
    · simp only [hn, if_true]; rw [g2]; rfl
    · simp only [hn, if_false]
      exact ⟨w, g2, fun hw => absurd (h3 hw) hn⟩
  | fail j n J rest hj hp h1 h2 =>
    refine set j _ (by rfl) ?_
    obtain ⟨g1, g2⟩ := h j J hj
    rw [hp] at g2
    obtain ⟨w, g2, g3⟩ := g2
    refine ⟨g1, ?_⟩
    dsimp only; rw [g2]; rfl
  | put j J hj hp =>
    refine set j _ (by rfl) ?_
    obtain ⟨g1, g2⟩ := h j J hj
    rw [hp] at g2
    exact ⟨g1, g2⟩
  | drop => exact h

theorem exec_computes {inp : Nat → List UInt8} {s : σ} {as : List Act} {m : Machine σ}
    (h : exec hs whole (start inp s) as = some m) : ∀ (j : Nat) J, m.jobs[j]? = some J →
    Computes hs whole J := by
  have := exec_inv (hs := hs) (whole := whole)
    (P := fun m => (∃ o, Owns m o) ∧ ∀ (j : Nat) J, m.jobs[j]? = some J → Computes hs whole J)
    (fun m a m' h h' => ⟨step_owns h.1 (step_sound h'), step_computes h.1 h.2 (step_sound h')⟩) as _ _ ?_ h
  · exact this.2
  · exact ⟨exec_owns (hs := hs) (whole := whole) (as := []) rfl, fun j J hj => by simp [start] at hj⟩

/-! ### Writing -/

/-- What matters of the goroutines: connection, outcome, finished. -/
def Machine.view (m : Machine σ) : List (Nat × Option Outcome × Bool) :=
  m.jobs.map fun J => (J.conn, J.res, J.phase.finished)

theorem view_get (m : Machine σ) (j : Nat) :
    m.view[j]? = (m.jobs[j]?).map fun J => (J.conn, J.res, J.phase.finished) := by
  rw [Machine.view, List.getElem?_map]

/-- The record written by goroutine `j`. -/
def replyAt (l : List (Nat × Option Outcome × Bool)) (j : Nat) : List UInt8 :=
  match l[j]? with
  | some (_, some (.ok w), _) => w
  | _ => []

/-- `output` is what the goroutines `order` of connection `k` have written, one after the other, and
`tail`, a part of what another one failed to write. -/
structure Wrote (l : List (Nat × Option Outcome × Bool)) (k : Nat) (output : List UInt8) (broken : Bool)
    (order : List Nat) (tail : List UInt8) : Prop where
  nodup : order.Nodup
  mem : ∀ j ∈ order, ∃ w, l[j]? = some (k, some (.ok w), true)
  out : output = (order.map (replyAt l)).flatten ++ tail
  good : broken = false → tail = [] ∧ ∀ j w, l[j]? = some (k, some (.ok w), true) → j ∈ order
  bad : broken = true → tail = [] ∨ ∃ j w, l[j]? = some (k, some (.ok w), true) ∧ j ∉ order ∧ tail <+: w

theorem Wrote.congr {l l' : List (Nat × Option Outcome × Bool)} {k : Nat} {output tail : List UInt8}
    {broken : Bool} {order : List Nat} (h : Wrote l k output broken order tail)
    (hl : ∀ (j : Nat) w, l'[j]? = some (k, some (.ok w), true) ↔ l[j]? = some (k, some (.ok w), true)) :
    Wrote l' k output broken order tail := by
  refine ⟨h.nodup, fun j hj => ?_, ?_, fun hb => ?_, fun hb => ?_⟩
  · obtain ⟨w, hw⟩ := h.mem j hj; exact ⟨w, (hl j w).mpr hw⟩
  · rw [h.out]
    congr 2
    apply List.map_congr_left
    intro j hj
    obtain ⟨w, hw⟩ := h.mem j hj
    rw [replyAt, replyAt, hw, (hl j w).mpr hw]
  · exact ⟨(h.good hb).1, fun j w hj => (h.good hb).2 j w ((hl j w).mp hj)⟩
  · rcases h.bad hb with h | ⟨j, w, h1, h2⟩
    · exact .inl h
    · exact .inr ⟨j, w, (hl j w).mpr h1, h2⟩

/-- What connection `k` has written. -/
def Writes (m : Machine σ) (k : Nat) : Prop :=
  ∃ order tail, Wrote m.view k (m.conns k).output (m.conns k).broken order tail

private theorem view_set {m m1 : Machine σ} {j : Nat} {J : Job σ} (J' : Job σ) (hm : m1.jobs = m.jobs)
    (hj : m.jobs[j]? = some J) (j' : Nat) :
    (m1.setJob j J').view[j']? = if j' = j then some (J'.conn, J'.res, J'.phase.finished) else m.view[j']? := by
  rw [view_get, Machine.setJob, List.getElem?_set, hm]
  split
  · next e =>
    subst e
    have hlt : j < m.jobs.length := (List.getElem?_eq_some_iff.mp hj).1
    simp [hlt]
  · next e => rw [if_neg (fun h => e h.symm), view_get]

private theorem writes_ok {m m' : Machine σ} {j c : Nat} {rest : List UInt8}
    (hold : m.view[j]? = some (c, some (.ok rest), false))
    (hv : ∀ j' : Nat, m'.view[j']? = if j' = j then some (c, some (.ok rest), true) else m.view[j']?)
    (hb : (m.conns c).broken = false) (hb' : (m'.conns c).broken = false)
    (hout : (m'.conns c).output = (m.conns c).output ++ rest) (hoth : ∀ k, k ≠ c → m'.conns k = m.conns k)
    (h : ∀ k, Writes m k) : ∀ k, Writes m' k := by
  intro k
  obtain ⟨order, tail, hw⟩ := h k
  by_cases e : k = c
  · subst e
    have hnot : j ∉ order := fun hm => by
      obtain ⟨w, hw'⟩ := hw.mem j hm; rw [hold] at hw'; simp at hw'
    have htail := (hw.good hb).1
    subst htail
    refine ⟨order ++ [j], [], ?_, ?_, ?_, ?_, fun hx => ?_⟩
    · rw [List.nodup_append]
      exact ⟨hw.nodup, by simp, fun a ha b hb => by
        rw [List.mem_singleton.mp hb]; exact fun e => hnot (e ▸ ha)⟩
    · intro j' hj2
      rw [hv]
      split
      · exact ⟨rest, rfl⟩
      · next e =>
        rcases List.mem_append.mp hj2 with h | h
        · exact hw.mem j' h
        · exact absurd (List.mem_singleton.mp h) e
    · have : (order ++ [j]).map (replyAt m'.view) = order.map (replyAt m.view) ++ [rest] := by
        rw [List.map_append]
        congr 1
        · apply List.map_congr_left
          intro j' hj2
          rw [replyAt, replyAt, hv, if_neg (fun e : j' = j => hnot (e ▸ hj2))]
        · simp [replyAt, hv]
      rw [this, hout, hw.out]
      simp
    · intro _
      refine ⟨rfl, fun j' w' hj2 => ?_⟩
      rw [hv] at hj2
      split at hj2
      · next e => simp [e]
      · exact List.mem_append_left _ ((hw.good hb).2 j' w' hj2)
    · rw [hb'] at hx; cases hx
  · refine ⟨order, tail, ?_⟩
    rw [hoth k e]
    apply hw.congr
    intro j' w'
    rw [hv]
    split
    · next e' => subst e'; rw [hold]; simp; exact fun h => absurd h.symm e
    · rfl

private theorem writes_fail {m m' : Machine σ} {j c n : Nat} {rest : List UInt8}
    (hold : m.view[j]? = some (c, some (.ok rest), false))
    (hv : ∀ j' : Nat, m'.view[j']? = if j' = j then some (c, some (.ok rest), true) else m.view[j']?)
    (hb : (m.conns c).broken = true → n = 0) (hb' : (m'.conns c).broken = true)
    (hout : (m'.conns c).output = (m.conns c).output ++ rest.take n)
    (hoth : ∀ k, k ≠ c → m'.conns k = m.conns k)
    (h : ∀ k, Writes m k) : ∀ k, Writes m' k := by
  intro k
  obtain ⟨order, tail, hw⟩ := h k
  by_cases e : k = c
  · subst e
    have hnot : j ∉ order := fun hm => by
      obtain ⟨w, hw'⟩ := hw.mem j hm; rw [hold] at hw'; simp at hw'
    refine ⟨order, tail ++ rest.take n, hw.nodup, ?_, ?_, fun hx => ?_, fun _ => ?_⟩
    · intro j' hj2
      rw [hv, if_neg (fun e : j' = j => hnot (e ▸ hj2))]
      exact hw.mem j' hj2
    · have : order.map (replyAt m'.view) = order.map (replyAt m.view) := by
        apply List.map_congr_left
        intro j' hj2
        rw [replyAt, replyAt, hv, if_neg (fun e : j' = j => hnot (e ▸ hj2))]
      rw [this, hout, hw.out]
      simp
    · rw [hb'] at hx; cases hx
    · cases hbr : (m.conns k).broken with
      | true =>
        obtain rfl := hb hbr
        rcases hw.bad hbr with h | ⟨j', w', f1, f2, f3⟩
        · exact .inl (by simp [h])
        · refine .inr ⟨j', w', ?_, f2, by simpa using f3⟩
          rw [hv]
          split
          · next e => subst e; rw [hold] at f1; cases f1
          · exact f1
      | false =>
        have ht := (hw.good hbr).1
        exact .inr ⟨j, rest, by rw [hv, if_pos rfl], hnot, by rw [ht]; exact List.take_prefix _ _⟩
  · refine ⟨order, tail, ?_⟩
    rw [hoth k e]
    apply hw.congr
    intro j' w'
    rw [hv]
    split
    · next e' => subst e'; rw [hold]; simp; exact fun h => absurd h.symm e
    · rfl

theorem step_writes {m m' : Machine σ} (hj' : ∀ (j : Nat) J, m.jobs[j]? = some J → Computes hs true J)
    (h : ∀ k, Writes m k) (hs' : Step hs true m m') : ∀ k, Writes m' k := by
  have same : ∀ {m1 : Machine σ}, (∀ k (j : Nat) w, m1.view[j]? = some (k, some (.ok w), true) ↔
      m.view[j]? = some (k, some (.ok w), true)) →
      (∀ k, (m1.conns k).output = (m.conns k).output ∧ (m1.conns k).broken = (m.conns k).broken) →
      ∀ k, Writes m1 k := by
    intro m1 hv hc k
    obtain ⟨order, tail, hw⟩ := h k
    refine ⟨order, tail, ?_⟩
    rw [(hc k).1, (hc k).2]
    exact hw.congr (hv k)
  have conn : ∀ (k : Nat) (c : Conn), c.output = (m.conns k).output → c.broken = (m.conns k).broken →
      ∀ k', ((m.setConn k c).conns k').output = (m.conns k').output ∧
        ((m.setConn k c).conns k').broken = (m.conns k').broken := by
    intro k c h1 h2 k'
    rw [setConn_conns]
    split
    · next e => subst e; exact ⟨h1, h2⟩
    · exact ⟨rfl, rfl⟩
  cases hs' with
  | readHeader => exact same (fun _ _ _ => Iff.rfl) (conn _ _ rfl rfl)
  | readBody k n b got hp h1 h2 h3 => exact same (fun _ _ _ => Iff.rfl) (conn k
      { m.conns k with phase := .body b (got ++ (m.conns k).input.take n), input := (m.conns k).input.drop n } rfl rfl)
  | eofHeader => exact same (fun _ _ _ => Iff.rfl) (conn _ _ rfl rfl)
  | eofBody => exact same (fun _ _ _ => Iff.rfl) (conn _ _ rfl rfl)
  | fragment => exact same (fun _ _ _ => Iff.rfl) (conn _ _ rfl rfl)
  | buf k choice got hp h1 h2 =>
    obtain ⟨g1, g2, _⟩ := getReqBuf_conns m choice (getU32 got &&& 0x7fffffff).toNat
    refine same (fun _ _ _ => ?_) fun k' => ?_
    · rw [Machine.view, Machine.view]; simp only [Machine.setConn, g2]
    · rw [setConn_conns, g1]
      split
      · next e => subst e; exact ⟨rfl, rfl⟩
      · exact ⟨rfl, rfl⟩
  | spawn k b got hp h1 =>
    refine same (fun k' j w => ?_) (conn k { m.conns k with phase := .header [] } rfl rfl)
    rw [view_get, view_get]
    constructor
    · intro hh
      rw [Option.map_eq_some_iff] at hh
      obtain ⟨J, hJ, e⟩ := hh
      rcases append_jobs hJ with hJ | ⟨rfl, rfl⟩
      · rw [hJ, ← e]; rfl
      · cases e
    · intro hh
      rw [Option.map_eq_some_iff] at hh
      obtain ⟨J, hJ, e⟩ := hh
      have hlt : j < m.jobs.length := (List.getElem?_eq_some_iff.mp hJ).1
      show ((m.jobs ++ _)[j]?).map _ = _
      rw [List.getElem?_append_left hlt, hJ, ← e]; rfl
  | act j J u n hj hp =>
    refine same (fun k' j' w => ?_) (fun k => ⟨rfl, rfl⟩)
    rw [view_set _ (by rfl) hj]
    split
    · next e => subst e; rw [view_get, hj]; simp [hp, JobPhase.finished]
    · rfl
  | retOk j J w hj hp =>
    refine same (fun k' j' w => ?_) (fun k => ⟨rfl, rfl⟩)
    rw [view_set _ (by rfl) hj]
    split
    · next e => subst e; rw [view_get, hj]; simp [hp, JobPhase.finished]
    · rfl
  | retErr j J e hj hp =>
    refine same (fun k' j' w => ?_) (fun k => ⟨rfl, rfl⟩)
    rw [view_set _ (by rfl) hj]
    split
    · next e => subst e; rw [view_get, hj]; simp [hp, JobPhase.finished]
    · rfl
  | write j n J rest hj hp h1 h2 h3 =>
    obtain ⟨g1, g2⟩ := hj' j J hj
    rw [hp] at g2
    obtain ⟨w, g2, g3⟩ := g2
    obtain rfl := g3 rfl
    obtain rfl := h3 rfl
    refine writes_ok (j := j) (c := J.conn) (rest := rest) ?_ (fun j' => ?_) h1 ?_ ?_ (fun k hk => ?_) h
    · rw [view_get, hj]; simp [hp, g2, JobPhase.finished]
    · rw [view_set _ (by rfl) hj]; simp [JobPhase.finished, g2]
    · show (upd m.conns J.conn _ J.conn).broken = false
      rw [upd_same]; exact h1
    · show (upd m.conns J.conn _ J.conn).output = _
      rw [upd_same]; simp
    · exact upd_other _ _ hk
  | fail j n J rest hj hp h1 h2 =>
    obtain ⟨g1, g2⟩ := hj' j J hj
    rw [hp] at g2
    obtain ⟨w, g2, g3⟩ := g2
    obtain rfl := g3 rfl
    refine writes_fail (j := j) (c := J.conn) (rest := rest) (n := n) ?_ (fun j' => ?_) h2 ?_ ?_ (fun k hk => ?_) h
    · rw [view_get, hj]; simp [hp, g2, JobPhase.finished]
    · rw [view_set _ (by rfl) hj]; simp [JobPhase.finished, g2]
    · show (upd m.conns J.conn _ J.conn).broken = true
      rw [upd_same]
    · show (upd m.conns J.conn _ J.conn).output = _
      rw [upd_same]
    · exact upd_other _ _ hk
  | put j J hj hp =>
    refine same (fun k' j' w => ?_) (fun k => ⟨rfl, rfl⟩)
    rw [view_set _ (by rfl) hj]
    split
    · next e => subst e; rw [view_get, hj]; simp [hp, JobPhase.finished]
    · rfl
  | drop => exact same (fun _ _ _ => Iff.rfl) (fun k => ⟨rfl, rfl⟩)

theorem exec_writes {inp : Nat → List UInt8} {s : σ} {as : List Act} {m : Machine σ}
    (h : exec hs true (start inp s) as = some m) (k : Nat) : Writes m k := by
  have := exec_inv (hs := hs) (whole := true)
    (P := fun m => (∃ o, Owns m o) ∧ (∀ (j : Nat) J, m.jobs[j]? = some J → Computes hs true J) ∧ ∀ k, Writes m k)
    (fun m a m' h h' => ⟨step_owns h.1 (step_sound h'), step_computes h.1 h.2.1 (step_sound h'),
      step_writes h.2.1 h.2.2 (step_sound h')⟩) as _ _ ?_ h
  · exact this.2.2 k
  · refine ⟨exec_owns (hs := hs) (whole := true) (as := []) rfl, fun j J hj => by simp [start] at hj, fun k => ?_⟩
    exact ⟨[], [], by simp, by simp, rfl, fun _ => ⟨rfl, fun j w hj => by simp [Machine.view, start] at hj⟩,
      fun _ => .inl rfl⟩

end Verif.Rpc
