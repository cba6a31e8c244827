/-
Executions of `Verif.Rpc.Machine` that exist: every goroutine and every reader can finish.
-/
import Verif.Rpc.MachineInv

namespace Verif.Rpc
open Verif.Xdr Verif.Spec Verif.Props

variable {σ : Type} {hs : Nat → Handlers σ} {whole : Bool}

/-- `m'` is a continuation of `m`. -/
def Reaches (hs : Nat → Handlers σ) (whole : Bool) (m m' : Machine σ) : Prop :=
  ∃ as, exec hs whole m as = some m'

theorem Reaches.refl (m : Machine σ) : Reaches hs whole m m := ⟨[], rfl⟩

theorem Reaches.trans {m m' m'' : Machine σ} (h : Reaches hs whole m m') (h' : Reaches hs whole m' m'') :
    Reaches hs whole m m'' := by
  obtain ⟨as, ha⟩ := h
  obtain ⟨bs, hb⟩ := h'
  exact ⟨as ++ bs, by rw [exec_append, ha]; exact hb⟩

theorem Reaches.step {m m' : Machine σ} (a : Act) (h : step hs whole m a = some m') : Reaches hs whole m m' :=
  ⟨[a], by simp [exec, h]⟩

/-- `m'` differs from `m` by goroutine `j` having finished. -/
structure Finished (m : Machine σ) (j : Nat) (J : Job σ) (m' : Machine σ) : Prop where
  heap : m'.heap = m.heap
  next : m'.next = m.next
  pool : m'.pool = J.buf :: m.pool
  len : m'.jobs.length = m.jobs.length
  other : ∀ j', j' ≠ j → m'.jobs[j']? = m.jobs[j']?
  job : ∃ J', m'.jobs[j]? = some J' ∧ J'.phase = .done ∧ J'.buf = J.buf ∧ J'.conn = J.conn ∧ J'.req = J.req
  conn : ∀ k, (m'.conns k).phase = (m.conns k).phase ∧ (m'.conns k).broken = (m.conns k).broken ∧
    (m'.conns k).input = (m.conns k).input

private theorem get_set {l : List (Job σ)} {j : Nat} {J : Job σ} (J' : Job σ) (h : l[j]? = some J) :
    (l.set j J')[j]? = some J' := by
  have hlt : j < l.length := (List.getElem?_eq_some_iff.mp h).1
  simp [hlt]

private theorem finish_returning {m : Machine σ} {j : Nat} {J : Job σ} (hj : m.jobs[j]? = some J)
    (hp : J.phase = .returning) : ∃ m', Reaches hs whole m m' ∧ Finished m j J m' := by
  refine ⟨(putReqBuf m J.buf).setJob j { J with phase := .done }, .step (.put j) (by simp [step, hj, hp]), ?_⟩
  refine ⟨rfl, rfl, rfl, List.length_set .., fun j' hne => List.getElem?_set_ne (Ne.symm hne),
    ⟨_, get_set _ hj, rfl, rfl, rfl, rfl⟩, fun k => ⟨rfl, rfl, rfl⟩⟩

/-- Going on from a state that differs in goroutine `j` and the shared state only. -/
private theorem finish_from {m m1 : Machine σ} {j : Nat} {J J1 : Job σ} (hj : m.jobs[j]? = some J)
    (hm : m1.heap = m.heap ∧ m1.next = m.next ∧ m1.pool = m.pool ∧ m1.jobs = m.jobs.set j J1 ∧
      ∀ k, (m1.conns k).phase = (m.conns k).phase ∧ (m1.conns k).broken = (m.conns k).broken ∧
        (m1.conns k).input = (m.conns k).input)
    (hJ : J1.buf = J.buf ∧ J1.conn = J.conn ∧ J1.req = J.req) (hr : Reaches hs whole m m1)
    (h : m1.jobs[j]? = some J1 → ∃ m', Reaches hs whole m1 m' ∧ Finished m1 j J1 m') :
    ∃ m', Reaches hs whole m m' ∧ Finished m j J m' := by
  obtain ⟨h1, h2, h3, h4, h5⟩ := hm
  obtain ⟨m', hr', hf⟩ := h (by rw [h4]; exact get_set _ hj)
  obtain ⟨J', f1, f2, f3, f4, f5⟩ := hf.job
  refine ⟨m', hr.trans hr', ⟨hf.heap.trans h1, hf.next.trans h2, ?_, ?_, fun j' hne => ?_, ?_, fun k => ?_⟩⟩
  · rw [hf.pool, h3, hJ.1]
  · rw [hf.len, h4, List.length_set]
  · rw [hf.other j' hne, h4, List.getElem?_set_ne (Ne.symm hne)]
  · exact ⟨J', f1, f2, f3.trans hJ.1, f4.trans hJ.2.1, f5.trans hJ.2.2⟩
  · exact ⟨(hf.conn k).1.trans (h5 k).1, (hf.conn k).2.1.trans (h5 k).2.1, (hf.conn k).2.2.trans (h5 k).2.2⟩

private theorem finish_writing {m : Machine σ} {j : Nat} {J : Job σ} {rest : List UInt8}
    (hj : m.jobs[j]? = some J) (hp : J.phase = .writing rest) :
    ∃ m', Reaches hs whole m m' ∧ Finished m j J m' := by
  cases hb : (m.conns J.conn).broken with
  | false =>
    refine finish_from (J1 := { J with phase := .returning })
      (m1 := (m.setConn J.conn { m.conns J.conn with
          output := (m.conns J.conn).output ++ rest.take rest.length }).setJob j { J with phase := .returning })
      hj ⟨rfl, rfl, rfl, rfl, ?_⟩ ⟨rfl, rfl, rfl⟩
      (.step (.write j rest.length) (by simp only [step, hj, hp, hb, Nat.le_refl, implies_true, and_self, if_true]))
      (fun h => finish_returning h rfl)
    intro k
    simp only [Machine.setJob, setConn_conns]
    split
    · next e => subst e; exact ⟨rfl, rfl, rfl⟩
    · exact ⟨rfl, rfl, rfl⟩
  | true =>
    refine finish_from (J1 := { J with phase := .returning })
      (m1 := (m.setConn J.conn { m.conns J.conn with
          output := (m.conns J.conn).output ++ rest.take 0, broken := true }).setJob j { J with phase := .returning })
      hj ⟨rfl, rfl, rfl, rfl, ?_⟩ ⟨rfl, rfl, rfl⟩
      (.step (.fail j 0) (by simp only [step, hj, hp, Nat.zero_le, implies_true, and_self, if_true]))
      (fun h => finish_returning h rfl)
    intro k
    simp only [Machine.setJob, setConn_conns]
    split
    · next e => subst e; exact ⟨rfl, hb.symm, rfl⟩
    · exact ⟨rfl, rfl, rfl⟩

private theorem finish_running (p : Proc (List UInt8) σ Outcome) : ∀ {m : Machine σ} {j : Nat} {J : Job σ},
    m.jobs[j]? = some J → J.phase = .running p → ∃ m', Reaches hs whole m m' ∧ Finished m j J m' := by
  induction p with
  | ret a =>
    intro m j J hj hp
    cases a with
    | ok w =>
      exact finish_from (J1 := { J with phase := .writing w, res := some (.ok w) })
        (m1 := m.setJob j { J with phase := .writing w, res := some (.ok w) }) hj
        ⟨rfl, rfl, rfl, rfl, fun k => ⟨rfl, rfl, rfl⟩⟩ ⟨rfl, rfl, rfl⟩
        (.step (.ret j) (by simp [step, hj, hp])) (fun h => finish_writing h rfl)
    | error e =>
      exact finish_from (J1 := { J with phase := .returning, res := some (.error e) })
        (m1 := m.setJob j { J with phase := .returning, res := some (.error e) }) hj
        ⟨rfl, rfl, rfl, rfl, fun k => ⟨rfl, rfl, rfl⟩⟩ ⟨rfl, rfl, rfl⟩
        (.step (.ret j) (by simp [step, hj, hp])) (fun h => finish_returning h rfl)
  | act u n ih =>
    intro m j J hj hp
    exact finish_from (J1 := { J with phase := .running (n ((m.heap J.buf.id).take J.buf.len) m.st) })
      (m1 := { m with st := u ((m.heap J.buf.id).take J.buf.len) m.st : Machine σ }.setJob j
        { J with phase := .running (n ((m.heap J.buf.id).take J.buf.len) m.st) }) hj
      ⟨rfl, rfl, rfl, rfl, fun k => ⟨rfl, rfl, rfl⟩⟩ ⟨rfl, rfl, rfl⟩
      (.step (.act j) (by simp [step, hj, hp])) (fun h => ih _ _ h rfl)

/-- Every goroutine can finish, without the help of any other. -/
theorem finish_job {m : Machine σ} {j : Nat} {J : Job σ} (hj : m.jobs[j]? = some J)
    (hl : J.phase.live = true) : ∃ m', Reaches hs whole m m' ∧ Finished m j J m' := by
  cases hp : J.phase with
  | running p => exact finish_running p hj hp
  | writing rest => exact finish_writing hj hp
  | returning => exact finish_returning hj hp
  | done => rw [hp] at hl; cases hl

/-- All goroutines can finish. -/
theorem finish_jobs (m : Machine σ) (n : Nat) : ∃ m', Reaches hs whole m m' ∧
    m'.jobs.length = m.jobs.length ∧ (∀ (j : Nat) J, j < n → m'.jobs[j]? = some J → J.phase = .done) ∧
    ∀ k, (m'.conns k).phase = (m.conns k).phase ∧ (m'.conns k).broken = (m.conns k).broken := by
  induction n with
  | zero => exact ⟨m, .refl m, rfl, fun j J h => by omega, fun k => ⟨rfl, rfl⟩⟩
  | succ n ih =>
    obtain ⟨m1, h1, h2, h3, h4⟩ := ih
    have done : (∀ J, m1.jobs[n]? = some J → J.phase = .done) → _ := fun hd =>
      (⟨m1, h1, h2, fun j J hlt hj => by
        rcases Nat.lt_succ_iff_lt_or_eq.mp hlt with h | rfl
        · exact h3 j J h hj
        · exact hd J hj, h4⟩ : ∃ m', Reaches hs whole m m' ∧
    m'.jobs.length = m.jobs.length ∧ (∀ (j : Nat) J, j < n + 1 → m'.jobs[j]? = some J → J.phase = .done) ∧
    ∀ k, (m'.conns k).phase = (m.conns k).phase ∧ (m'.conns k).broken = (m.conns k).broken)
    cases hn : m1.jobs[n]? with
    | none => exact done fun J hj => by rw [hn] at hj; cases hj
    | some J =>
      cases hl : J.phase.live with
      | false =>
        refine done fun J' hj => ?_
        rw [hn] at hj; cases hj
        cases hp : J.phase <;> rw [hp] at hl <;> first | rfl | cases hl
      | true =>
        obtain ⟨m2, g1, g2⟩ := finish_job (hs := hs) (whole := whole) hn hl
        refine ⟨m2, h1.trans g1, g2.len.trans h2, fun j J' hlt hj => ?_, fun k =>
          ⟨(g2.conn k).1.trans (h4 k).1, (g2.conn k).2.1.trans (h4 k).2⟩⟩
        rcases Nat.lt_succ_iff_lt_or_eq.mp hlt with h | rfl
        · rw [g2.other j (by omega)] at hj; exact h3 j J' h hj
        · obtain ⟨J'', f1, f2, _⟩ := g2.job
          rw [f1] at hj; cases hj; exact f2

/-- Distance of a reader from its end. -/
def readerRank (c : Conn) : Nat :=
  3 * c.input.length + match c.phase with
    | .header got => if got.length = 4 then 2 else 0
    | .body _ _ => 1
    | .stopped _ => 0

/-- Lengths of what was read are in range. -/
def ReaderOk (c : Conn) : Prop :=
  match c.phase with
  | .header got => got.length ≤ 4
  | .body b got => got.length ≤ b.len
  | .stopped _ => True

/-- Every reader can finish, whatever the pool does. -/
theorem finish_reader (k n : Nat) : ∀ (m : Machine σ), readerRank (m.conns k) ≤ n → ReaderOk (m.conns k) →
    ∃ m', Reaches hs whole m m' ∧ (∃ e, (m'.conns k).phase = .stopped e) ∧
      (∀ k', (m'.conns k').broken = (m.conns k').broken) := by
  have conn : ∀ (m m1 : Machine σ) (c : Conn), c.broken = (m.conns k).broken → m1.conns = m.conns →
      ∀ k', ((m1.setConn k c).conns k').broken = (m.conns k').broken := by
    intro m m1 c h h1 k'
    rw [setConn_conns, h1]
    split
    · next e => subst e; exact h
    · rfl
  induction n using Nat.strongRecOn with
  | ind n ih =>
    intro m hn hok
    -- one action, then the induction hypothesis
    have go : ∀ (a : Act) (m1 : Machine σ) (c : Conn), step hs whole m a = some (m1.setConn k c) →
        c.broken = (m.conns k).broken → m1.conns = m.conns → readerRank c < readerRank (m.conns k) →
        ReaderOk c → ∃ m', Reaches hs whole m m' ∧ (∃ e, (m'.conns k).phase = .stopped e) ∧
          (∀ k', (m'.conns k').broken = (m.conns k').broken) := by
      intro a m1 c ha hb h1 hr hok
      have hc : (m1.setConn k c).conns k = c := by rw [setConn_conns, if_pos rfl]
      obtain ⟨m', g1, g2, g3⟩ := ih (readerRank c) (by omega) (m1.setConn k c) (by rw [hc]) (by rw [hc]; exact hok)
      exact ⟨m', (Reaches.step a ha).trans g1, g2, fun k' => (g3 k').trans (conn m m1 c hb h1 k')⟩
    cases hp : (m.conns k).phase with
    | stopped e => exact ⟨m, .refl m, ⟨e, hp⟩, fun _ => rfl⟩
    | header got =>
      have hlen : got.length ≤ 4 := by rw [ReaderOk, hp] at hok; exact hok
      by_cases h4 : got.length = 4
      · by_cases hbit : getU32 got &&& ((1 : UInt32) <<< 31) = 0
        · refine ⟨_, .step (.mark k none) (by simp only [step, hp, h4, if_true, hbit]; rfl), ⟨.fragment, ?_⟩, ?_⟩
          · rw [setConn_conns, if_pos rfl]
          · exact conn m m _ rfl rfl
        · refine go (.mark k none) (getReqBuf m none (getU32 got &&& 0x7fffffff).toNat).1
            { m.conns k with phase := .body (getReqBuf m none (getU32 got &&& 0x7fffffff).toNat).2 [] }
            (by simp only [step, hp, h4, if_true, hbit, if_false]) rfl (getReqBuf_conns ..).1 ?_ (Nat.zero_le _)
          simp only [readerRank, hp, h4, if_true]; omega
      · cases hi : (m.conns k).input with
        | nil =>
          refine ⟨_, .step (.eof k) (by
            simp only [step, hp, hi, and_true]; rw [if_pos (by omega)]), ⟨fullErr got, ?_⟩, ?_⟩
          · rw [setConn_conns, if_pos rfl]
          · exact conn m m _ rfl rfl
        | cons x l =>
          refine go (.read k 1) m { m.conns k with phase := .header (got ++ [x]), input := l }
            (by simp only [step, hp, hi]; rw [if_pos (by simp; omega)]; rfl) rfl rfl ?_ ?_
          · simp only [readerRank, hp, hi, List.length_cons]; split <;> omega
          · simp only [ReaderOk, List.length_append, List.length_singleton]; omega
    | body b got =>
      have hlen : got.length ≤ b.len := by rw [ReaderOk, hp] at hok; exact hok
      by_cases hb : got.length = b.len
      · refine go (.spawn k) { m with jobs := m.jobs ++
            [{ conn := k, buf := b, phase := .running (handleReqErr (hs k)), req := got, res := none }] }
          { m.conns k with phase := .header [] }
          (by simp only [step, hp, hb, if_true]) rfl rfl ?_ (Nat.zero_le _)
        simp only [readerRank, hp, List.length_nil]
        have : ¬ (0 = 4) := by decide
        rw [if_neg this]; omega
      · cases hi : (m.conns k).input with
        | nil =>
          refine ⟨_, .step (.eof k) (by
            simp only [step, hp, hi, and_true]; rw [if_pos (by omega)]), ⟨fullErr got, ?_⟩, ?_⟩
          · rw [setConn_conns, if_pos rfl]
          · exact conn m m _ rfl rfl
        | cons x l =>
          refine go (.read k 1) (m.fill b got.length [x]) { m.conns k with phase := .body b (got ++ [x]), input := l }
            (by simp only [step, hp, hi]; rw [if_pos (by simp; omega)]; rfl) rfl rfl ?_ ?_
          · simp only [readerRank, hp, hi, List.length_cons]; omega
          · simp only [ReaderOk, List.length_append, List.length_singleton]; omega

theorem getReqBuf_setConn (m : Machine σ) (k : Nat) (c : Conn) (choice : Option Nat) (n : Nat) :
    getReqBuf (m.setConn k c) choice n = ((getReqBuf m choice n).1.setConn k c, (getReqBuf m choice n).2) := by
  cases choice with
  | none => rfl
  | some i =>
    simp only [getReqBuf, Option.bind_some]
    have hp : (m.setConn k c).pool = m.pool := rfl
    rw [hp]
    cases m.pool[i]? with
    | none => rfl
    | some s =>
      by_cases hc : n ≤ (m.heap s.id).length
      · simp only [Machine.setConn, hc, if_true]
      · simp only [Machine.setConn, hc, if_false]

/-- Reading one record that has arrived, with the buffer the pool's `choice` leads to. -/
theorem read_record {m : Machine σ} {k : Nat} {r rest : List UInt8} (choice : Option Nat)
    (hr : r.length < 2 ^ 31) (hp : (m.conns k).phase = .header [])
    (hi : (m.conns k).input = be 4 (2 ^ 31 + r.length) ++ r ++ rest) :
    let mb := getReqBuf m choice r.length
    ∃ m', Reaches hs whole m m' ∧
      m'.heap = upd mb.1.heap mb.2.id (writeAt (mb.1.heap mb.2.id) 0 r) ∧ m'.next = mb.1.next ∧ m'.pool = mb.1.pool ∧
      m'.jobs = m.jobs ++ [{ conn := k, buf := mb.2, phase := .running (handleReqErr (hs k)), req := r, res := none }] ∧
      (m'.conns k).phase = .header [] ∧ (m'.conns k).input = rest := by
  intro mb
  have hlen : (be 4 (2 ^ 31 + r.length)).length = 4 := be_length _ _
  obtain ⟨c1, c2, c3, c4⟩ := getReqBuf_conns m choice r.length
  have hgot : getU32 (be 4 (2 ^ 31 + r.length)) &&& ((1 : UInt32) <<< 31) ≠ 0 := by
    rw [getU32_be, Ne, mark_bit (by omega)]; omega
  have hl : (getU32 (be 4 (2 ^ 31 + r.length)) &&& 0x7fffffff).toNat = r.length := by
    rw [getU32_be, mark_len (by omega)]; omega
  -- the record mark
  have s1 : step hs whole m (.read k 4) = some (m.setConn k { m.conns k with
      phase := .header (be 4 (2 ^ 31 + r.length)), input := r ++ rest }) := by
    simp only [step, hp, hi]
    rw [if_pos (by simp)]
    congr 3
  -- the buffer
  have s2 : step hs whole (m.setConn k { m.conns k with
      phase := .header (be 4 (2 ^ 31 + r.length)), input := r ++ rest }) (.mark k choice) =
      some (mb.1.setConn k { m.conns k with phase := .body mb.2 [], input := r ++ rest }) := by
    simp only [step, setConn_conns, if_true, hlen, hgot, if_false, hl]
    rw [getReqBuf_setConn]
    simp only [Machine.setConn]
    congr 2
    funext k'
    simp only [upd]
    split <;> rfl
  have h12 := (Reaches.step _ s1).trans (Reaches.step _ s2)
  have hc : ∀ (m1 : Machine σ) (c : Conn), (m1.setConn k c).conns k = c := fun m1 c => by
    rw [setConn_conns, if_pos rfl]
  have s4 : ∀ (m1 : Machine σ) (b : Slice) (got : List UInt8) (c : Conn), c.phase = .body b got →
      got.length = b.len → Reaches hs whole (m1.setConn k c) ({ m1.setConn k c with jobs := m1.jobs ++
        [{ conn := k, buf := b, phase := .running (handleReqErr (hs k)), req := got, res := none }] :
        Machine σ }.setConn k { c with phase := .header [] }) := by
    intro m1 b got c hp hb
    refine .step (.spawn k) ?_
    simp only [step, hc, hp, hb, if_true]
    rfl
  cases hr0 : r with
  | nil =>
    subst hr0
    refine ⟨_, h12.trans (s4 _ _ _ _ rfl (by rw [c4])), ?_, ?_, ?_, ?_, ?_, ?_⟩
    · funext i
      show mb.1.heap i = _
      simp only [upd, writeAt]
      split
      · next e => subst e; simp
      · rfl
    · rfl
    · rfl
    · show mb.1.jobs ++ _ = _
      rw [c2]
    · rw [hc]
    · rw [hc]; rfl
  | cons x l =>
    rw [← hr0]
    have hpos : 1 ≤ r.length := by rw [hr0]; simp
    have s3 : step hs whole (mb.1.setConn k { m.conns k with phase := .body mb.2 [], input := r ++ rest })
        (.read k r.length) = 
          some (((mb.1.setConn k { m.conns k with phase := .body mb.2 [], input := r ++ rest }).fill mb.2 0 r).setConn k
            { m.conns k with phase := .body mb.2 r, input := rest }) := by
      simp only [step, hc]
      rw [if_pos (by rw [c4]; simp; omega)]
      simp
    refine ⟨_, (h12.trans (.step _ s3)).trans (s4 _ _ _ _ rfl c4.symm), ?_, ?_, ?_, ?_, ?_, ?_⟩
    · rfl
    · rfl
    · rfl
    · show mb.1.jobs ++ _ = _
      rw [c2]
    · rw [hc]
    · rw [hc]

end Verif.Rpc
