/-
Lemmas about `Verif.Rpc.Machine`: invariants of all executions.
-/
import Verif.Rpc.Machine
import Verif.Rpc.ServerLemmas
import Verif.Rpc.StreamLemmas

namespace Verif.Rpc
open Verif.Xdr Verif.Spec

variable {σ : Type} {hs : Nat → Handlers σ} {whole : Bool}

theorem exec_append (m : Machine σ) (as bs : List Act) :
    exec hs whole m (as ++ bs) = (exec hs whole m as).bind (exec hs whole · bs) := by
  induction as generalizing m with
  | nil => rfl
  | cons a as ih =>
    simp only [List.cons_append, exec]
    cases step hs whole m a with
    | none => rfl
    | some m' => exact ih m'

/-- What every action preserves, every execution preserves. -/
theorem exec_inv {P : Machine σ → Prop}
    (hstep : ∀ m a m', P m → step hs whole m a = some m' → P m') :
    ∀ (as : List Act) (m m' : Machine σ), P m → exec hs whole m as = some m' → P m' := by
  intro as
  induction as with
  | nil => intro m m' h he; cases he; exact h
  | cons a as ih =>
    intro m m' h he
    simp only [exec] at he
    cases hm : step hs whole m a with
    | none => rw [hm] at he; cases he
    | some m1 => rw [hm] at he; exact ih m1 m' (hstep m a m1 h hm) he

@[simp] theorem upd_same {α : Type} (f : Nat → α) (k : Nat) (a : α) : upd f k a k = a := by simp [upd]

theorem upd_other {α : Type} (f : Nat → α) {k k' : Nat} (a : α) (h : k' ≠ k) : upd f k a k' = f k' := by
  simp [upd, h]

/-! ### Actions, one by one -/

/-- The possible effects of an action, as a relation. -/
inductive Step (hs : Nat → Handlers σ) (whole : Bool) (m : Machine σ) : Machine σ → Prop
  | readHeader (k n : Nat) (got : List UInt8) : (m.conns k).phase = .header got → 1 ≤ n →
      n ≤ 4 - got.length → n ≤ (m.conns k).input.length →
      Step hs whole m (m.setConn k { m.conns k with
        phase := .header (got ++ (m.conns k).input.take n), input := (m.conns k).input.drop n })
  | readBody (k n : Nat) (b : Slice) (got : List UInt8) : (m.conns k).phase = .body b got → 1 ≤ n →
      n ≤ b.len - got.length → n ≤ (m.conns k).input.length →
      Step hs whole m ((m.fill b got.length ((m.conns k).input.take n)).setConn k
        { m.conns k with phase := .body b (got ++ (m.conns k).input.take n),
                         input := (m.conns k).input.drop n })
  | eofHeader (k : Nat) (got : List UInt8) : (m.conns k).phase = .header got → got.length < 4 →
      (m.conns k).input = [] →
      Step hs whole m (m.setConn k { m.conns k with phase := .stopped (fullErr got) })
  | eofBody (k : Nat) (b : Slice) (got : List UInt8) : (m.conns k).phase = .body b got →
      got.length < b.len → (m.conns k).input = [] →
      Step hs whole m (m.setConn k { m.conns k with phase := .stopped (fullErr got) })
  | fragment (k : Nat) (got : List UInt8) : (m.conns k).phase = .header got → got.length = 4 →
      getU32 got &&& ((1 : UInt32) <<< 31) = 0 →
      Step hs whole m (m.setConn k { m.conns k with phase := .stopped .fragment })
  | buf (k : Nat) (choice : Option Nat) (got : List UInt8) : (m.conns k).phase = .header got →
      got.length = 4 → getU32 got &&& ((1 : UInt32) <<< 31) ≠ 0 →
      Step hs whole m ((getReqBuf m choice (getU32 got &&& 0x7fffffff).toNat).1.setConn k
        { m.conns k with phase := .body (getReqBuf m choice (getU32 got &&& 0x7fffffff).toNat).2 [] })
  | spawn (k : Nat) (b : Slice) (got : List UInt8) : (m.conns k).phase = .body b got → got.length = b.len →
      Step hs whole m ({ m with jobs := m.jobs ++
          [{ conn := k, buf := b, phase := .running (handleReqErr (hs k)), req := got, res := none }] :
          Machine σ }.setConn k { m.conns k with phase := .header [] })
  | act (j : Nat) (J : Job σ) (u : List UInt8 → σ → σ) (n : List UInt8 → σ → Proc (List UInt8) σ Outcome) :
      m.jobs[j]? = some J → J.phase = .running (.act u n) →
      Step hs whole m ({ m with st := u ((m.heap J.buf.id).take J.buf.len) m.st : Machine σ }.setJob j
        { J with phase := .running (n ((m.heap J.buf.id).take J.buf.len) m.st) })
  | retOk (j : Nat) (J : Job σ) (w : List UInt8) : m.jobs[j]? = some J →
      J.phase = .running (.ret (.ok w)) →
      Step hs whole m (m.setJob j { J with phase := .writing w, res := some (.ok w) })
  | retErr (j : Nat) (J : Job σ) (e : ServeErr) : m.jobs[j]? = some J →
      J.phase = .running (.ret (.error e)) →
      Step hs whole m (m.setJob j { J with phase := .returning, res := some (.error e) })
  | write (j n : Nat) (J : Job σ) (rest : List UInt8) : m.jobs[j]? = some J → J.phase = .writing rest →
      (m.conns J.conn).broken = false → n ≤ rest.length → (whole = true → n = rest.length) →
      Step hs whole m ((m.setConn J.conn { m.conns J.conn with
          output := (m.conns J.conn).output ++ rest.take n }).setJob j
        { J with phase := if n = rest.length then .returning else .writing (rest.drop n) })
  | fail (j n : Nat) (J : Job σ) (rest : List UInt8) : m.jobs[j]? = some J → J.phase = .writing rest →
      n ≤ rest.length → ((m.conns J.conn).broken = true → n = 0) →
      Step hs whole m ((m.setConn J.conn { m.conns J.conn with
          output := (m.conns J.conn).output ++ rest.take n, broken := true }).setJob j
        { J with phase := .returning })
  | put (j : Nat) (J : Job σ) : m.jobs[j]? = some J → J.phase = .returning →
      Step hs whole m ((putReqBuf m J.buf).setJob j { J with phase := .done })
  | drop (i : Nat) : Step hs whole m { m with pool := m.pool.eraseIdx i }

theorem step_sound {m m' : Machine σ} {a : Act} (h : step hs whole m a = some m') : Step hs whole m m' := by
  cases a with
  | read k n =>
    simp only [step] at h
    split at h
    · next got hp =>
      split at h
      · next hc => cases h; exact .readHeader k n got hp hc.1 hc.2.1 hc.2.2
      · cases h
    · next b got hp =>
      split at h
      · next hc => cases h; exact .readBody k n b got hp hc.1 hc.2.1 hc.2.2
      · cases h
    · cases h
  | eof k =>
    simp only [step] at h
    split at h
    · next got hp =>
      split at h
      · next hc => cases h; exact .eofHeader k got hp hc.1 hc.2
      · cases h
    · next b got hp =>
      split at h
      · next hc => cases h; exact .eofBody k b got hp hc.1 hc.2
      · cases h
    · cases h
  | mark k choice =>
    simp only [step] at h
    split at h
    · next got hp =>
      split at h
      · next hc =>
        split at h
        · next h0 => cases h; exact .fragment k got hp hc h0
        · next h0 => cases h; exact .buf k choice got hp hc h0
      · cases h
    · cases h
  | spawn k =>
    simp only [step] at h
    split at h
    · next b got hp =>
      split at h
      · next hc => cases h; exact .spawn k b got hp hc
      · cases h
    · cases h
  | act j =>
    simp only [step] at h
    split at h
    · next J hj =>
      split at h
      · next u n hp => cases h; exact .act j J u n hj hp
      · cases h
    · cases h
  | ret j =>
    simp only [step] at h
    split at h
    · next J hj =>
      split at h
      · next w hp => cases h; exact .retOk j J w hj hp
      · next e hp => cases h; exact .retErr j J e hj hp
      · cases h
    · cases h
  | write j n =>
    simp only [step] at h
    split at h
    · next J hj =>
      split at h
      · next rest hp =>
        split at h
        · next hc => cases h; exact .write j n J rest hj hp hc.1 hc.2.1 hc.2.2
        · cases h
      · cases h
    · cases h
  | fail j n =>
    simp only [step] at h
    split at h
    · next J hj =>
      split at h
      · next rest hp =>
        split at h
        · next hc => cases h; exact .fail j n J rest hj hp hc.1 hc.2
        · cases h
      · cases h
    · cases h
  | put j =>
    simp only [step] at h
    split at h
    · next J hj =>
      split at h
      · next hp => cases h; exact .put j J hj hp
      · cases h
    · cases h
  | drop i => simp only [step] at h; cases h; exact .drop i

/-! ### Ownership of buffers -/

/-- Has the goroutine not yet given its buffer back? -/
def JobPhase.live : JobPhase σ → Bool
  | .done => false
  | _ => true

/-- Who may use a buffer. -/
inductive Owner where
  | nobody
  | pool
  | conn (k : Nat)
  | job (j : Nat)

/-- `o` is an assignment of buffers to their users; users find in them what they expect. -/
structure Owns (m : Machine σ) (o : Nat → Owner) : Prop where
  pool : ∀ s ∈ m.pool, o s.id = .pool ∧ s.id < m.next
  nodup : (m.pool.map Slice.id).Nodup
  conn : ∀ k b got, (m.conns k).phase = .body b got → o b.id = .conn k ∧ b.id < m.next ∧
    b.len ≤ (m.heap b.id).length ∧ got.length ≤ b.len ∧ (m.heap b.id).take got.length = got
  job : ∀ j J, m.jobs[j]? = some J → J.phase.live = true → o J.buf.id = .job j ∧ J.buf.id < m.next ∧
    J.buf.len ≤ (m.heap J.buf.id).length ∧ (m.heap J.buf.id).take J.buf.len = J.req

theorem setConn_conns (m : Machine σ) (k k' : Nat) (c : Conn) :
    (m.setConn k c).conns k' = if k' = k then c else m.conns k' := rfl

theorem setJob_jobs {m : Machine σ} {j j' : Nat} {J J' : Job σ} (h : (m.setJob j J).jobs[j']? = some J') :
    (j' = j ∧ J' = J) ∨ (j' ≠ j ∧ m.jobs[j']? = some J') := by
  simp only [Machine.setJob, List.getElem?_set] at h
  split at h
  · next e =>
    split at h
    · cases h; exact .inl ⟨e.symm, rfl⟩
    · cases h
  · next e => exact .inr ⟨fun h' => e h'.symm, h⟩

theorem append_jobs {l : List (Job σ)} {j : Nat} {J J' : Job σ} (h : (l ++ [J])[j]? = some J') :
    l[j]? = some J' ∨ (j = l.length ∧ J' = J) := by
  rcases Nat.lt_trichotomy j l.length with hj | hj | hj
  · rw [List.getElem?_append_left hj] at h; exact .inl h
  · subst hj; simp at h; exact .inr ⟨rfl, h.symm⟩
  · rw [List.getElem?_append_right (by omega)] at h
    have : j - l.length ≠ 0 := by omega
    cases hd : j - l.length with
    | zero => omega
    | succ n => rw [hd] at h; simp at h

theorem nodup_eraseIdx {l : List Slice} {n : Nat} (h : (l.map Slice.id).Nodup) :
    ((l.eraseIdx n).map Slice.id).Nodup :=
  h.sublist ((List.eraseIdx_sublist l n).map _)

/-- Changing the phase of a reader to one without buffer. -/
theorem Owns.setConn_free {m : Machine σ} {o : Nat → Owner} (h : Owns m o) (k : Nat) (c : Conn)
    (hc : ∀ b got, c.phase ≠ .body b got) : Owns (m.setConn k c) o := by
  refine ⟨h.pool, h.nodup, fun k' b got hp => ?_, h.job⟩
  rw [setConn_conns] at hp
  split at hp
  · exact absurd hp (hc b got)
  · exact h.conn k' b got hp

theorem Owns.setConn_same {m : Machine σ} {o : Nat → Owner} (h : Owns m o) (k : Nat) (c : Conn)
    (hc : c.phase = (m.conns k).phase) : Owns (m.setConn k c) o := by
  refine ⟨h.pool, h.nodup, fun k' b got hp => ?_, h.job⟩
  rw [setConn_conns] at hp
  split at hp
  · next e => subst e; exact h.conn k' b got (hc ▸ hp)
  · exact h.conn k' b got hp

/-- Changing the phase of a goroutine that keeps its buffer. -/
theorem Owns.setJob_same {m : Machine σ} {o : Nat → Owner} (h : Owns m o) {j : Nat} {J J' : Job σ}
    (hj : m.jobs[j]? = some J) (hl : J.phase.live = true) (hb : J'.buf = J.buf) (hr : J'.req = J.req) :
    Owns (m.setJob j J') o := by
  refine ⟨h.pool, h.nodup, h.conn, fun j' J'' hp hl' => ?_⟩
  rcases setJob_jobs hp with ⟨rfl, rfl⟩ | ⟨_, hp⟩
  · rw [hb, hr]; exact h.job _ J hj hl
  · exact h.job _ _ hp hl'

theorem writeAt_take {b d : List UInt8} {off : Nat} (h : off + d.length ≤ b.length) :
    (writeAt b off d).take (off + d.length) = b.take off ++ d := by
  have h1 : (b.take off).length = off := by simp; omega
  rw [writeAt, List.append_assoc, List.take_append, h1, List.take_of_length_le (by rw [h1]; omega)]
  congr 1
  rw [show off + d.length - off = d.length by omega, List.take_append_of_le_length (Nat.le_refl _),
    List.take_length]

theorem writeAt_length {b d : List UInt8} {off : Nat} (h : off + d.length ≤ b.length) :
    (writeAt b off d).length = b.length := by
  simp [writeAt]; omega

/-- What `getReqBuf` returns, in terms of ownership: a buffer of sufficient size that nobody else
uses. -/
theorem getReqBuf_owns {m : Machine σ} {o : Nat → Owner} (h : Owns m o) (choice : Option Nat) (n : Nat)
    (k : Nat) (hk : ∀ b got, (m.conns k).phase ≠ .body b got) :
    ∃ o', Owns (getReqBuf m choice n).1 o' ∧ o' (getReqBuf m choice n).2.id = .conn k ∧
      (getReqBuf m choice n).2.id < (getReqBuf m choice n).1.next ∧
      (getReqBuf m choice n).2.len = n ∧
      n ≤ ((getReqBuf m choice n).1.heap (getReqBuf m choice n).2.id).length := by
  have fresh : ∀ p : List Slice, (∀ s ∈ p, s ∈ m.pool) → (p.map Slice.id).Nodup →
      ∃ o', Owns ({ m with pool := p, heap := upd m.heap m.next (zeros n), next := m.next + 1 } : Machine σ) o' ∧
        o' m.next = .conn k := by
    intro p hp hnd
    refine ⟨upd o m.next (.conn k), ⟨fun s hs => ?_, hnd, fun k' b got hb => ?_, fun j J hj hl => ?_⟩,
      by simp⟩
    · obtain ⟨h1, h2⟩ := h.pool s (hp s hs)
      exact ⟨by rw [upd_other _ _ (by omega)]; exact h1, by show _ < m.next + 1; omega⟩
    · obtain ⟨h1, h2, h3⟩ := h.conn k' b got hb
      have hne : b.id ≠ m.next := by omega
      refine ⟨by rw [upd_other _ _ hne]; exact h1, by show _ < m.next + 1; omega, ?_⟩
      show b.len ≤ (upd m.heap m.next _ b.id).length ∧ _ ∧ (upd m.heap m.next _ b.id).take _ = _
      rw [upd_other _ _ hne]; exact h3
    · obtain ⟨h1, h2, h3⟩ := h.job j J hj hl
      have hne : J.buf.id ≠ m.next := by omega
      refine ⟨by rw [upd_other _ _ hne]; exact h1, by show _ < m.next + 1; omega, ?_⟩
      show J.buf.len ≤ (upd m.heap m.next _ J.buf.id).length ∧ (upd m.heap m.next _ J.buf.id).take _ = _
      rw [upd_other _ _ hne]; exact h3
  unfold getReqBuf
  split
  · next s i hs =>
    have hs' : m.pool[i]? = some s := by simpa using hs
    have hmem : ∀ t ∈ m.pool.eraseIdx i, t ∈ m.pool := fun t ht => (List.eraseIdx_sublist _ _).subset ht
    by_cases hcap : n ≤ (m.heap s.id).length
    · simp only [hcap, if_true]
      obtain ⟨p1, p2⟩ := h.pool s (List.mem_of_getElem? hs')
      refine ⟨upd o s.id (.conn k), ⟨fun t ht => ?_, nodup_eraseIdx h.nodup, fun k' b got hb => ?_,
        fun j J hj hl => ?_⟩, by simp, p2, by simp, by simpa using hcap⟩
      · obtain ⟨h1, h2⟩ := h.pool t (hmem t ht)
        refine ⟨?_, h2⟩
        have hne : t.id ≠ s.id := by
          intro e
          obtain ⟨i', hi', ht'⟩ := List.getElem_of_mem ht
          rw [List.getElem_eraseIdx] at ht'
          have hinj : ∀ (a b : Nat), m.pool[a]? = some t → m.pool[b]? = some s → a = b := by
            intro a b ha hb
            have hla : a < (m.pool.map Slice.id).length := by
              rw [List.length_map]; exact (List.getElem?_eq_some_iff.mp ha).1
            refine (List.getElem?_inj hla h.nodup).mp ?_
            simp [List.getElem?_map, ha, hb, e]
          split at ht'
          · next hlt =>
            have := hinj i' i (by rw [← ht']; exact List.getElem?_eq_getElem _) hs'
            omega
          · next hlt =>
            have := hinj (i' + 1) i (by rw [← ht']; exact List.getElem?_eq_getElem _) hs'
            omega
        rw [upd_other _ _ hne]; exact h1
      · obtain ⟨h1, h2, h3⟩ := h.conn k' b got hb
        have hne : b.id ≠ s.id := fun e => by rw [e, p1] at h1; cases h1
        exact ⟨by rw [upd_other _ _ hne]; exact h1, h2, h3⟩
      · obtain ⟨h1, h2, h3⟩ := h.job j J hj hl
        have hne : J.buf.id ≠ s.id := fun e => by rw [e, p1] at h1; cases h1
        exact ⟨by rw [upd_other _ _ hne]; exact h1, h2, h3⟩
    · simp only [hcap, if_false]
      obtain ⟨o', h1, h2⟩ := fresh (m.pool.eraseIdx i) hmem (nodup_eraseIdx h.nodup)
      exact ⟨o', h1, h2, Nat.lt_succ_self _, by simp, by simp⟩
  · obtain ⟨o', h1, h2⟩ := fresh m.pool (fun s hs => hs) h.nodup
    exact ⟨o', h1, h2, Nat.lt_succ_self _, by simp, by simp⟩

theorem step_owns {m m' : Machine σ} (h : ∃ o, Owns m o) (hs' : Step hs whole m m') : ∃ o, Owns m' o := by
  obtain ⟨o, h⟩ := h
  cases hs' with
  | readHeader k n got hp h1 h2 h3 => exact ⟨o, h.setConn_free _ _ (by simp)⟩
  | readBody k n b got hp h1 h2 h3 =>
    obtain ⟨g1, g2, g3, g4, g5⟩ := h.conn k b got hp
    have hn : ((m.conns k).input.take n).length = n := by simp; omega
    have hoff : got.length + ((m.conns k).input.take n).length ≤ (m.heap b.id).length := by omega
    refine ⟨o, h.pool, h.nodup, fun k' b' got' hp' => ?_, fun j J hj hl => ?_⟩
    · rw [setConn_conns] at hp'
      split at hp'
      · next e =>
        subst e; cases hp'
        refine ⟨g1, g2, ?_, by simp; omega, ?_⟩
        · show b.len ≤ (upd m.heap b.id _ b.id).length
          rw [upd_same, writeAt_length hoff]; exact g3
        · show (upd m.heap b.id _ b.id).take _ = _
          rw [upd_same, List.length_append, writeAt_take hoff, g5]
      · next e =>
        obtain ⟨f1, f2, f3⟩ := h.conn k' b' got' hp'
        have hne : b'.id ≠ b.id := fun e' => by rw [e', g1] at f1; cases f1; exact e rfl
        refine ⟨f1, f2, ?_⟩
        show b'.len ≤ (upd m.heap b.id _ b'.id).length ∧ _ ∧ (upd m.heap b.id _ b'.id).take _ = _
        rw [upd_other _ _ hne]; exact f3
    · obtain ⟨f1, f2, f3⟩ := h.job j J hj hl
      have hne : J.buf.id ≠ b.id := fun e' => by rw [e', g1] at f1; cases f1
      refine ⟨f1, f2, ?_⟩
      show J.buf.len ≤ (upd m.heap b.id _ J.buf.id).length ∧ (upd m.heap b.id _ J.buf.id).take _ = _
      rw [upd_other _ _ hne]; exact f3
  | eofHeader k got hp h1 h2 => exact ⟨o, h.setConn_free _ _ (by simp)⟩
  | eofBody k b got hp h1 h2 => exact ⟨o, h.setConn_free _ _ (by simp)⟩
  | fragment k got hp h1 h2 => exact ⟨o, h.setConn_free _ _ (by simp)⟩
  | buf k choice got hp h1 h2 =>
    obtain ⟨o', f1, f2, f3, f4, f5⟩ := getReqBuf_owns h choice (getU32 got &&& 0x7fffffff).toNat k
      (by rw [hp]; simp)
    refine ⟨o', f1.pool, f1.nodup, fun k' b' got' hp' => ?_, f1.job⟩
    rw [setConn_conns] at hp'
    split at hp'
    · next e =>
      subst e; cases hp'
      exact ⟨f2, f3, by rw [f4]; exact f5, by simp, by simp⟩
    · exact f1.conn k' b' got' hp'
  | spawn k b got hp h1 =>
    obtain ⟨g1, g2, g3, g4, g5⟩ := h.conn k b got hp
    refine ⟨upd o b.id (.job m.jobs.length), fun s hs => ?_, h.nodup, fun k' b' got' hp' => ?_, fun j J hj hl => ?_⟩
    · obtain ⟨f1, f2⟩ := h.pool s hs
      have hne : s.id ≠ b.id := fun e' => by rw [e', g1] at f1; cases f1
      exact ⟨by rw [upd_other _ _ hne]; exact f1, f2⟩
    · rw [setConn_conns] at hp'
      split at hp'
      · cases hp'
      · next e =>
        obtain ⟨f1, f2⟩ := h.conn k' b' got' hp'
        have hne : b'.id ≠ b.id := fun e' => by rw [e', g1] at f1; cases f1; exact e rfl
        exact ⟨by rw [upd_other _ _ hne]; exact f1, f2⟩
    · rcases append_jobs hj with hj | ⟨rfl, rfl⟩
      · obtain ⟨f1, f2⟩ := h.job j J hj hl
        have hne : J.buf.id ≠ b.id := fun e' => by rw [e', g1] at f1; cases f1
        exact ⟨by rw [upd_other _ _ hne]; exact f1, f2⟩
      · exact ⟨by simp, g2, g3, by rw [← h1]; exact g5⟩
  | act j J u n hj hp =>
    refine ⟨o, Owns.setJob_same (J := J) ?_ hj (by rw [hp]; rfl) rfl rfl⟩
    exact ⟨h.pool, h.nodup, h.conn, h.job⟩
  | retOk j J w hj hp => exact ⟨o, h.setJob_same hj (by rw [hp]; rfl) rfl rfl⟩
  | retErr j J e hj hp => exact ⟨o, h.setJob_same hj (by rw [hp]; rfl) rfl rfl⟩
  | write j n J rest hj hp h1 h2 h3 =>
    refine ⟨o, Owns.setJob_same (J := J) ?_ hj (by rw [hp]; rfl) rfl rfl⟩
    exact h.setConn_same _ _ rfl
  | fail j n J rest hj hp h1 h2 =>
    refine ⟨o, Owns.setJob_same (J := J) ?_ hj (by rw [hp]; rfl) rfl rfl⟩
    exact h.setConn_same _ _ rfl
  | put j J hj hp =>
    obtain ⟨g1, g2, g3⟩ := h.job j J hj (by rw [hp]; rfl)
    refine ⟨upd o J.buf.id .pool, fun s hs => ?_, ?_, fun k b got hp' => ?_, fun j' J' hj' hl => ?_⟩
    · rcases List.mem_cons.mp hs with rfl | hs
      · exact ⟨by simp, g2⟩
      · obtain ⟨f1, f2⟩ := h.pool s hs
        have hne : s.id ≠ J.buf.id := fun e' => by rw [e', g1] at f1; cases f1
        exact ⟨by rw [upd_other _ _ hne]; exact f1, f2⟩
    · refine List.nodup_cons.mpr ⟨fun hm => ?_, h.nodup⟩
      obtain ⟨s, hs, he⟩ := List.mem_map.mp hm
      have f1 := (h.pool s hs).1
      rw [he, g1] at f1; cases f1
    · obtain ⟨f1, f2⟩ := h.conn k b got hp'
      have hne : b.id ≠ J.buf.id := fun e' => by rw [e', g1] at f1; cases f1
      exact ⟨by rw [upd_other _ _ hne]; exact f1, f2⟩
    · rcases setJob_jobs hj' with ⟨rfl, rfl⟩ | ⟨hne', hj'⟩
      · cases hl
      · obtain ⟨f1, f2⟩ := h.job j' J' hj' hl
        have hne : J'.buf.id ≠ J.buf.id := fun e' => by rw [e', g1] at f1; cases f1; exact hne' rfl
        exact ⟨by rw [upd_other _ _ hne]; exact f1, f2⟩
  | drop i =>
    exact ⟨o, fun s hs => h.pool s ((List.eraseIdx_sublist _ _).subset hs), nodup_eraseIdx h.nodup, h.conn, h.job⟩

theorem exec_owns {inp : Nat → List UInt8} {s : σ} {as : List Act} {m : Machine σ}
    (h : exec hs whole (start inp s) as = some m) : ∃ o, Owns m o := by
  refine exec_inv (P := fun m => ∃ o, Owns m o) (fun m a m' h h' => step_owns h (step_sound h')) as _ _ ?_ h
  exact ⟨fun _ => .nobody, by simp [start], by simp [start], fun k b got hp => (by cases hp),
    fun j J hj => (by simp [start] at hj)⟩

end Verif.Rpc
