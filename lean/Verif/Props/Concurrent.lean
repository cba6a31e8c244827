/-
Properties C33, C34 and C35: any number of connections and request goroutines, in every interleaving
and with every behaviour of the buffer pool.  An execution is a list of actions of
`Verif.Rpc.Machine`; `hs k` is the handler table of the server of connection `k`, `inp k` what its
peer sends, `whole` says whether the transport takes each `Write` as a unit.
-/
import Verif.Rpc.Linear
import Verif.Rpc.Progress
import Verif.Rpc.Slices
import Verif.Props.Server
import Mathlib.Data.List.Forall2
import Mathlib.Data.List.Nodup
import Mathlib.Data.List.Basic

namespace Verif.Props
open Verif.Xdr Verif.Spec Verif.Rpc

variable {σ : Type} {hs : Nat → Handlers σ} {whole : Bool} {inp : Nat → List UInt8} {s : σ}

/-! ### C34 request buffers are not shared -/

/-- Goroutines that have not given their buffer back, connections that are reading into one, and the
pool have pairwise different buffers. -/
theorem C34_exclusive (as : List Act) (m : Machine σ) (h : exec hs whole (start inp s) as = some m) :
    (∀ (j j' : Nat) J J', m.jobs[j]? = some J → m.jobs[j']? = some J' → J.phase.live = true →
      J'.phase.live = true → J.buf.id = J'.buf.id → j = j') ∧
    (∀ k k' b b' got got', (m.conns k).phase = .body b got → (m.conns k').phase = .body b' got' →
      b.id = b'.id → k = k') ∧
    (∀ (j : Nat) J k b got, m.jobs[j]? = some J → J.phase.live = true → (m.conns k).phase = .body b got →
      J.buf.id ≠ b.id) ∧
    (∀ (j : Nat) J t, m.jobs[j]? = some J → J.phase.live = true → t ∈ m.pool → J.buf.id ≠ t.id) ∧
    (∀ k b got t, (m.conns k).phase = .body b got → t ∈ m.pool → b.id ≠ t.id) ∧
    (m.pool.map Slice.id).Nodup := by
  obtain ⟨o, ho⟩ := exec_owns h
  refine ⟨fun j j' J J' hj hj' hl hl' e => ?_, fun k k' b b' got got' hk hk' e => ?_,
    fun j J k b got hj hl hk e => ?_, fun j J t hj hl ht e => ?_, fun k b got t hk ht e => ?_, ho.nodup⟩
  · have h1 := (ho.job j J hj hl).1
    rw [e, (ho.job j' J' hj' hl').1] at h1
    exact (Owner.job.inj h1).symm
  · have h1 := (ho.conn k b got hk).1
    rw [e, (ho.conn k' b' got' hk').1] at h1
    exact (Owner.conn.inj h1).symm
  · have h1 := (ho.job j J hj hl).1
    rw [e, (ho.conn k b got hk).1] at h1
    cases h1
  · have h1 := (ho.job j J hj hl).1
    rw [e, (ho.pool t ht).1] at h1
    cases h1
  · have h1 := (ho.conn k b got hk).1
    rw [e, (ho.pool t ht).1] at h1
    cases h1

/-- Until it gives its buffer back, a goroutine finds in it exactly the bytes that were read for its
request. -/
theorem C34_contents (as : List Act) (m : Machine σ) (h : exec hs whole (start inp s) as = some m)
    (j : Nat) (J : Job σ) (hj : m.jobs[j]? = some J) (hl : J.phase.live = true) :
    (m.heap J.buf.id).take J.buf.len = J.req ∧ J.buf.len = J.req.length := by
  obtain ⟨o, ho⟩ := exec_owns h
  obtain ⟨_, _, h1, h2⟩ := ho.job j J hj hl
  refine ⟨h2, ?_⟩
  rw [← h2, List.length_take]; omega

/-- These requests are the records of the connection's byte stream, in order; all of them when the
reader has returned, and then its error tells how the stream ended. -/
theorem C34_requests (as : List Act) (m : Machine σ) (h : exec hs whole (start inp s) as = some m) (k : Nat) :
    ∃ ms e, Stream (inp k) ms e ∧ (m.jobs.filter fun J => J.conn == k).map Job.req <+: ms ∧
      ∀ err, (m.conns k).phase = .stopped err →
        (m.jobs.filter fun J => J.conn == k).map Job.req = ms ∧ Reported e err := by
  have hr := exec_reading h k
  have hpre : ∀ rest, After (inp k) (reqsOf m k) rest → ∃ ms e, Stream (inp k) ms e ∧ reqsOf m k <+: ms := by
    intro rest ha
    obtain ⟨ms, e, hs⟩ := stream_total rest
    exact ⟨_, e, ha.stream hs, ms, rfl⟩
  cases hp : (m.conns k).phase with
  | header got =>
    rw [Reading, hp] at hr
    obtain ⟨ms, e, h1, h2⟩ := hpre _ hr.2
    exact ⟨ms, e, h1, h2, fun err he => by cases he⟩
  | body b got =>
    rw [Reading, hp] at hr
    obtain ⟨ms, e, h1, h2⟩ := hpre _ hr.2.2
    exact ⟨ms, e, h1, h2, fun err he => by cases he⟩
  | stopped e =>
    rw [Reading, hp] at hr
    obtain ⟨rest, e', h1, h2, h3⟩ := hr
    have := h1.stream h2
    rw [List.append_nil] at this
    exact ⟨_, e', this, List.prefix_rfl, fun err he => by cases he; exact ⟨rfl, h3⟩⟩

/-! ### C33 whole replies, one per call -/

/-- The outcome of a request is one that `handleReqErr` can have on the bytes of that request. -/
theorem C33_outcome (as : List Act) (m : Machine σ) (h : exec hs whole (start inp s) as = some m)
    (j : Nat) (J : Job σ) (hj : m.jobs[j]? = some J) (r : Outcome) (hr : J.res = some r) :
    (handleReqErr (hs J.conn)).Yields J.req r :=
  (exec_computes h j J hj).1 r hr

/-- What has been written to a connection: the replies of some of its goroutines, whole, one after
the other, each at most once; if a `Write` has failed, possibly followed by the beginning of the reply
of one more. -/
theorem C33_output (as : List Act) (m : Machine σ) (h : exec hs true (start inp s) as = some m) (k : Nat) :
    ∃ (ws : List (Nat × List UInt8)) (tail : List UInt8),
      (m.conns k).output = (ws.map (·.2)).flatten ++ tail ∧ (ws.map (·.1)).Nodup ∧
      (∀ p ∈ ws, ∃ J, m.jobs[p.1]? = some J ∧ J.conn = k ∧ J.res = some (.ok p.2)) ∧
      ((m.conns k).broken = false → tail = []) ∧
      (tail = [] ∨ ∃ (j : Nat) (J : _) (w : List UInt8), m.jobs[j]? = some J ∧ J.conn = k ∧
        J.res = some (.ok w) ∧ tail <+: w ∧ j ∉ ws.map (·.1)) := by
  obtain ⟨order, tail, hw⟩ := exec_writes h k
  have get : ∀ (j : Nat) w b, m.view[j]? = some (k, some (.ok w), b) →
      ∃ J, m.jobs[j]? = some J ∧ J.conn = k ∧ J.res = some (.ok w) := by
    intro j w b hv
    rw [view_get] at hv
    obtain ⟨J, h1, h2⟩ := Option.map_eq_some_iff.mp hv
    simp only [Prod.mk.injEq] at h2
    exact ⟨J, h1, h2.1, h2.2.1⟩
  have hfst : ((order.map fun j => (j, replyAt m.view j)).map (·.1)) = order := by
    rw [List.map_map]; exact List.map_id' _
  refine ⟨order.map fun j => (j, replyAt m.view j), tail, ?_, ?_, ?_, fun hb => (hw.good hb).1, ?_⟩
  · rw [hw.out, List.map_map]; rfl
  · rw [hfst]; exact hw.nodup
  · intro p hp
    obtain ⟨j, hj, rfl⟩ := List.mem_map.mp hp
    obtain ⟨w, hw'⟩ := hw.mem j hj
    have : replyAt m.view j = w := by rw [replyAt, hw']
    dsimp only
    rw [this]
    exact get j w true hw'
  · cases hb : (m.conns k).broken with
    | false => exact .inl (hw.good hb).1
    | true =>
      rcases hw.bad hb with h | ⟨j, w, h1, h2, h3⟩
      · exact .inl h
      · obtain ⟨J, g1, g2, g3⟩ := get j w true h1
        exact .inr ⟨j, J, w, g1, g2, g3, h3, by rw [hfst]; exact h2⟩

/-- The reply, if the outcome is one. -/
def okPart : Outcome → Option (List UInt8)
  | .ok w => some w
  | .error _ => none

/-- The reader of connection `k` has returned and all its requests have been processed. -/
def Quiet (m : Machine σ) (k : Nat) : Prop :=
  (∃ e, (m.conns k).phase = .stopped e) ∧ ∀ J ∈ m.jobs, J.conn = k → J.phase = .done

private theorem filterMap_congr {α β : Type} {f g : α → Option β} {l : List α} (h : ∀ a ∈ l, f a = g a) :
    l.filterMap f = l.filterMap g := by
  induction l with
  | nil => rfl
  | cons a l ih =>
    rw [List.filterMap_cons, List.filterMap_cons, h a (List.mem_cons_self ..),
      ih fun b hb => h b (List.mem_cons_of_mem _ hb)]

private theorem filterMap_range {α β : Type} (l : List α) (g : α → Option β) :
    l.filterMap g = (List.range l.length).filterMap fun j => l[j]?.bind g := by
  induction l using List.reverseRecOn with
  | nil => rfl
  | append_singleton l a ih =>
    rw [List.filterMap_append, ih, List.length_append, List.length_singleton, List.range_succ,
      List.filterMap_append]
    have h1 : (List.range l.length).filterMap (fun j => l[j]?.bind g) =
        (List.range l.length).filterMap fun j => (l ++ [a])[j]?.bind g := by
      apply filterMap_congr
      intro j hj
      rw [List.getElem?_append_left (List.mem_range.mp hj)]
    have h2 : [l.length].filterMap (fun j => (l ++ [a])[j]?.bind g) = [a].filterMap g := by
      simp [List.filterMap_cons]
    rw [h1, h2]

/-- When a connection has come to rest and no `Write` on it has failed, its output is a rearrangement
of the replies to the records of its input: `outs` are the outcomes of the requests `ms`, one each. -/
theorem C33_quiescent (as : List Act) (m : Machine σ) (h : exec hs true (start inp s) as = some m) (k : Nat)
    (hq : Quiet m k) (hb : (m.conns k).broken = false) :
    ∃ ms e outs order, Stream (inp k) ms e ∧
      List.Forall₂ (fun req r => (handleReqErr (hs k)).Yields req r) ms outs ∧
      List.Perm order (outs.filterMap okPart) ∧ (m.conns k).output = order.flatten := by
  obtain ⟨ms, e, h1, _, h2⟩ := C34_requests as m h k
  obtain ⟨⟨err, he⟩, hq⟩ := hq
  obtain ⟨h2, _⟩ := h2 err he
  have hres : ∀ J ∈ m.jobs, J.conn = k → ∃ r, J.res = some r ∧ (handleReqErr (hs k)).Yields J.req r := by
    intro J hJ hk
    obtain ⟨j, hj⟩ := List.getElem?_of_mem hJ
    have hc := exec_computes h j J hj
    have hp := hq J hJ hk
    have h3 := hc.2
    rw [hp] at h3
    obtain ⟨r, hr⟩ := Option.isSome_iff_exists.mp h3
    exact ⟨r, hr, hk ▸ hc.1 r hr⟩
  obtain ⟨ord, tail, hw⟩ := exec_writes h k
  obtain ⟨ht, hall⟩ := hw.good hb
  -- the reply of a goroutine of connection k
  let g : Job σ → Option (List UInt8) := fun J => if J.conn == k then J.res.bind okPart else none
  have hview : ∀ (j : Nat) w, m.view[j]? = some (k, some (.ok w), true) ↔ m.jobs[j]?.bind g = some w := by
    intro j w
    rw [view_get]
    cases hj : m.jobs[j]? with
    | none => simp
    | some J =>
      simp only [Option.map_some, Option.some.injEq, Option.bind_some, g, Prod.mk.injEq]
      by_cases hk : J.conn = k
      · have hd : J.phase = .done := hq J (List.mem_of_getElem? hj) hk
        simp only [hk, true_and, hd, JobPhase.finished, and_true, beq_self_eq_true, if_true]
        cases J.res with
        | none => simp
        | some r => cases r <;> simp [okPart]
      · have hkb : (J.conn == k) = false := by simpa using hk
        simp [hk]
  have hnd : ((List.range m.jobs.length).filter fun j => (m.jobs[j]?.bind g).isSome).Nodup :=
    List.Nodup.filter _ List.nodup_range
  have hperm : List.Perm ord ((List.range m.jobs.length).filter fun j => (m.jobs[j]?.bind g).isSome) := by
    rw [List.perm_ext_iff_of_nodup hw.nodup hnd]
    intro j
    rw [List.mem_filter, List.mem_range]
    constructor
    · intro hj
      obtain ⟨w, hw'⟩ := hw.mem j hj
      have h3 := (hview j w).mp hw'
      refine ⟨?_, by rw [h3]; rfl⟩
      cases hj' : m.jobs[j]? with
      | none => rw [hj'] at h3; cases h3
      | some J => exact (List.getElem?_eq_some_iff.mp hj').1
    · rintro ⟨_, hj⟩
      obtain ⟨w, hw'⟩ := Option.isSome_iff_exists.mp hj
      exact hall j w ((hview j w).mpr hw')
  refine ⟨ms, e, (m.jobs.filter fun J => J.conn == k).map fun J => J.res.getD (.ok []), ord.map (replyAt m.view),
    h1, ?_, ?_, ?_⟩
  · rw [← h2, List.forall₂_map_left_iff, List.forall₂_map_right_iff, List.forall₂_same]
    intro J hJ
    obtain ⟨hJ, hk⟩ := List.mem_filter.mp hJ
    obtain ⟨r, hr, hy⟩ := hres J hJ (by simpa using hk)
    rw [hr]; exact hy
  · refine (hperm.map (replyAt m.view)).trans (.of_eq ?_)
    have e1 : (m.jobs.filter fun J => J.conn == k).filterMap (fun J => okPart (J.res.getD (.ok []))) =
        m.jobs.filterMap g := by
      rw [List.filterMap_filter]
      apply filterMap_congr
      intro J hJ
      by_cases hk : J.conn = k
      · obtain ⟨r, hr, _⟩ := hres J hJ hk
        simp [g, hk, hr]
      · simp [g, hk]
    rw [List.filterMap_map]
    refine Eq.trans ?_ e1.symm
    rw [filterMap_range, ← List.filterMap_eq_map, List.filterMap_filter]
    apply filterMap_congr
    intro j _
    cases hj : m.jobs[j]?.bind g with
    | none => simp
    | some w => simp [replyAt, (hview j w).mpr hj]
  · rw [hw.out, ht, List.append_nil]

/-! The outcomes, in terms of RFC 1057: the same classification as for a request on its own (C28),
with "the handler returns" replaced by "the handler may return, given what the others do". -/

private theorem yields_bind {V α β : Type} {f : α → Proc V σ β} {v : V} {b : β} {p : Proc V σ α}
    (h : (p.bind f).Yields v b) : ∃ a, p.Yields v a ∧ (f a).Yields v b := by
  induction p with
  | ret a => exact ⟨a, .ret a v, h⟩
  | act u n ih =>
    unfold Proc.bind at h
    cases h with
    | act s h =>
      obtain ⟨a, h1, h2⟩ := ih _ _ h
      exact ⟨a, .act s h1, h2⟩

private theorem yields_comap {V W α : Type} {f : V → W} {v : V} {a : α} {p : Proc W σ α}
    (h : (p.comap f).Yields v a) : p.Yields (f v) a := by
  induction p with
  | ret a => unfold Proc.comap at h; cases h; exact .ret _ _
  | act u n ih =>
    unfold Proc.comap at h
    cases h with
    | act s h => exact .act s (ih _ _ h)

private theorem yields_ret {V α : Type} {v : V} {a b : α} (h : (.ret a : Proc V σ α).Yields v b) : b = a := by
  cases h; rfl

/-- What `handleReqErr` may return for a call, in terms of the table lookups. -/
private theorem yields_call (hs : Handlers σ) {c : Call} {args b : List UInt8} (hb : IsCall c args b)
    {r : Outcome} (h : (handleReqErr hs).Yields b r) :
    if c.rpcvers ≠ 2 then r = reply (deniedMsg c.xid) none
    else match hs c.prog with
      | none => r = reply (acceptedMsg c.xid 1) none
      | some vermap =>
        match vermap c.vers with
        | none => r = reply (acceptedMsg c.xid 2) none
        | some procmap =>
          match procmap c.proc with
          | none => r = reply (acceptedMsg c.xid 3) none
          | some hd => ∃ a, hd.Yields (makeReader args) a ∧
              r = reply (acceptedMsg c.xid (if a.2 then 4 else 0)) a.1 := by
  have hl : ∃ p, b = p ++ args := by
    obtain ⟨wc, wv, _, _, rfl⟩ := hb
    exact ⟨_, rfl⟩
  unfold handleReqErr at h
  cases h with
  | act s h =>
  simp only [decode_call hb] at h
  by_cases hv : c.rpcvers = 2
  · simp only [makeReader, ne_eq, not_true_eq_false, if_false, callBodyOf, hv] at h ⊢
    cases hp : hs c.prog with
    | none => rw [hp] at h; exact yields_ret h
    | some vm =>
      rw [hp] at h
      simp only [] at h ⊢
      cases hq : vm c.vers with
      | none => rw [hq] at h; exact yields_ret h
      | some pm =>
        rw [hq] at h
        simp only [] at h ⊢
        cases hr : pm c.proc with
        | none => rw [hr] at h; exact yields_ret h
        | some hd =>
          rw [hr] at h
          obtain ⟨a, h1, h2⟩ := yields_bind h
          have h3 := yields_comap h1
          obtain ⟨p, rfl⟩ := hl
          have hdrop : (p ++ args).drop ((p ++ args).length - args.length) = args := by simp
          rw [hdrop] at h3
          refine ⟨a, h3, ?_⟩
          obtain ⟨d, e⟩ := a
          cases e <;> exact yields_ret h2
  · simp only [makeReader, callBodyOf, hv, ne_eq, not_true_eq_false, if_false, not_false_eq_true, if_true] at h ⊢
    exact yields_ret h

/-- The same registrations, but all handlers return `a`. -/
private def constRegs (regs : List (ProcReg σ)) (a : Option Xdrable × Bool) : List (ProcReg σ) :=
  regs.map fun r => { r with handler := .ret a }

private theorem lastReg_const (regs : List (ProcReg σ)) (a : Option Xdrable × Bool) (p v c : UInt32) :
    lastReg (constRegs regs a) p v c = (lastReg regs p v c).map fun _ => .ret a := by
  simp only [lastReg, constRegs, ← List.map_reverse, List.find?_map, Option.map_map]
  rfl

private theorem yields_const (regs : List (ProcReg σ)) {c : Call} {args b : List UInt8} (hb : IsCall c args b)
    {r : Outcome} (h : (handleReqErr (registerMany makeServer regs)).Yields b r) :
    ∃ a, (∀ hd, c.rpcvers = 2 → lastReg regs c.prog c.vers c.proc = some hd → hd.Yields (makeReader args) a) ∧
      ∀ s', (handleReqErr (registerMany makeServer (constRegs regs a))).run b s' = (s', r) := by
  have hy := yields_call _ hb h
  have hl := C27_lookup regs c.prog c.vers c.proc
  have hpr := C27_prog regs c.prog
  have hve := C27_vers regs c.prog c.vers
  have key : ∀ a s', (handleReqErr (registerMany makeServer (constRegs regs a))).run b s' =
      (s', if c.rpcvers ≠ 2 then reply (deniedMsg c.xid) none
      else if ∀ r ∈ regs, r.prog ≠ c.prog then reply (acceptedMsg c.xid 1) none
      else if ∀ r ∈ regs, ¬ (r.prog = c.prog ∧ r.vers = c.vers) then
        reply (acceptedMsg c.xid 2) none
      else match lastReg regs c.prog c.vers c.proc with
        | none => reply (acceptedMsg c.xid 3) none
        | some _ => reply (acceptedMsg c.xid (if a.2 then 4 else 0)) a.1) := by
    intro a s'
    have e1 : (∀ r ∈ constRegs regs a, r.prog ≠ c.prog) ↔ ∀ r ∈ regs, r.prog ≠ c.prog := by
      simp [constRegs]
    have e2 : (∀ r ∈ constRegs regs a, ¬ (r.prog = c.prog ∧ r.vers = c.vers)) ↔
        ∀ r ∈ regs, ¬ (r.prog = c.prog ∧ r.vers = c.vers) := by
      simp [constRegs]
    rw [handle_regs _ hb, lastReg_const]
    simp only [e1, e2]
    split
    · rfl
    split
    · rfl
    split
    · rfl
    cases lastReg regs c.prog c.vers c.proc <;> rfl
  generalize registerMany makeServer regs = hs at hl hpr hve hy
  by_cases hv : c.rpcvers = 2
  swap
  · rw [if_pos hv] at hy
    exact ⟨(none, true), fun hd h2 => absurd h2 hv, fun s' => by rw [key, if_pos hv, hy]⟩
  have hv' : ¬ c.rpcvers ≠ 2 := fun h => h hv
  rw [if_neg hv'] at hy
  cases hq : hs c.prog with
  | none =>
    rw [hq] at hy
    refine ⟨(none, true), fun hd _ hd' => ?_, fun s' => by rw [key, if_neg hv', if_pos (hpr.mp hq), hy]⟩
    rw [← hl] at hd'
    simp [Handlers.lookup, Handlers.vers, hq] at hd'
  | some vm =>
    have hn1 : ¬ ∀ r ∈ regs, r.prog ≠ c.prog := by rw [← hpr, hq]; simp
    rw [hq] at hy
    cases hm : vm c.vers with
    | none =>
      simp only [hm] at hy
      refine ⟨(none, true), fun hd _ hd' => ?_, fun s' => by
        rw [key, if_neg hv', if_neg hn1, if_pos (by rw [← hve]; simp [Handlers.vers, hq, hm]), hy]⟩
      rw [← hl] at hd'
      simp [Handlers.lookup, Handlers.vers, hq, hm] at hd'
    | some pm =>
      simp only [hm] at hy
      have hn2 : ¬ ∀ r ∈ regs, ¬ (r.prog = c.prog ∧ r.vers = c.vers) := by
        rw [← hve]; simp [Handlers.vers, hq, hm]
      have hlook : lastReg regs c.prog c.vers c.proc = pm c.proc := by
        rw [← hl]; simp [Handlers.lookup, Handlers.vers, hq, hm]
      cases hp : pm c.proc with
      | none =>
        simp only [hp] at hy
        refine ⟨(none, true), fun hd _ hd' => ?_, fun s' => by
          rw [key, if_neg hv', if_neg hn1, if_neg hn2, hlook, hp, hy]⟩
        rw [hlook, hp] at hd'; cases hd'
      | some hd =>
        simp only [hp] at hy
        obtain ⟨a, ha, hr⟩ := hy
        refine ⟨a, fun hd2 _ hd' => ?_, fun s' => by
          rw [key, if_neg hv', if_neg hn1, if_neg hn2, hlook, hp, hr]⟩
        rw [hlook, hp] at hd'; cases hd'; exact ha

/-- The outcome is one record with the reply `rep` for transaction `xid`. -/
def Replied (r : Outcome) (xid : UInt32) (rep : Reply) : Prop :=
  ∃ m rec, r = .ok rec ∧ IsReply xid rep m ∧ IsRecord m rec

/-- Whatever the other requests do, a call is answered as RFC 1057 prescribes for it. -/
theorem C33_classify (regs : List (ProcReg σ)) (c : Call) (args b : List UInt8) (hb : IsCall c args b)
    (r : Outcome) (h : (handleReqErr (registerMany makeServer regs)).Yields b r) :
    (c.rpcvers ≠ 2 → Replied r c.xid (.rpcMismatch 0 0)) ∧
    (c.rpcvers = 2 → (∀ r ∈ regs, r.prog ≠ c.prog) → Replied r c.xid (.accepted .null .progUnavail)) ∧
    (c.rpcvers = 2 → (∃ r ∈ regs, r.prog = c.prog) →
      (∀ r ∈ regs, ¬ (r.prog = c.prog ∧ r.vers = c.vers)) →
      Replied r c.xid (.accepted .null (.progMismatch 0 0))) ∧
    (c.rpcvers = 2 → (∃ r ∈ regs, r.prog = c.prog ∧ r.vers = c.vers) →
      lastReg regs c.prog c.vers c.proc = none → Replied r c.xid (.accepted .null .procUnavail)) ∧
    (∀ hd, c.rpcvers = 2 → lastReg regs c.prog c.vers c.proc = some hd →
      ∃ a, hd.Yields (makeReader args) a ∧
        (a = (none, true) → Replied r c.xid (.accepted .null .garbageArgs)) ∧
        (a = (none, false) → Replied r c.xid (.accepted .null (.success []))) ∧
        (∀ d bytes, a = (some d, false) → Encodes d bytes → 24 + bytes.length < 2 ^ 31 →
          Replied r c.xid (.accepted .null (.success bytes)))) := by
  obtain ⟨a, ha, hrun⟩ := yields_const regs hb h
  by_cases hne : Nonempty σ
  swap
  · -- without a state there is no execution, but then the first action of `handleReqErr` has none either
    cases h with
    | act s _ => exact absurd ⟨s⟩ hne
  obtain ⟨s⟩ := hne
  have hrep : ∀ {s' : σ} {rep : Reply}, Answered (s, r) s' c.xid rep → Replied r c.xid rep := fun h => h.2
  have e1 : (∀ r ∈ constRegs regs a, r.prog ≠ c.prog) ↔ ∀ r ∈ regs, r.prog ≠ c.prog := by simp [constRegs]
  have e2 : (∀ r ∈ constRegs regs a, ¬ (r.prog = c.prog ∧ r.vers = c.vers)) ↔
      ∀ r ∈ regs, ¬ (r.prog = c.prog ∧ r.vers = c.vers) := by simp [constRegs]
  have e3 : (∃ r ∈ constRegs regs a, r.prog = c.prog) ↔ ∃ r ∈ regs, r.prog = c.prog := by simp [constRegs]
  have e4 : (∃ r ∈ constRegs regs a, r.prog = c.prog ∧ r.vers = c.vers) ↔
      ∃ r ∈ regs, r.prog = c.prog ∧ r.vers = c.vers := by simp [constRegs]
  obtain ⟨h0, h1, h2, h3, h4⟩ := C28_classify (constRegs regs a) c args b hb s
  rw [hrun, e1] at *
  rw [e2, e3] at h2
  rw [e4, lastReg_const] at h3
  refine ⟨fun h => hrep (h0 h), fun h h' => hrep (h1 h h'), fun h h' h'' => hrep (h2 h h' h''),
    fun h h' h'' => hrep (h3 h h' (by rw [h'']; rfl)), fun hd hv hl => ⟨a, ha hd hv hl, ?_⟩⟩
  obtain ⟨g1, g2, g3⟩ := h4 (.ret a) hv (by rw [lastReg_const, hl]; rfl)
  exact ⟨fun h => hrep (g1 h), fun h => hrep (g2 h), fun d bytes h hd hb => hrep (g3 d bytes h hd hb)⟩

/-- Requests that are not calls are not answered. -/
theorem C33_silent (regs : List (ProcReg σ)) (b : List UInt8) (hb : ¬ ∃ c args, IsCall c args b) (r : Outcome)
    (h : (handleReqErr (registerMany makeServer regs)).Yields b r) : ∃ e, r = .error e := by
  rw [← decode_call_iff] at hb
  unfold handleReqErr at h
  cases h with
  | act s h =>
  dsimp only at h
  cases he : (RpcMsg.zero.xdr (makeReader b)).1.err with
  | some e => rw [he] at h; exact ⟨_, yields_ret h⟩
  | none =>
    rw [he] at h
    dsimp only at h
    rw [if_pos fun hm => hb ⟨he, hm⟩] at h
    exact ⟨_, yields_ret h⟩

/-- Handlers whose possible results are as expected: an error comes without a result, and results
only append to the output or report an error. -/
def OrderlyAlways (regs : List (ProcReg σ)) : Prop :=
  ∀ r ∈ regs, ∀ rd a, r.handler.Yields rd a → (a.2 = true → a.1 = none) ∧ ∀ d, a.1 = some d → WellBehaved d

/-- Whatever is written for a request, in whatever interleaving, is a reply with the transaction id of
that request. -/
theorem C33_reply (regs : List (ProcReg σ)) (ho : OrderlyAlways regs) (b rec : List UInt8)
    (h : (handleReqErr (registerMany makeServer regs)).Yields b (.ok rec)) :
    ∃ c args m r mark, IsCall c args b ∧ IsReply c.xid r m ∧ rec = mark ++ m ∧ mark.length = 4 ∧
      (m.length < 2 ^ 31 → IsRecord m rec) := by
  by_cases hc : ∃ c args, IsCall c args b
  swap
  · obtain ⟨e, he⟩ := C33_silent regs b hc _ h; cases he
  obtain ⟨c, args, hb⟩ := hc
  obtain ⟨a, ha, hrun⟩ := yields_const regs hb h
  by_cases hne : Nonempty σ
  swap
  · cases h with
    | act s _ => exact absurd ⟨s⟩ hne
  obtain ⟨s⟩ := hne
  by_cases hh : c.rpcvers = 2 ∧ (lastReg regs c.prog c.vers c.proc).isSome
  · obtain ⟨hv, hh⟩ := hh
    obtain ⟨hd, hl⟩ := Option.isSome_iff_exists.mp hh
    obtain ⟨rg, hrg, _, _, _, rfl⟩ := lastReg_mem hl
    have hao := ho rg hrg _ a (ha _ hv hl)
    refine C29_reply (constRegs regs a) (fun r hr rd s => ?_) b s rec (by rw [hrun])
    obtain ⟨r0, _, rfl⟩ := List.mem_map.mp hr
    exact hao
  · -- no handler is involved: any outcome of the handlers gives the same answer
    have hrun' : ((handleReqErr (registerMany makeServer (constRegs regs (none, true)))).run b s).2 = .ok rec := by
      have h1 := hrun s
      rw [handle_regs _ hb, lastReg_const] at h1 ⊢
      have e1 : ∀ a, (∀ r ∈ constRegs regs a, r.prog ≠ c.prog) ↔ ∀ r ∈ regs, r.prog ≠ c.prog := by
        simp [constRegs]
      have e2 : ∀ a, (∀ r ∈ constRegs regs a, ¬ (r.prog = c.prog ∧ r.vers = c.vers)) ↔
          ∀ r ∈ regs, ¬ (r.prog = c.prog ∧ r.vers = c.vers) := by simp [constRegs]
      simp only [e1, e2] at h1 ⊢
      by_cases hv : c.rpcvers = 2
      · have hl : lastReg regs c.prog c.vers c.proc = none := by
          cases hl : lastReg regs c.prog c.vers c.proc with
          | none => rfl
          | some hd => exact absurd ⟨hv, by rw [hl]; rfl⟩ hh
        rw [hl] at h1 ⊢
        simp only [Option.map_none] at h1 ⊢
        rw [h1]
      · rw [if_pos hv] at h1 ⊢
        rw [h1]
    refine C29_reply (constRegs regs (none, true)) (fun r hr rd s => ?_) b s rec hrun'
    obtain ⟨r0, _, rfl⟩ := List.mem_map.mp hr
    exact ⟨fun _ => rfl, fun d hd => by cases hd⟩

/-! Nothing can get stuck. -/

/-- From every reachable state the system can come to rest, without `Write` errors other than those
that have occurred. -/
theorem C33_progress (as : List Act) (m : Machine σ) (h : exec hs whole (start inp s) as = some m) (k : Nat) :
    ∃ as' m', exec hs whole m as' = some m' ∧ Quiet m' k ∧ (m'.conns k).broken = (m.conns k).broken := by
  have hok : ReaderOk (m.conns k) := by
    have := exec_reading h k
    rw [Reading] at this
    rw [ReaderOk]
    cases hp : (m.conns k).phase with
    | header got => rw [hp] at this; exact this.1
    | body b got => rw [hp] at this; exact this.2.1
    | stopped e => trivial
  obtain ⟨m1, ⟨as1, h1⟩, ⟨e, he⟩, hb1⟩ := finish_reader (hs := hs) (whole := whole) k _ m (Nat.le_refl _) hok
  obtain ⟨m2, ⟨as2, h2⟩, hlen, hd, hc⟩ := finish_jobs (hs := hs) (whole := whole) m1 m1.jobs.length
  refine ⟨as1 ++ as2, m2, by rw [exec_append, h1]; exact h2, ⟨⟨e, ?_⟩, fun J hJ _ => ?_⟩, ?_⟩
  · rw [(hc k).1, he]
  · obtain ⟨j, hj⟩ := List.getElem?_of_mem hJ
    exact hd j J (by rw [← hlen]; exact (List.getElem?_eq_some_iff.mp hj).1) hj
  · rw [(hc k).2, hb1]

/-! Linearizability. -/

/-- If handlers act on their shared state once per call (for instance, hold a lock while they use it),
every execution is equivalent to processing the requests one at a time, in an order that respects real
time: at each moment of the execution (after the actions `as₁`), the requests that have an outcome are
among the first `o₁` of the order, and all of those have been read by then.

`Serial hs jobs s o s'` says that processing the requests of `o` alone, in this order, from state `s`
has the outcomes in `o` and ends in state `s'`. -/
theorem C33_linear (hone : ∀ k, (hs k).OneShot) (as : List Act) (m : Machine σ)
    (h : exec hs whole (start inp s) as = some m) :
    ∃ o : List (Nat × Outcome), (o.map (·.1)).Nodup ∧ Serial hs m.jobs s o m.st ∧
      (∀ (j : Nat) J r, m.jobs[j]? = some J → J.res = some r → (j, r) ∈ o) ∧
      ∀ as₁ as₂ m₁, as = as₁ ++ as₂ → exec hs whole (start inp s) as₁ = some m₁ →
        ∃ o₁, o₁ <+: o ∧ (∀ (j : Nat) J r, m₁.jobs[j]? = some J → J.res = some r → (j, r) ∈ o₁) ∧
          ∀ j ∈ o₁.map (·.1), j < m₁.jobs.length := by
  suffices H : ∃ o, Lin hs s m o ∧ ∀ as₁ as₂ m₁, as = as₁ ++ as₂ → exec hs whole (start inp s) as₁ = some m₁ →
      ∃ o₁, o₁ <+: o ∧ Lin hs s m₁ o₁ by
    obtain ⟨o, hl, hp⟩ := H
    refine ⟨o, hl.nodup, hl.serial, hl.res, fun as₁ as₂ m₁ he h1 => ?_⟩
    obtain ⟨o₁, hpre, hl1⟩ := hp as₁ as₂ m₁ he h1
    exact ⟨o₁, hpre, hl1.res, hl1.lt⟩
  induction as using List.reverseRecOn generalizing m with
  | nil =>
    cases h
    refine ⟨[], start_lin inp s, fun as₁ as₂ m₁ he h1 => ?_⟩
    obtain ⟨rfl, rfl⟩ := List.append_eq_nil_iff.mp he.symm
    cases h1
    exact ⟨[], List.prefix_rfl, start_lin inp s⟩
  | append_singleton as a ih =>
    rw [exec_append] at h
    cases hm : exec hs whole (start inp s) as with
    | none => rw [hm] at h; cases h
    | some m0 =>
      rw [hm] at h
      obtain ⟨o, hl, hp⟩ := ih m0 hm
      obtain ⟨o', hl'⟩ := exec_lin hone [a] (exec_owns hm) (exec_computes hm) hl h
      refine ⟨o ++ o', hl', fun as₁ as₂ m₁ he h1 => ?_⟩
      rcases List.eq_nil_or_concat as₂ with rfl | ⟨l, x, rfl⟩
      · rw [List.append_nil] at he
        subst he
        rw [exec_append, hm] at h1
        rw [Option.bind_some] at h1 h
        rw [h] at h1; cases h1
        exact ⟨_, List.prefix_rfl, hl'⟩
      · rw [List.concat_eq_append, ← List.append_assoc] at he
        obtain ⟨he, _⟩ := List.append_inj' he rfl
        obtain ⟨o₁, h2, h3⟩ := hp as₁ l m₁ he h1
        exact ⟨o₁, h2.trans (List.prefix_append _ _), h3⟩

/-! Concrete executions: two calls on one connection, to the server of `demoRegs`, adding 5 and 7 to
a counter that is 37. -/

/-- A record with a call of procedure `proc` with transaction id `xid` and argument `x`. -/
def addRecord (proc xid : UInt32) (x : UInt8) : List UInt8 :=
  let b := callBytes { demoCall proc with xid := xid } [0, 0, 0, x]
  be 4 (2 ^ 31 + b.length) ++ b

/-- The peer of connection 0 sends these, nobody else sends anything. -/
def twoCalls (proc : UInt32) : Nat → List UInt8
  | 0 => addRecord proc 1 5 ++ addRecord proc 2 7
  | _ => []

/-- Both requests are read and decoded, the second one is processed and answered first. -/
def overtaking : List Act :=
  [.read 0 4, .mark 0 none, .read 0 30, .read 0 22, .spawn 0, .act 0, .read 0 2, .read 0 2, .mark 0 none,
   .read 0 52, .spawn 0, .act 1, .act 1, .ret 1, .write 1 32, .put 1, .act 0, .eof 0, .ret 0, .write 0 32, .put 0]

/-- Everything about connection 0 that the examples look at. -/
structure Summary where
  output : List UInt8
  st : UInt32
  done : List Bool
  broken : Bool
  stopped : Bool
  res : List (Option (List UInt8))
  req : List (List UInt8)
  deriving DecidableEq

private def summary (m : Machine UInt32) : Summary :=
  ⟨(m.conns 0).output, m.st, m.jobs.map (fun J => J.phase matches .done), (m.conns 0).broken,
    (m.conns 0).phase matches .stopped _, m.jobs.map fun J => J.res.bind okPart, m.jobs.map Job.req⟩

private def reqs : List (List UInt8) := [(addRecord 3 1 5).drop 4, (addRecord 3 2 7).drop 4]

private theorem summary_quiet {m : Machine UInt32} (h5 : (m.conns 0).phase matches .stopped _)
    (h3 : m.jobs.map (fun J => J.phase matches .done) = [true, true]) : Quiet m 0 := by
  refine ⟨?_, fun J hJ _ => ?_⟩
  · split at h5
    · exact ⟨_, by assumption⟩
    · cases h5
  · have : (match J.phase with | .done => true | _ => false) = true := by
      have hmem := List.mem_map_of_mem (f := fun J : Job UInt32 => (J.phase matches .done)) hJ
      rw [h3] at hmem
      simpa using hmem
    split at this
    · assumption
    · cases this

/-- The replies of transactions 1 and 2, with result `x`. -/
private def addReply (xid x : UInt8) : List UInt8 :=
  [128, 0, 0, 28, 0, 0, 0, xid, 0, 0, 0, 1, 0, 0, 0, 0, 0, 0, 0, 0, 0, 0, 0, 0, 0, 0, 0, 0, 0, 0, 0, x]

/-- The hypotheses of `C33_quiescent` hold after `overtaking`; the second request was answered first,
with 37 + 7, the first one with 37 + 7 + 5. -/
theorem overtaking_state : ∃ m, exec (fun _ => registerMany makeServer demoRegs) true
    (start (twoCalls 3) (37 : UInt32)) overtaking = some m ∧ Quiet m 0 ∧ (m.conns 0).broken = false ∧
    m.jobs.length = 2 ∧ m.st = 49 ∧ (m.conns 0).output = addReply 2 44 ++ addReply 1 49 := by
  have h : (exec (fun _ => registerMany makeServer demoRegs) true (start (twoCalls 3) (37 : UInt32))
      overtaking).map summary = some ⟨addReply 2 44 ++ addReply 1 49, 49, [true, true], false, true,
        [some (addReply 1 49), some (addReply 2 44)], reqs⟩ := by decide +kernel
  obtain ⟨m, hm, h⟩ := Option.map_eq_some_iff.mp h
  simp only [summary, Summary.mk.injEq] at h
  obtain ⟨h1, h2, h3, h4, h5, h6, _⟩ := h
  exact ⟨m, hm, summary_quiet h5 h3, h4, by simpa using congrArg List.length h3, h2, h1⟩

/-- Handlers made of one atomic action are covered by `C33_linear`. -/
theorem oneShot_atom {regs : List (ProcReg σ)}
    (h : ∀ r ∈ regs, (∃ a, r.handler = .ret a) ∨ ∃ g, r.handler = .atom g) :
    (registerMany makeServer regs).OneShot := by
  intro p v c hd hl rd
  rw [C27_lookup] at hl
  obtain ⟨r, hr, _, _, _, rfl⟩ := lastReg_mem hl
  rcases h r hr with ⟨a, ha⟩ | ⟨g, hg⟩
  · rw [ha]; trivial
  · rw [hg]; exact .inr fun s => trivial

example : (registerMany makeServer demoRegs).OneShot := by
  refine oneShot_atom fun r hr => ?_
  simp only [demoRegs, List.mem_cons, List.not_mem_nil, or_false] at hr
  rcases hr with rfl | rfl | rfl
  · exact .inl ⟨_, rfl⟩
  · exact .inl ⟨_, rfl⟩
  · exact .inr ⟨_, rfl⟩

example : OrderlyAlways demoRegs := by
  intro r hr rd a ha
  simp only [demoRegs, List.mem_cons, List.not_mem_nil, or_false] at hr
  rcases hr with rfl | rfl | rfl
  · cases ha; simp
  · cases ha; simp
  · unfold addHandler Proc.atom at ha
    cases ha with
    | act s ha =>
      cases ha
      dsimp only
      split
      · simp
      · refine ⟨by simp, fun d hd => ?_⟩
        cases hd
        exact .inr ⟨be 4 (s + (xdrU32 rd 0).2).toNat, fun w => by simp only [u32_writer]⟩

/-! The hypotheses are needed. -/

/-- The same schedule, except that the `Write`s of the two replies are interleaved. -/
def tearing : List Act :=
  [.read 0 4, .mark 0 none, .read 0 52, .spawn 0, .act 0, .read 0 4, .mark 0 none, .read 0 52, .spawn 0, .act 1,
   .act 1, .ret 1, .act 0, .ret 0, .write 0 4, .write 1 32, .write 0 28, .put 1, .eof 0, .put 0]

/-- The outcome of the goroutine was the reply `w`. -/
private theorem res_ok {m : Machine UInt32} {w₀ w₁ : List UInt8}
    (h : (m.jobs.map fun J => J.res.bind okPart) = [some w₀, some w₁]) :
    m.jobs.map Job.res = [some (.ok w₀), some (.ok w₁)] := by
  have hb : ∀ {r : Option Outcome} {w}, r.bind okPart = some w → r = some (.ok w) := by
    intro r w h
    cases r with
    | none => cases h
    | some r => cases r with
      | error e => cases h
      | ok w' => cases h; rfl
  match hj : m.jobs, h with
  | [], h => cases h
  | [_], h => simp at h
  | [J, J'], h =>
    simp only [List.map_cons, List.map_nil, List.cons.injEq, and_true] at h
    simp only [List.map_cons, List.map_nil, hb h.1, hb h.2]
  | _ :: _ :: _ :: _, h => simp at h

private theorem perm_pair {α : Type} {l : List α} {a b : α} (h : l.Perm [a, b]) : l = [a, b] ∨ l = [b, a] := by
  match l, h with
  | [], h => simp at h
  | [x], h => have := h.length_eq; simp at this
  | [x, y], h =>
    have hx : x ∈ [a, b] := h.mem_iff.mp (by simp)
    rcases List.mem_cons.mp hx with rfl | hx
    · have := (List.perm_cons x).mp h
      rw [List.perm_singleton] at this
      exact .inl (by rw [this])
    · obtain rfl : x = b := by simpa using hx
      have := (List.perm_cons x).mp (h.trans (List.Perm.swap x a []))
      rw [List.perm_singleton] at this
      exact .inr (by rw [this])
  | _ :: _ :: _ :: _, h => have := h.length_eq; simp at this

/-- If the transport may split a `Write`, there are executions without errors in which a connection's
output is no arrangement of the replies: `handleReqErr` writes without a lock (server.go:180). -/
theorem C33_torn : ∃ (m : Machine UInt32) (w₀ w₁ : List UInt8),
    exec (fun _ => registerMany makeServer demoRegs) false (start (twoCalls 3) 37) tearing = some m ∧
    Quiet m 0 ∧ (m.conns 0).broken = false ∧ m.jobs.map Job.res = [some (.ok w₀), some (.ok w₁)] ∧
    ¬ ∃ order : List (List UInt8), order.Perm [w₀, w₁] ∧ (m.conns 0).output = order.flatten := by
  have h : (exec (fun _ => registerMany makeServer demoRegs) false (start (twoCalls 3) (37 : UInt32))
      tearing).map summary = some ⟨[128, 0, 0, 28] ++ addReply 2 44 ++ (addReply 1 49).drop 4, 49, [true, true], false,
        true, [some (addReply 1 49), some (addReply 2 44)], reqs⟩ := by decide +kernel
  obtain ⟨m, hm, h⟩ := Option.map_eq_some_iff.mp h
  simp only [summary, Summary.mk.injEq] at h
  obtain ⟨h1, h2, h3, h4, h5, h6, _⟩ := h
  refine ⟨m, _, _, hm, summary_quiet h5 h3, h4, res_ok h6, ?_⟩
  rintro ⟨order, hp, ho⟩
  rw [h1] at ho
  rcases perm_pair hp with rfl | rfl <;> revert ho <;> decide +kernel

/-- A handler that reads the counter and later writes it. -/
def racyHandler : ProcHandler UInt32 :=
  .act (fun _ s => s) fun rd s =>
    let x := (xdrU32 rd 0).2
    .act (fun _ _ => s + x) fun _ _ => .ret (some fun wr => (xdrU32 wr (s + x)).1, false)

def racyRegs : List (ProcReg UInt32) := [⟨7, 1, 3, racyHandler⟩]

/-- Both read the counter before either writes it. -/
def losing : List Act :=
  [.read 0 4, .mark 0 none, .read 0 52, .spawn 0, .read 0 4, .mark 0 none, .read 0 52, .spawn 0, .eof 0,
   .act 0, .act 1, .act 0, .act 1, .act 0, .act 1, .ret 0, .ret 1, .write 0 32, .write 1 32, .put 0, .put 1]

private theorem serial_two {hs : Nat → Handlers σ} {jobs : List (Job σ)} {s s' : σ} {i j : Nat} {r r' : Outcome}
    (h : Serial hs jobs s [(i, r), (j, r')] s') : ∃ J J', jobs[i]? = some J ∧ jobs[j]? = some J' ∧
      s' = ((handleReqErr (hs J'.conn)).run J'.req ((handleReqErr (hs J.conn)).run J.req s).1).1 := by
  cases h with
  | cons hi h1 h =>
    cases h with
    | cons hj h2 h =>
      cases h
      exact ⟨_, _, hi, hj, by rw [h1, h2]⟩

/-- Requests run concurrently: handlers that use their state in more than one action interleave, and
the outcome may be that of no sequential order. -/
theorem C33_not_serial : ∃ m : Machine UInt32,
    exec (fun _ => registerMany makeServer racyRegs) true (start (twoCalls 3) 37) losing = some m ∧
    Quiet m 0 ∧ m.jobs.length = 2 ∧
    ¬ ∃ o, (o.map (·.1)).Perm [0, 1] ∧ Serial (fun _ => registerMany makeServer racyRegs) m.jobs 37 o m.st := by
  have h : (exec (fun _ => registerMany makeServer racyRegs) true (start (twoCalls 3) (37 : UInt32))
      losing).map summary = some ⟨addReply 1 42 ++ addReply 2 44, 44, [true, true], false,
        true, [some (addReply 1 42), some (addReply 2 44)], reqs⟩ := by
    decide +kernel
  obtain ⟨m, hm, h⟩ := Option.map_eq_some_iff.mp h
  simp only [summary, Summary.mk.injEq] at h
  obtain ⟨h1, h2, h3, h4, h5, h6, h7⟩ := h
  refine ⟨m, hm, summary_quiet h5 h3, by simpa using congrArg List.length h3, ?_⟩
  rintro ⟨o, hp, ho⟩
  have req : ∀ (j : Nat) J, m.jobs[j]? = some J →
      reqs[j]? = some J.req := by
    intro j J hj
    rw [← h7, List.getElem?_map, hj]; rfl
  have hlen : o.length = 2 := by simpa using hp.length_eq
  match o, hlen with
  | [(i, r), (j, r')], _ =>
    obtain ⟨J, J', hi, hj, hst⟩ := serial_two ho
    have hi' := req i J hi
    have hj' := req j J' hj
    rw [h2] at hst
    rcases perm_pair hp with hij | hij
    · simp only [List.map_cons, List.map_nil, List.cons.injEq, and_true] at hij
      obtain ⟨rfl, rfl⟩ := hij
      simp only [reqs, List.getElem?_cons_zero, List.getElem?_cons_succ, Option.some.injEq] at hi' hj'
      rw [← hi', ← hj'] at hst
      revert hst; decide +kernel
    · simp only [List.map_cons, List.map_nil, List.cons.injEq, and_true] at hij
      obtain ⟨rfl, rfl⟩ := hij
      simp only [reqs, List.getElem?_cons_zero, List.getElem?_cons_succ, Option.some.injEq] at hi' hj'
      rw [← hi', ← hj'] at hst
      revert hst; decide +kernel

/-- The hypotheses of C34 are met by states with several live goroutines: here both requests are
being processed while the reader waits; their buffers are 0 and 1. -/
example : (exec (fun _ => registerMany makeServer demoRegs) true (start (twoCalls 3) (37 : UInt32))
    (overtaking.take 12)).map (fun m => (m.jobs.map fun J => (J.buf.id, J.phase.live, J.req.length))) =
    some [(0, true, 52), (1, true, 52)] := by decide +kernel

/-! ### C35 argument data must not be kept -/

/-- The request buffer of a finished goroutine is reused: whatever the handlers, there is an execution
in which the buffer of the first request, after its goroutine has finished, holds the second one. -/
theorem C35_reused (r₁ r₂ rest : List UInt8) (h₁ : r₁.length < 2 ^ 31) (hlen : r₂.length ≤ r₁.length)
    (hin : inp 0 = be 4 (2 ^ 31 + r₁.length) ++ r₁ ++ (be 4 (2 ^ 31 + r₂.length) ++ r₂ ++ rest)) :
    ∃ as m J as' m' J', exec hs whole (start inp s) as = some m ∧ m.jobs[0]? = some J ∧ J.req = r₁ ∧
      J.phase = .done ∧ (m.heap J.buf.id).take r₁.length = r₁ ∧
      exec hs whole m as' = some m' ∧ m'.jobs[0]? = some J ∧ m'.jobs[1]? = some J' ∧ J'.req = r₂ ∧
      J'.buf.id = J.buf.id ∧ m'.heap J.buf.id = r₂ ++ r₁.drop r₂.length := by
  -- the first request is read into a new buffer
  obtain ⟨m1, ⟨a1, e1⟩, g1, _, g2, g3, g4, g5⟩ := read_record (hs := hs) (whole := whole) (m := start inp s) (k := 0) none
    h₁ rfl hin
  have hb1 : getReqBuf (start inp s) none r₁.length =
      ({ start inp s with heap := upd (start inp s).heap 0 (zeros r₁.length), next := 1 }, ⟨0, r₁.length⟩) := rfl
  rw [hb1] at g1 g2 g3
  simp only [start, upd_same] at g1 g2 g3
  have hj1 : m1.jobs[0]? = some ⟨0, ⟨0, r₁.length⟩, .running (handleReqErr (hs 0)), r₁, none⟩ := by
    rw [g3]; rfl
  have hheap1 : m1.heap 0 = r₁ := by rw [g1, upd_same, writeAt]; simp
  -- its goroutine finishes
  obtain ⟨m2, ⟨a2, e2⟩, hf⟩ := finish_job (hs := hs) (whole := whole) hj1 rfl
  obtain ⟨J, f1, f2, f3, f4, f5⟩ := hf.job
  have hpool : m2.pool = [⟨0, r₁.length⟩] := by rw [hf.pool, g2]
  have hheap2 : m2.heap 0 = r₁ := by rw [hf.heap, hheap1]
  -- the second request is read into its buffer
  obtain ⟨m3, ⟨a3, e3⟩, k1, _, _, k4, _, _⟩ := read_record (hs := hs) (whole := whole) (m := m2) (k := 0) (some 0)
    (r := r₂) (rest := rest) (by omega) (by rw [(hf.conn 0).1, g4]) (by rw [(hf.conn 0).2.2, g5])
  have hb3 : getReqBuf m2 (some 0) r₂.length = ({ m2 with pool := [] }, ⟨0, r₂.length⟩) := by
    have hc : r₂.length ≤ (m2.heap 0).length := by rw [hheap2]; exact hlen
    simp only [getReqBuf, hpool, Option.bind_some, List.getElem?_cons_zero, hc, if_true, List.eraseIdx_cons_zero]
  rw [hb3] at k1 k4
  have hid : J.buf.id = 0 := by rw [f3]
  have hlt : 0 < m2.jobs.length := (List.getElem?_eq_some_iff.mp f1).1
  have hl2 : m2.jobs.length = 1 := by rw [hf.len, g3]; rfl
  refine ⟨a1 ++ a2, m2, J, a3, m3, ⟨0, ⟨0, r₂.length⟩, .running (handleReqErr (hs 0)), r₂, none⟩,
    by rw [exec_append, e1]; exact e2, f1, f5, f2, ?_, e3, ?_, ?_, ?_, ?_, ?_⟩
  · rw [hid, hheap2, List.take_length]
  · rw [k4, List.getElem?_append_left hlt, f1]
  · rw [k4, List.getElem?_append_right (by omega), hl2]; rfl
  · rfl
  · rw [hid]
  · rw [hid, k1]
    show upd m2.heap 0 (writeAt (m2.heap 0) 0 r₂) 0 = _
    rw [upd_same, hheap2, writeAt]
    simp

/-- So a handler that keeps an argument of type `opaque<>` may later find other bytes in it.  For every
two such calls of the same length and every handler table, there is an execution in which the slice
`kept`, to which `XdrVarArray` decodes the argument of the first call, contains that argument when the
call is processed, and the argument of the second call after its goroutine has finished. -/
theorem C35_kept (c₁ c₂ : Call) (v₁ v₂ b₁ b₂ : List UInt8) (hc₁ : IsCall c₁ (opaqueVar v₁) b₁)
    (hc₂ : IsCall c₂ (opaqueVar v₂) b₂) (hb : b₁.length = b₂.length) (hv : v₁.length = v₂.length)
    (h₁ : b₁.length < 2 ^ 31)
    (hin : inp 0 = be 4 (2 ^ 31 + b₁.length) ++ b₁ ++ (be 4 (2 ^ 31 + b₂.length) ++ b₂)) :
    let off := b₁.length - (opaqueVar v₁).length
    ∃ kept, (xdrVarArrayV b₁ ⟨none, ⟨off, b₁.length - off⟩⟩ (-1) none).2 = some kept ∧ kept.get b₁ = v₁ ∧
      ∃ as m J, exec hs whole (start inp s) as = some m ∧ m.jobs[0]? = some J ∧ J.req = b₁ ∧ J.phase = .done ∧
        kept.get (m.heap J.buf.id) = v₂ := by
  have drop_args : ∀ {c : Call} {v b : List UInt8}, IsCall c (opaqueVar v) b →
      b.drop (b.length - (opaqueVar v).length) = opaqueVar v := by
    intro c v b h
    obtain ⟨wc, wv, _, _, rfl⟩ := h
    rw [List.length_append, Nat.add_sub_cancel, List.drop_left]
  have hlen : ∀ v : List UInt8, (opaqueVar v).length = 4 + v.length + pad v.length := fun v => by
    simp [opaqueVar, be_length, zeroBytes, Nat.add_assoc]
  have hsub : ∀ v : List UInt8, ((opaqueVar v).drop 4).take v.length = v := fun v => by
    have h4 : (be 4 v.length).length = 4 := be_length _ _
    rw [opaqueVar, List.append_assoc, List.drop_left' h4, List.take_left' rfl]
  have hle : (opaqueVar v₁).length ≤ b₁.length := by
    have := congrArg List.length (drop_args hc₁)
    rw [List.length_drop] at this; omega
  have hv₁ : v₁.length < 2 ^ 32 := by have := hlen v₁; omega
  intro off
  have hoff : b₂.length - (opaqueVar v₂).length = off := by
    show _ = b₁.length - (opaqueVar v₁).length
    rw [hlen, hlen, hv, hb]
  have d₁ : b₁.drop off = opaqueVar v₁ := drop_args hc₁
  have d₂ : b₂.drop off = opaqueVar v₂ := by rw [← hoff]; exact drop_args hc₂
  refine ⟨⟨off + 4, v₁.length⟩, ?_, ?_, ?_⟩
  · exact xdrVarArrayV_opaque b₁ v₁ [] off hv₁ (by rw [d₁, List.append_nil])
  · rw [Range.get, ← List.drop_drop, d₁]; exact hsub v₁
  · obtain ⟨as, m, J, as', m', J', e1, _, r1, r2, _, e2, j0, _, _, _, hh⟩ :=
      C35_reused (hs := hs) (whole := whole) (inp := inp) (s := s) b₁ b₂ [] h₁ (by omega) (by rw [hin]; simp)
    refine ⟨as ++ as', m', J, by rw [exec_append, e1]; exact e2, j0, r1, r2, ?_⟩
    rw [hh, ← hb, List.drop_length, List.append_nil, Range.get, ← List.drop_drop, d₂]
    show (_ : List UInt8).take v₁.length = _
    rw [hv]
    exact hsub v₂

/-- Two calls of procedure 3 with the arguments `[1,2,3]` and `[9,9,9]`. -/
example : IsCall (demoCall 3) (opaqueVar [1, 2, 3]) (callBytes (demoCall 3) (opaqueVar [1, 2, 3])) ∧
    IsCall (demoCall 3) (opaqueVar [9, 9, 9]) (callBytes (demoCall 3) (opaqueVar [9, 9, 9])) ∧
    (callBytes (demoCall 3) (opaqueVar [1, 2, 3])).length = (callBytes (demoCall 3) (opaqueVar [9, 9, 9])).length :=
  ⟨callBytes_isCall (by decide) (by decide) _, callBytes_isCall (by decide) (by decide) _, by decide +kernel⟩

/-- The slices are those of the library: decoding to a range and reading it is decoding a value, as
long as the memory does not change. -/
theorem C35_slices (mem : List UInt8) (x : View) (h : x.buf.off + x.buf.len ≤ mem.length) (mx : Int) :
    xdrVarArray (x.state mem) mx none =
      ((xdrVarArrayV mem x mx none).1.state mem, (xdrVarArrayV mem x mx none).2.map (·.get mem)) :=
  (xdrVarArrayV_eq (v := none) h mx (by simp)).1

end Verif.Props
