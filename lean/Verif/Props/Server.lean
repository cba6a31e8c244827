/-
Properties C27–C30, C32 (server side), C41, C42: the RPC server's handler table and its treatment of
one request.  The message formats are those of `Verif.Spec.Rpc`.
-/
import Verif.Rpc.ServerLemmas
import Mathlib.Data.List.Induction

namespace Verif.Props
open Verif.Xdr Verif.Spec Verif.Rpc

variable {σ : Type}

/-! ### C27 handler table -/

/-- The registration a request for `(p, v, c)` should go to: the last one for that triple. -/
def lastReg (regs : List (ProcReg σ)) (p v c : UInt32) : Option (ProcHandler σ) :=
  (regs.reverse.find? fun r => r.prog == p && r.vers == v && r.proc == c).map (·.handler)

theorem C27_lookup (regs : List (ProcReg σ)) (p v c : UInt32) :
    (registerMany makeServer regs).lookup p v c = lastReg regs p v c := by
  induction regs using List.reverseRecOn with
  | nil => rfl
  | append_singleton rs r ih =>
    rw [registerMany_snoc, register_lookup, ih, lastReg, lastReg, List.reverse_append]
    simp only [List.reverse_cons, List.reverse_nil, List.nil_append, List.singleton_append, List.find?_cons]
    by_cases h : p = r.prog ∧ v = r.vers ∧ c = r.proc
    · obtain ⟨rfl, rfl, rfl⟩ := h; simp
    · rw [if_neg h]
      have : (r.prog == p && r.vers == v && r.proc == c) = false := by
        cases hb : (r.prog == p && r.vers == v && r.proc == c) with
        | false => rfl
        | true => simp only [Bool.and_eq_true, beq_iff_eq] at hb; exact absurd ⟨hb.1.1.symm, hb.1.2.symm, hb.2.symm⟩ h
      rw [this]

/-- A program is known exactly if something was registered under it. -/
theorem C27_prog (regs : List (ProcReg σ)) (p : UInt32) :
    (registerMany makeServer regs) p = none ↔ ∀ r ∈ regs, r.prog ≠ p := by
  induction regs using List.reverseRecOn with
  | nil => simp [registerMany, makeServer]
  | append_singleton rs r ih =>
    have h := register_prog (registerMany makeServer rs) r.prog r.vers r.proc r.handler p
    rw [registerMany_snoc, ← Option.not_isSome_iff_eq_none, h]
    rw [← Option.not_isSome_iff_eq_none] at ih
    simp only [List.forall_mem_append, List.forall_mem_singleton, ← ih, Bool.or_eq_true, decide_eq_true_eq]
    constructor
    · intro hn; exact ⟨fun h => hn (.inr h), fun h => hn (.inl h.symm)⟩
    · rintro ⟨h1, h2⟩ (h | h)
      · exact h2 h.symm
      · exact h1 h

/-- A version of a program is known exactly if something was registered under both. -/
theorem C27_vers (regs : List (ProcReg σ)) (p v : UInt32) :
    (registerMany makeServer regs).vers p v = none ↔ ∀ r ∈ regs, ¬ (r.prog = p ∧ r.vers = v) := by
  induction regs using List.reverseRecOn with
  | nil => simp [registerMany, makeServer, Handlers.vers]
  | append_singleton rs r ih =>
    have h := register_vers (registerMany makeServer rs) r.prog r.vers r.proc r.handler p v
    rw [registerMany_snoc, ← Option.not_isSome_iff_eq_none, h]
    rw [← Option.not_isSome_iff_eq_none] at ih
    simp only [List.forall_mem_append, List.forall_mem_singleton, ← ih, Bool.or_eq_true, decide_eq_true_eq]
    constructor
    · intro hn; exact ⟨fun h => hn (.inr h), fun h => hn (.inl ⟨h.1.symm, h.2.symm⟩)⟩
    · rintro ⟨h1, h2⟩ (h | h)
      · exact h2 ⟨h.1.symm, h.2.symm⟩
      · exact h1 h

/-- Any sequence of `Register` and `RegisterMany` calls amounts to one list of registrations. -/
theorem C27_sequence (hs : Handlers σ) (a b : List (ProcReg σ)) (r : ProcReg σ) :
    registerMany (registerMany hs a) b = registerMany hs (a ++ b) ∧
    register (registerMany hs a) r.prog r.vers r.proc r.handler = registerMany hs (a ++ [r]) :=
  ⟨(registerMany_append hs a b).symm, (registerMany_snoc hs a r).symm⟩

theorem lastReg_mem {regs : List (ProcReg σ)} {p v c : UInt32} {h : ProcHandler σ}
    (hl : lastReg regs p v c = some h) :
    ∃ r ∈ regs, r.prog = p ∧ r.vers = v ∧ r.proc = c ∧ r.handler = h := by
  simp only [lastReg, Option.map_eq_some_iff] at hl
  obtain ⟨r, hr, rfl⟩ := hl
  have hk := List.find?_some hr
  simp only [Bool.and_eq_true, beq_iff_eq] at hk
  exact ⟨r, by simpa using List.mem_of_find?_eq_some hr, hk.1.1, hk.1.2, hk.2, rfl⟩

/-! ### C28 classification -/

/-- The outcome of processing a request: the handlers' state became `s'`, and one record was
written, containing the reply `r` for transaction `xid`. -/
def Answered (out : σ × Except ServeErr (List UInt8)) (s' : σ) (xid : UInt32) (r : Reply) : Prop :=
  out.1 = s' ∧ ∃ m rec, out.2 = .ok rec ∧ IsReply xid r m ∧ IsRecord m rec

private theorem nullAuth : IsAuth Auth.null (authBytes Auth.null) := authBytes_isAuth (by decide)

private theorem denied_isReply (xid : UInt32) : IsReply xid (.rpcMismatch 0 0) (deniedBytes xid) := rfl

private theorem small_denied (xid : UInt32) : (deniedBytes xid).length < 2 ^ 31 := by
  simp [deniedBytes, be_length]

private theorem stat_length (xid st : UInt32) : (statBytes xid st).length ≤ 32 := by
  unfold statBytes
  split <;> simp [be_length, authBytes, opaqueVar, Auth.null, zeroBytes, pad]

private theorem stat_length0 (xid : UInt32) : (statBytes xid 0).length = 24 := by
  simp [statBytes, be_length, authBytes, opaqueVar, Auth.null, zeroBytes, pad]

private theorem stat_isReply (xid : UInt32) :
    IsReply xid (.accepted .null (.success [])) (statBytes xid 0) ∧
    IsReply xid (.accepted .null .progUnavail) (statBytes xid 1) ∧
    IsReply xid (.accepted .null (.progMismatch 0 0)) (statBytes xid 2) ∧
    IsReply xid (.accepted .null .procUnavail) (statBytes xid 3) ∧
    IsReply xid (.accepted .null .garbageArgs) (statBytes xid 4) := by
  refine ⟨⟨_, nullAuth, ?_⟩, ⟨_, nullAuth, ?_⟩, ⟨_, nullAuth, ?_⟩, ⟨_, nullAuth, ?_⟩, ⟨_, nullAuth, ?_⟩⟩ <;>
    simp [statBytes, Accept.bytes]

private theorem success_isReply (xid : UInt32) (s : List UInt8) :
    IsReply xid (.accepted .null (.success s)) (statBytes xid 0 ++ s) :=
  ⟨_, nullAuth, by simp [statBytes, Accept.bytes]⟩

private theorem answered_none {out : σ × Except ServeErr (List UInt8)} {s' : σ} {xid st : UInt32}
    {r : Reply} (h : out = (s', reply (acceptedMsg xid st) none)) (hr : IsReply xid r (statBytes xid st)) :
    Answered out s' xid r := by
  subst h
  refine ⟨rfl, _, _, reply_none (acceptedMsg_writer _ _ _), hr, record_of_small ?_⟩
  have := stat_length xid st; omega

/-- Processing a call, in terms of the list of registrations. -/
theorem handle_regs (regs : List (ProcReg σ)) {c : Call} {args b : List UInt8} (hb : IsCall c args b)
    (s : σ) :
    (handleReqErr (registerMany makeServer regs)).run b s =
      if c.rpcvers ≠ 2 then (s, reply (deniedMsg c.xid) none)
      else if ∀ r ∈ regs, r.prog ≠ c.prog then (s, reply (acceptedMsg c.xid 1) none)
      else if ∀ r ∈ regs, ¬ (r.prog = c.prog ∧ r.vers = c.vers) then
        (s, reply (acceptedMsg c.xid 2) none)
      else match lastReg regs c.prog c.vers c.proc with
        | none => (s, reply (acceptedMsg c.xid 3) none)
        | some h => ((h.run (makeReader args) s).1,
            reply (acceptedMsg c.xid (if (h.run (makeReader args) s).2.2 then 4 else 0))
              (h.run (makeReader args) s).2.1) := by
  rw [handle_call _ hb]
  have hl := C27_lookup regs c.prog c.vers c.proc
  have hpr := C27_prog regs c.prog
  have hve := C27_vers regs c.prog c.vers
  generalize registerMany makeServer regs = hs at hl hpr hve
  rw [← hl]
  by_cases h2 : c.rpcvers = 2
  · rw [if_neg (by simpa using h2), if_neg (by simpa using h2)]
    cases hq : hs c.prog with
    | none => rw [if_pos (hpr.mp hq)]
    | some vm =>
      rw [if_neg (by rw [← hpr, hq]; simp)]
      cases hm : vm c.vers with
      | none => rw [if_pos (by rw [← hve]; simp [Handlers.vers, hq, hm])]; simp only [hm]
      | some pm =>
        rw [if_neg (by rw [← hve]; simp [Handlers.vers, hq, hm])]
        simp only [Handlers.lookup, Handlers.vers, hq, Option.bind_some, hm]
        cases hp : pm c.proc <;> rfl
  · rw [if_pos h2, if_pos h2]

/-- Every call is answered as RFC 1057 prescribes, up to the announced version ranges (C42). -/
theorem C28_classify (regs : List (ProcReg σ)) (c : Call) (args b : List UInt8) (hb : IsCall c args b)
    (s : σ) :
    let out := (handleReqErr (registerMany makeServer regs)).run b s
    (c.rpcvers ≠ 2 → Answered out s c.xid (.rpcMismatch 0 0)) ∧
    (c.rpcvers = 2 → (∀ r ∈ regs, r.prog ≠ c.prog) →
      Answered out s c.xid (.accepted .null .progUnavail)) ∧
    (c.rpcvers = 2 → (∃ r ∈ regs, r.prog = c.prog) →
      (∀ r ∈ regs, ¬ (r.prog = c.prog ∧ r.vers = c.vers)) →
      Answered out s c.xid (.accepted .null (.progMismatch 0 0))) ∧
    (c.rpcvers = 2 → (∃ r ∈ regs, r.prog = c.prog ∧ r.vers = c.vers) →
      lastReg regs c.prog c.vers c.proc = none →
      Answered out s c.xid (.accepted .null .procUnavail)) ∧
    (∀ h, c.rpcvers = 2 → lastReg regs c.prog c.vers c.proc = some h →
      let r := h.run (makeReader args) s
      (r.2 = (none, true) → Answered out r.1 c.xid (.accepted .null .garbageArgs)) ∧
      (r.2 = (none, false) → Answered out r.1 c.xid (.accepted .null (.success []))) ∧
      (∀ d bytes, r.2 = (some d, false) → Encodes d bytes → 24 + bytes.length < 2 ^ 31 →
        Answered out r.1 c.xid (.accepted .null (.success bytes)))) := by
  intro out
  obtain ⟨r0, r1, r2, r3, r4⟩ := stat_isReply c.xid
  have hout : out = _ := handle_regs regs hb s
  clear_value out
  refine ⟨fun h => ?_, fun h hp => ?_, fun h hp hv => ?_, fun h hv hc => ?_, fun hd h hc => ?_⟩
  · rw [if_pos h] at hout
    subst hout
    exact ⟨rfl, _, _, reply_none (deniedMsg_writer _ _), denied_isReply _, record_of_small (small_denied _)⟩
  · rw [if_neg (by simpa using h), if_pos hp] at hout
    exact answered_none hout r1
  · rw [if_neg (by simpa using h), if_neg (by simpa using hp), if_pos hv] at hout
    exact answered_none hout r2
  · have hp : ∃ r ∈ regs, r.prog = c.prog := by obtain ⟨r, hr, h, _⟩ := hv; exact ⟨r, hr, h⟩
    rw [if_neg (by simpa using h), if_neg (by simpa using hp), if_neg (by simpa using hv), hc] at hout
    exact answered_none hout r3
  · obtain ⟨r, hr, k1, k2, _⟩ := lastReg_mem hc
    rw [if_neg (by simpa using h), if_neg (by simpa using ⟨r, hr, k1⟩),
      if_neg (by simpa using ⟨r, hr, k1, k2⟩), hc] at hout
    simp only at hout
    refine ⟨fun he => ?_, fun he => ?_, fun d bytes he hd hlen => ?_⟩
    · simp only [he, if_true] at hout
      exact answered_none hout r4
    · simp only [he, Bool.false_eq_true, if_false] at hout
      exact answered_none hout r0
    · simp only [he, Bool.false_eq_true, if_false] at hout
      subst hout
      refine ⟨rfl, _, _, reply_some (res := acceptedMsg c.xid 0) (acceptedMsg_writer _ _ _) hd,
        success_isReply _ _, record_of_small ?_⟩
      rw [List.length_append, stat_length0]; exact hlen

/-! A concrete server: program 7, version 1, procedure 3 adds the argument word to a counter and
returns the sum; procedure 4 always fails. -/

/-- Handler of procedure 3. -/
def addHandler : ProcHandler UInt32 :=
  .atom fun rd s =>
    let (rd, x) := xdrU32 rd 0
    match rd.err with
    | some _ => (s, none, true)
    | none => (s + x, some fun wr => (xdrU32 wr (s + x)).1, false)

def demoRegs : List (ProcReg UInt32) :=
  [⟨7, 1, 3, .ret (none, true)⟩, ⟨7, 1, 4, .ret (none, true)⟩, ⟨7, 1, 3, addHandler⟩]

/-- A call of version 2 of the RPC protocol with an `AUTH_UNIX`-like credential. -/
def demoCall (proc : UInt32) : Call := ⟨99, 2, 7, 1, proc, ⟨1, [9, 9, 9, 9, 9]⟩, .null⟩

example : lastReg demoRegs 7 1 3 = some addHandler := rfl
example : lastReg demoRegs 7 1 5 = none := rfl
example : IsCall (demoCall 3) [0, 0, 0, 5] (callBytes (demoCall 3) [0, 0, 0, 5]) :=
  callBytes_isCall (by decide) (by decide) _
/-- The whole exchange: 5 is added to 37, the record answers transaction 99 with 42. -/
example : ((handleReqErr (registerMany makeServer demoRegs)).run
      (callBytes (demoCall 3) [0, 0, 0, 5]) 37).1 = 42 ∧
    ((handleReqErr (registerMany makeServer demoRegs)).run
      (callBytes (demoCall 3) [0, 0, 0, 5]) 37).2 =
    .ok [128, 0, 0, 28, 0, 0, 0, 99, 0, 0, 0, 1, 0, 0, 0, 0, 0, 0, 0, 0, 0, 0, 0, 0, 0, 0, 0, 0,
      0, 0, 0, 42] := by decide +kernel
/-- A truncated argument is answered with `GARBAGE_ARGS`. -/
example : ((handleReqErr (registerMany makeServer demoRegs)).run
      (callBytes (demoCall 3) [0, 0, 0]) 37).2 =
    .ok [128, 0, 0, 24, 0, 0, 0, 99, 0, 0, 0, 1, 0, 0, 0, 0, 0, 0, 0, 0, 0, 0, 0, 0, 0, 0, 0, 4] := by decide +kernel

/-! ### C29 replies are matched to calls -/

/-- Handlers as the server's author expects them: an error comes without a result, and results only
append to the output or report an error.  Generated wrappers satisfy this (C40). -/
def Orderly (regs : List (ProcReg σ)) : Prop :=
  ∀ r ∈ regs, ∀ rd s, let o := (r.handler.run rd s).2
    (o.2 = true → o.1 = none) ∧ ∀ d, o.1 = some d → WellBehaved d

/-- The two forms of what is written: a denial, or a status followed by a result. -/
private theorem written_shape (regs : List (ProcReg σ))
    (ho : ∀ r ∈ regs, ∀ rd s d, (r.handler.run rd s).2.1 = some d → WellBehaved d)
    {b : List UInt8} {s : σ} {rec : List UInt8}
    (h : ((handleReqErr (registerMany makeServer regs)).run b s).2 = .ok rec) :
    ∃ c args m, IsCall c args b ∧ rec = be 4 (2 ^ 31 + m.length % 2 ^ 31) ++ m ∧
      (m = deniedBytes c.xid ∨
       (∃ st, m = statBytes c.xid st ∧ (st = 0 ∨ st = 1 ∨ st = 2 ∨ st = 3 ∨ st = 4)) ∨
       (∃ t, m = statBytes c.xid 0 ++ t) ∨
       (∃ t, m = statBytes c.xid 4 ++ t ∧ ∃ r ∈ regs, ∃ rd s d, (r.handler.run rd s).2 = (some d, true))) := by
  by_cases hc : ∃ c args, IsCall c args b
  swap
  · obtain ⟨e, he⟩ := handle_other (registerMany makeServer regs) hc s
    rw [he] at h; cases h
  obtain ⟨c, args, hb⟩ := hc
  rw [handle_regs regs hb] at h
  have fin : ∀ {st}, reply (acceptedMsg c.xid st) none = .ok rec →
      rec = be 4 (2 ^ 31 + (statBytes c.xid st).length % 2 ^ 31) ++ statBytes c.xid st := by
    intro st hr
    rw [reply_none (acceptedMsg_writer _ _ _)] at hr
    cases hr; rfl
  split at h
  · rw [reply_none (deniedMsg_writer _ _)] at h
    cases h
    exact ⟨c, args, _, hb, rfl, .inl rfl⟩
  split at h
  · exact ⟨c, args, _, hb, fin h, .inr (.inl ⟨1, rfl, by simp⟩)⟩
  split at h
  · exact ⟨c, args, _, hb, fin h, .inr (.inl ⟨2, rfl, by simp⟩)⟩
  cases hl : lastReg regs c.prog c.vers c.proc with
  | none => rw [hl] at h; exact ⟨c, args, _, hb, fin h, .inr (.inl ⟨3, rfl, by simp⟩)⟩
  | some hd =>
    obtain ⟨rg, hrg, _, _, _, rfl⟩ := lastReg_mem hl
    rw [hl] at h
    simp only at h
    have ho' := ho rg hrg (makeReader args) s
    cases hr : (rg.handler.run (makeReader args) s).2.1 with
    | none =>
      rw [hr] at h
      refine ⟨c, args, _, hb, fin h, .inr (.inl ⟨_, rfl, ?_⟩)⟩
      split <;> simp
    | some d =>
      rw [hr] at h
      rcases ho' d hr with hu | ⟨t, hen⟩
      · obtain ⟨e, he⟩ := reply_unencodable (acceptedMsg_writer (zeros 4) c.xid
          (if (rg.handler.run (makeReader args) s).2.2 = true then 4 else 0)) hu
        rw [he] at h; cases h
      · cases hf : (rg.handler.run (makeReader args) s).2.2 with
        | true =>
          simp only [hf, if_true] at h
          rw [reply_some (acceptedMsg_writer _ _ _) hen] at h
          cases h
          exact ⟨c, args, _, hb, rfl, .inr (.inr (.inr ⟨t, rfl, rg, hrg, _, _, d, Prod.ext hr hf⟩))⟩
        | false =>
          simp only [hf, Bool.false_eq_true, if_false] at h
          rw [reply_some (acceptedMsg_writer _ _ _) hen] at h
          cases h
          exact ⟨c, args, _, hb, rfl, .inr (.inr (.inl ⟨t, rfl⟩))⟩

/-- Whatever is written is a reply message to a call with that transaction id, behind a record mark
(which is correct below 2^31 bytes). -/
theorem C29_reply (regs : List (ProcReg σ)) (ho : Orderly regs) (b : List UInt8) (s : σ) (rec : List UInt8)
    (h : ((handleReqErr (registerMany makeServer regs)).run b s).2 = .ok rec) :
    ∃ c args m r mark, IsCall c args b ∧ IsReply c.xid r m ∧ rec = mark ++ m ∧ mark.length = 4 ∧
      (m.length < 2 ^ 31 → IsRecord m rec) := by
  obtain ⟨c, args, m, hb, hrec, hm⟩ := written_shape regs (fun r hr rd s => (ho r hr rd s).2) h
  obtain ⟨r0, r1, r2, r3, r4⟩ := stat_isReply c.xid
  subst hrec
  suffices ∃ r, IsReply c.xid r m by
    obtain ⟨r, hr⟩ := this
    exact ⟨c, args, m, r, _, hb, hr, rfl, be_length _ _, record_of_small⟩
  rcases hm with rfl | ⟨st, rfl, hst⟩ | ⟨t, rfl⟩ | ⟨t, rfl, r, hr, rd, s, d, hd⟩
  · exact ⟨_, denied_isReply _⟩
  · rcases hst with rfl | rfl | rfl | rfl | rfl
    exacts [⟨_, r0⟩, ⟨_, r1⟩, ⟨_, r2⟩, ⟨_, r3⟩, ⟨_, r4⟩]
  · exact ⟨_, success_isReply _ _⟩
  · have := (ho r hr rd s).1 (by rw [hd])
    rw [hd] at this; cases this

/-- Nothing is written for input that is not a call, and no handler sees it. -/
theorem C29_silent (regs : List (ProcReg σ)) (b : List UInt8) (s : σ) (h : ¬ ∃ c args, IsCall c args b) :
    ∃ e, (handleReqErr (registerMany makeServer regs)).run b s = (s, .error e) :=
  handle_other _ h s

example : Orderly demoRegs := by
  intro r hr rd s
  simp only [demoRegs, List.mem_cons, List.not_mem_nil, or_false] at hr
  rcases hr with rfl | rfl | rfl
  · simp [Proc.run]
  · simp [Proc.run]
  · simp only [addHandler, Proc.run_atom]
    split
    · simp
    · refine ⟨by simp, fun d hd => ?_⟩
      cases hd
      exact .inr ⟨be 4 (s + (xdrU32 rd 0).2).toNat, fun w => by simp only [u32_writer]⟩

/-- A message of type REPLY is not a call. -/
example : ¬ ∃ c args, IsCall c args [0, 0, 0, 1, 0, 0, 0, 1] := by
  rw [← decode_call_iff]; decide +kernel

/-- The hypothesis on handlers is needed: one that returns a result together with an error gets its
result appended to the `GARBAGE_ARGS` reply, which then is not a reply message. -/
theorem C29_disorderly :
    ∃ (regs : List (ProcReg Unit)) (c : Call) (args b m rec : List UInt8), IsCall c args b ∧
      ((handleReqErr (registerMany makeServer regs)).run b ()).2 = .ok rec ∧ IsRecord m rec ∧
      ¬ ∃ r, IsReply c.xid r m := by
  refine ⟨[⟨7, 1, 3, .ret (some fun wr => (xdrU32 wr 5).1, true)⟩], demoCall 3, [], callBytes (demoCall 3) [],
    [0, 0, 0, 99, 0, 0, 0, 1, 0, 0, 0, 0, 0, 0, 0, 0, 0, 0, 0, 0, 0, 0, 0, 4, 0, 0, 0, 5],
    [128, 0, 0, 28, 0, 0, 0, 99, 0, 0, 0, 1, 0, 0, 0, 0, 0, 0, 0, 0, 0, 0, 0, 0, 0, 0, 0, 4, 0, 0, 0, 5],
    callBytes_isCall (by decide) (by decide) _, by decide +kernel, ⟨by decide, by decide +kernel⟩, ?_⟩
  rintro ⟨r, hr⟩
  cases r with
  | rpcMismatch low high => 
    have := congrArg (fun l => (l.drop 8).take 4) hr
    simp [be] at this
  | authError why =>
    have := congrArg (fun l => (l.drop 8).take 4) hr
    simp [be] at this
  | accepted verf a =>
    obtain ⟨wv, hv, hm⟩ := hr
    have h1 := congrArg (List.drop 12) hm
    have h2 : (be 4 (demoCall 3).xid.toNat ++ be 4 1 ++ be 4 0 ++ wv ++ a.bytes).drop 12 = wv ++ a.bytes := by
      simp [be]
    rw [h2] at h1
    have h3 := auth_reader hv a.bytes .zero
    rw [← h1] at h3
    have h4 : (OpaqueAuth.zero.xdr (makeReader (List.drop 12
      [0, 0, 0, 99, 0, 0, 0, 1, 0, 0, 0, 0, 0, 0, 0, 0, 0, 0, 0, 0, 0, 0, 0, 4, 0, 0, 0, 5]))).1.buf =
      [0, 0, 0, 4, 0, 0, 0, 5] := by decide +kernel
    rw [h3] at h4
    simp only [makeReader] at h4
    cases a <;> simp [Accept.bytes, be] at h4

/-! ### C30 handlers run once, for calls addressed to them, on the argument bytes -/

/-- What a handler invocation looks like from outside: which registration, on which reader. -/
structure Invocation where
  prog : UInt32
  vers : UInt32
  proc : UInt32
  args : XdrState
  deriving DecidableEq

/-- Run a computation on the first component of the state. -/
def onFst {V L α : Type} : Proc V σ α → Proc V (σ × L) α
  | .ret a => .ret a
  | .act u n => .act (fun v s => (u v s.1, s.2)) fun v s => onFst (n v s.1)

/-- The registration with a handler that first records that and on what it was invoked. -/
def logged (r : ProcReg σ) : ProcReg (σ × List Invocation) :=
  ⟨r.prog, r.vers, r.proc,
    .act (fun rd s => (s.1, s.2 ++ [⟨r.prog, r.vers, r.proc, rd⟩])) fun _ _ => onFst r.handler⟩

theorem onFst_run {V L α : Type} (p : Proc V σ α) (v : V) (s : σ) (l : L) :
    (onFst p).run v (s, l) = (((p.run v s).1, l), (p.run v s).2) := by
  induction p generalizing s with
  | ret a => rfl
  | act u n ih => simp only [onFst, Proc.run]; exact ih v s (u v s)

private theorem lastReg_logged (regs : List (ProcReg σ)) (p v c : UInt32) :
    lastReg (regs.map logged) p v c =
      (regs.reverse.find? fun r => r.prog == p && r.vers == v && r.proc == c).map fun r => (logged r).handler := by
  simp only [lastReg, ← List.map_reverse, List.find?_map, Option.map_map]
  rfl

/-- Processing a request invokes exactly the handlers listed: one if the request is a call of RPC
version 2 for a registered triple, on the bytes behind the header; none otherwise. -/
theorem C30_invocations (regs : List (ProcReg σ)) (b : List UInt8) (s : σ) (l : List Invocation) :
    let log := ((handleReqErr (registerMany makeServer (regs.map logged))).run b (s, l)).1.2
    (∀ c args, IsCall c args b → c.rpcvers = 2 → (lastReg regs c.prog c.vers c.proc).isSome →
      log = l ++ [⟨c.prog, c.vers, c.proc, makeReader args⟩]) ∧
    ((¬ ∃ c args, IsCall c args b ∧ c.rpcvers = 2 ∧ (lastReg regs c.prog c.vers c.proc).isSome) →
      log = l) := by
  intro log
  obtain ⟨out, ho⟩ : ∃ out, out = (handleReqErr (registerMany makeServer (regs.map logged))).run b (s, l) :=
    ⟨_, rfl⟩
  have hlog : log = out.1.2 := by rw [ho]
  clear_value log
  subst hlog
  by_cases hc : ∃ c args, IsCall c args b
  swap
  · obtain ⟨e, he⟩ := handle_other (registerMany makeServer (regs.map logged)) hc (s, l)
    rw [he] at ho; subst ho
    exact ⟨fun c args hb => absurd ⟨c, args, hb⟩ hc, fun _ => rfl⟩
  obtain ⟨c, args, hb⟩ := hc
  rw [handle_regs _ hb] at ho
  rw [lastReg_logged] at ho
  constructor
  · intro c' args' hb' h2 hs
    obtain ⟨rfl, rfl⟩ := isCall_unique hb hb'
    obtain ⟨h, hh⟩ := Option.isSome_iff_exists.mp hs
    obtain ⟨r, hr, k1, k2, _⟩ := lastReg_mem hh
    simp only [lastReg, Option.map_eq_some_iff] at hh
    obtain ⟨r', hf, rfl⟩ := hh
    have hk := List.find?_some hf
    simp only [Bool.and_eq_true, beq_iff_eq] at hk
    rw [if_neg (by simpa using h2), if_neg (by simpa [logged] using ⟨r, hr, k1⟩),
      if_neg (by simpa [logged] using ⟨r, hr, k1, k2⟩), hf] at ho
    subst ho
    simp only [Option.map_some, logged, Proc.run, onFst_run, hk]
  · intro hn
    by_cases h2 : c.rpcvers = 2
    · have hl : lastReg regs c.prog c.vers c.proc = none := by
        cases hl : lastReg regs c.prog c.vers c.proc with
        | none => rfl
        | some h => exact absurd ⟨c, args, hb, h2, by simp [hl]⟩ hn
      simp only [lastReg, Option.map_eq_none_iff] at hl
      rw [hl, if_neg (by simpa using h2)] at ho
      split at ho
      · subst ho; rfl
      · split at ho <;> (subst ho; rfl)
    · rw [if_pos h2] at ho; subst ho; rfl

/-- Recording invocations does not change what is written or what the handlers do. -/
theorem C30_faithful (regs : List (ProcReg σ)) (b : List UInt8) (s : σ) (l : List Invocation) :
    let out := (handleReqErr (registerMany makeServer regs)).run b s
    let out' := (handleReqErr (registerMany makeServer (regs.map logged))).run b (s, l)
    out'.1.1 = out.1 ∧ out'.2 = out.2 := by
  intro out out'
  by_cases hc : ∃ c args, IsCall c args b
  swap
  · obtain ⟨e, he⟩ := handle_other' hc
    have h1 : out = _ := he _ s
    have h2 : out' = _ := he _ (s, l)
    rw [h1, h2]; exact ⟨rfl, rfl⟩
  obtain ⟨c, args, hb⟩ := hc
  have h1 : out = _ := handle_regs regs hb s
  have h2 : out' = _ := handle_regs (regs.map logged) hb (s, l)
  clear_value out out'
  rw [lastReg_logged] at h2
  simp only [List.forall_mem_map, logged] at h2
  subst h1 h2
  split
  · exact ⟨rfl, rfl⟩
  split
  · exact ⟨rfl, rfl⟩
  split
  · exact ⟨rfl, rfl⟩
  simp only [lastReg]
  cases regs.reverse.find? fun r => r.prog == c.prog && r.vers == c.vers && r.proc == c.proc with
  | none => exact ⟨rfl, rfl⟩
  | some r => simp only [Option.map_some, Proc.run, onFst_run, and_self]

/-! ### C32 record marks of replies -/

/-- What is put on the wire for message `m`: the one-fragment record if the message is shorter than
2^31 bytes; otherwise something whose record mark announces only a proper prefix of the message, so
that the peer takes the rest for further records. -/
def Framed (m out : List UInt8) : Prop :=
  (m.length < 2 ^ 31 → IsRecord m out) ∧
  (2 ^ 31 ≤ m.length → ∃ m' r rest, m = m' ++ rest ∧ rest ≠ [] ∧ IsRecord m' r ∧ out = r ++ rest)

theorem framed_mark (m : List UInt8) : Framed m (be 4 (2 ^ 31 + m.length % 2 ^ 31) ++ m) := by
  refine ⟨record_of_small, fun h => ?_⟩
  have hlt : m.length % 2 ^ 31 < 2 ^ 31 := Nat.mod_lt _ (by decide)
  have hl : (m.take (m.length % 2 ^ 31)).length = m.length % 2 ^ 31 := by
    rw [List.length_take]; omega
  refine ⟨m.take (m.length % 2 ^ 31), be 4 (2 ^ 31 + m.length % 2 ^ 31) ++ m.take (m.length % 2 ^ 31),
    m.drop (m.length % 2 ^ 31), (List.take_append_drop _ _).symm, ?_, ⟨by omega, by rw [hl]⟩, by simp⟩
  intro hd
  have := congrArg List.length hd
  rw [List.length_drop] at this
  simp at this; omega

/-- Everything the server writes is framed that way. -/
theorem C32_server (regs : List (ProcReg σ))
    (ho : ∀ r ∈ regs, ∀ rd s d, (r.handler.run rd s).2.1 = some d → WellBehaved d)
    (b : List UInt8) (s : σ) (rec : List UInt8)
    (h : ((handleReqErr (registerMany makeServer regs)).run b s).2 = .ok rec) :
    ∃ c args m, IsCall c args b ∧ (be 4 c.xid.toNat ++ be 4 1) <+: m ∧ Framed m rec := by
  obtain ⟨c, args, m, hb, rfl, hm⟩ := written_shape regs ho h
  refine ⟨c, args, m, hb, ?_, framed_mark m⟩
  rcases hm with rfl | ⟨st, rfl, -⟩ | ⟨t, rfl⟩ | ⟨t, rfl, -⟩ <;>
    simp only [deniedBytes, statBytes, List.append_assoc] <;>
    exact ⟨_, List.append_assoc _ _ _⟩

/-- There are such messages of both kinds. -/
example : (List.replicate (2 ^ 31) (0 : UInt8)).length = 2 ^ 31 := List.length_replicate
example : ¬ IsRecord (List.replicate (2 ^ 31) (0 : UInt8))
    (be 4 (2 ^ 31 + 0) ++ List.replicate (2 ^ 31) (0 : UInt8)) := fun h => by
  have := h.1; rw [List.length_replicate] at this; omega

/-! ### C41 unencodable results -/

/-- If the handler's result cannot be encoded, nothing is written (although the handler ran). -/
theorem C41_no_reply (regs : List (ProcReg σ)) (c : Call) (args b : List UInt8) (hb : IsCall c args b)
    (s : σ) (h : ProcHandler σ) (h2 : c.rpcvers = 2) (hl : lastReg regs c.prog c.vers c.proc = some h)
    (d : Xdrable) (hd : (h.run (makeReader args) s).2.1 = some d) (hu : Unencodable d) :
    ∃ e, (handleReqErr (registerMany makeServer regs)).run b s =
      ((h.run (makeReader args) s).1, .error e) := by
  obtain ⟨r, hr, k1, k2, _⟩ := lastReg_mem hl
  rw [handle_regs regs hb, if_neg (by simpa using h2), if_neg (by simpa using ⟨r, hr, k1⟩),
      if_neg (by simpa using ⟨r, hr, k1, k2⟩), hl]
  obtain ⟨e, he⟩ := reply_unencodable (acceptedMsg_writer (zeros 4) c.xid
    (if (h.run (makeReader args) s).2.2 = true then 4 else 0)) hu
  exact ⟨e, by simp only [hd, he]⟩

/-- A handler returning an opaque longer than its declared maximum of 4 bytes. -/
example : Unencodable fun wr => (xdrVarArray wr 4 (some [1, 2, 3, 4, 5])).1 := fun w =>
  congrArg (fun x => x.1.err.isSome)
    (varArray_writer_large w (some 4) (some [1, 2, 3, 4, 5]) (by decide))

/-! ### C42 version ranges -/

/-- Version-mismatch replies announce versions 0 to 0, whatever is registered. -/
theorem C42_ranges (regs : List (ProcReg σ))
    (ho : ∀ r ∈ regs, ∀ rd s d, (r.handler.run rd s).2.1 = some d → WellBehaved d)
    (b : List UInt8) (s : σ) (xid : UInt32) (mark m : List UInt8) (hm : mark.length = 4)
    (h : ((handleReqErr (registerMany makeServer regs)).run b s).2 = .ok (mark ++ m)) :
    (∀ verf low high, IsReply xid (.accepted verf (.progMismatch low high)) m → low = 0 ∧ high = 0) ∧
    (∀ low high, IsReply xid (.rpcMismatch low high) m → low = 0 ∧ high = 0) := by
  obtain ⟨c, args, m', hb, hrec, hm'⟩ := written_shape regs ho h
  obtain ⟨-, rfl⟩ := List.append_inj hrec (hm.trans (be_length _ _).symm)
  have inj : ∀ x : UInt32, be 4 x.toNat = be 4 0 → x = 0 := fun x hx => by
    rw [← UInt32.toNat_inj]
    exact be_inj (by have := x.toNat_lt; omega) (by decide) hx
  have stat : ∀ st t, m = statBytes c.xid st ++ t →
      (∀ verf low high, IsReply xid (.accepted verf (.progMismatch low high)) m →
        be 4 st.toNat ++ ((if st = 2 then be 4 0 ++ be 4 0 else []) ++ t) =
          be 4 2 ++ (be 4 low.toNat ++ be 4 high.toNat)) ∧
      (∀ low high, ¬ IsReply xid (.rpcMismatch low high) m) := by
    intro st t hmt
    refine ⟨fun verf low high hr => ?_, fun low high hr => ?_⟩
    · obtain ⟨wv, hv, hr⟩ := hr
      rw [hmt] at hr
      simp only [statBytes, Accept.bytes, List.append_assoc] at hr
      have h1 := (List.append_inj hr (by simp [be_length])).2
      have h2 := (List.append_inj h1 (by simp [be_length])).2
      have h3 := (List.append_inj h2 (by simp [be_length])).2
      have e1 := auth_reader nullAuth (be 4 st.toNat ++ ((if st = 2 then be 4 0 ++ be 4 0 else []) ++ t)) .zero
      have e2 := auth_reader hv (be 4 2 ++ (be 4 low.toNat ++ be 4 high.toNat)) .zero
      rw [h3, e2] at e1
      simpa [makeReader] using congrArg (fun x => x.1.buf) e1.symm
    · rw [hmt] at hr
      simp only [IsReply, statBytes, List.append_assoc] at hr
      have h1 := (List.append_inj hr (by simp [be_length])).2
      have h2 := (List.append_inj h1 (by simp [be_length])).2
      have h3 := (List.append_inj h2 (by simp [be_length])).1
      exact absurd h3 (by decide)
  have statne : ∀ st t, m = statBytes c.xid st ++ t → be 4 st.toNat ≠ be 4 2 →
      (∀ verf low high, IsReply xid (.accepted verf (.progMismatch low high)) m → low = 0 ∧ high = 0) ∧
      (∀ low high, IsReply xid (.rpcMismatch low high) m → low = 0 ∧ high = 0) := by
    intro st t hmt hne
    obtain ⟨h1, h2⟩ := stat st t hmt
    refine ⟨fun verf low high hr => ?_, fun low high hr => absurd hr (h2 low high)⟩
    exact absurd (List.append_inj (h1 verf low high hr) (by simp [be_length])).1 hne
  rcases hm' with hm' | ⟨st, hm', hst⟩ | ⟨t, hm'⟩ | ⟨t, hm', -⟩
  · refine ⟨fun verf low high hr => ?_, fun low high hr => ?_⟩
    · obtain ⟨wv, hv, hr⟩ := hr
      rw [hm'] at hr
      simp only [deniedBytes, List.append_assoc] at hr
      have h1 := (List.append_inj hr (by simp [be_length])).2
      have h2 := (List.append_inj h1 (by simp [be_length])).2
      have h3 := (List.append_inj h2 (by simp [be_length])).1
      exact absurd h3 (by decide)
    · rw [hm'] at hr
      simp only [IsReply, deniedBytes, List.append_assoc] at hr
      have h1 := (List.append_inj hr (by simp [be_length])).2
      have h2 := (List.append_inj h1 (by simp [be_length])).2
      have h3 := (List.append_inj h2 (by simp [be_length])).2
      have h4 := (List.append_inj h3 (by simp [be_length])).2
      have h5 := List.append_inj h4 (by simp [be_length])
      exact ⟨inj _ h5.1.symm, inj _ h5.2.symm⟩
  · by_cases h2 : st = 2
    · subst h2
      obtain ⟨h1, h2⟩ := stat 2 [] (by simpa using hm')
      refine ⟨fun verf low high hr => ?_, fun low high hr => absurd hr (h2 low high)⟩
      have h3 := (List.append_inj (h1 verf low high hr) (by simp [be_length])).2
      simp only [if_true, List.append_nil] at h3
      have h5 := List.append_inj h3 (by simp [be_length])
      exact ⟨inj _ h5.1.symm, inj _ h5.2.symm⟩
    · refine statne st [] (by simpa using hm') fun hbe => h2 ?_
      rw [← UInt32.toNat_inj]
      exact be_inj (by have := st.toNat_lt; omega) (by decide) hbe
  · exact statne 0 t hm' (by decide)
  · exact statne 4 t hm' (by decide)

/-- A program with versions 3 to 5 registered, asked for version 9. -/
example : ((handleReqErr (registerMany makeServer
      ([⟨7, 3, 0, .ret (none, false)⟩, ⟨7, 5, 0, .ret (none, false)⟩] : List (ProcReg Unit)))).run
      (callBytes ⟨1, 2, 7, 9, 0, .null, .null⟩ []) ()).2 =
    .ok ([128, 0, 0, 32] ++ (be 4 1 ++ be 4 1 ++ be 4 0 ++ authBytes .null ++
      (Accept.progMismatch 0 0).bytes)) := by decide +kernel

end Verif.Props
