/-
Lemmas on the handler table, reply construction and request processing.
-/
import Verif.Rpc.Server
import Verif.Rpc.MsgLemmas

namespace Verif.Rpc
open Verif.Xdr Verif.Spec

/-! ### Handler table -/

section Table
variable {σ : Type}

/-- The procedure map of a program and version. -/
def Handlers.vers (hs : Handlers σ) (p v : UInt32) : Option (UInt32 → Option (ProcHandler σ)) :=
  (hs p).bind fun m => m v

/-- The handler of a triple. -/
def Handlers.lookup (hs : Handlers σ) (p v c : UInt32) : Option (ProcHandler σ) :=
  (hs.vers p v).bind fun m => m c

theorem register_prog (hs : Handlers σ) (p v c : UInt32) (h : ProcHandler σ) (p' : UInt32) :
    ((register hs p v c h) p').isSome = (decide (p' = p) || (hs p').isSome) := by
  unfold register mapSet
  by_cases hp : p' = p
  · subst hp; simp
  · by_cases h0 : (hs p).isNone <;> simp [hp, h0]

theorem register_vers (hs : Handlers σ) (p v c : UInt32) (h : ProcHandler σ) (p' v' : UInt32) :
    ((register hs p v c h).vers p' v').isSome =
      (decide (p' = p ∧ v' = v) || (hs.vers p' v').isSome) := by
  unfold register mapSet Handlers.vers
  by_cases hp : p' = p
  · subst hp
    by_cases hv : v' = v
    · subst hv; simp
    · cases hq : hs p' with
      | none => simp [hv]
      | some m => cases hm : m v <;> simp [hq, hv, hm]
  · by_cases h0 : (hs p).isNone <;> simp [hp, h0]

theorem register_lookup (hs : Handlers σ) (p v c : UInt32) (h : ProcHandler σ) (p' v' c' : UInt32) :
    (register hs p v c h).lookup p' v' c' =
      if p' = p ∧ v' = v ∧ c' = c then some h else hs.lookup p' v' c' := by
  unfold register mapSet Handlers.lookup Handlers.vers
  by_cases hp : p' = p
  · subst hp
    by_cases hv : v' = v
    · subst hv
      by_cases hc : c' = c
      · subst hc; simp
      · cases hq : hs p' with
        | none => simp [hc]
        | some m => cases hm : m v' <;> simp [hq, hm, hc]
    · cases hq : hs p' with
      | none => simp [hv]
      | some m => cases hm : m v <;> simp [hq, hv, hm]
  · by_cases h0 : (hs p).isNone <;> simp [hp, h0]

theorem registerMany_append (hs : Handlers σ) (a b : List (ProcReg σ)) :
    registerMany hs (a ++ b) = registerMany (registerMany hs a) b := by
  induction a generalizing hs with
  | nil => rfl
  | cons r rs ih => exact ih _

theorem registerMany_snoc (hs : Handlers σ) (a : List (ProcReg σ)) (r : ProcReg σ) :
    registerMany hs (a ++ [r]) = register (registerMany hs a) r.prog r.vers r.proc r.handler := by
  rw [registerMany_append]; rfl

end Table

/-! ### Record marks -/

theorem mark_toNat (n : Nat) :
    (((1 : UInt32) <<< 31) ||| UInt32.ofNat n).toNat = 2 ^ 31 + n % 2 ^ 31 := by
  have h1 : ((1 : UInt32) <<< 31).toNat = 1 <<< 31 := by decide
  rw [UInt32.toNat_or, h1, UInt32.toNat_ofNat']
  have h2 : ∀ r, r < 2 ^ 31 → r ||| (1 <<< 31) = r + 2 ^ 31 := fun r hr => by
    rw [or_shift r 1 31 hr]
  have hr : n % 2 ^ 31 < 2 ^ 31 := Nat.mod_lt _ (by decide)
  by_cases h : n % 2 ^ 32 < 2 ^ 31
  · have : n % 2 ^ 31 = n % 2 ^ 32 := by omega
    rw [Nat.or_comm, h2 _ h, this]; omega
  · have h3 : n % 2 ^ 32 = n % 2 ^ 31 + 2 ^ 31 := by omega
    rw [h3, ← h2 _ hr, Nat.or_comm, Nat.or_assoc, Nat.or_self, h2 _ hr, Nat.add_comm]

/-- The mark that is written before a message. -/
theorem mark_eq (n : Nat) :
    putU32 (((1 : UInt32) <<< 31) ||| UInt32.ofNat n) = be 4 (2 ^ 31 + n % 2 ^ 31) := by
  rw [putU32_eq_be, mark_toNat]

theorem setRecordMark_eq (msg : List UInt8) :
    setRecordMark (zeros 4 ++ msg) = be 4 (2 ^ 31 + msg.length % 2 ^ 31) ++ msg := by
  have h1 : (zeros 4 ++ msg).length - 4 = msg.length := by simp [zeros]
  have h2 : (zeros 4 ++ msg).drop 4 = msg := rfl
  rw [setRecordMark, h1, h2, mark_eq]

theorem record_of_small {msg : List UInt8} (h : msg.length < 2 ^ 31) :
    IsRecord msg (be 4 (2 ^ 31 + msg.length % 2 ^ 31) ++ msg) := by
  refine ⟨h, ?_⟩
  rw [Nat.mod_eq_of_lt h]

/-! ### Replies -/

/-- The reply the server sends for a status word, before any result. -/
def statBytes (xid st : UInt32) : List UInt8 :=
  be 4 xid.toNat ++ be 4 1 ++ be 4 0 ++ authBytes Auth.null ++ be 4 st.toNat ++
    (if st = 2 then be 4 0 ++ be 4 0 else [])

def deniedBytes (xid : UInt32) : List UInt8 :=
  be 4 xid.toNat ++ be 4 1 ++ be 4 1 ++ be 4 0 ++ be 4 0 ++ be 4 0

theorem array_nil_writer (w : List UInt8) : xdrArray (makeWriter w) [] = (makeWriter w, []) := by
  rw [array_writer]; simp [opaqueFixed, pad, zeroBytes]

theorem acceptedMsg_writer (w : List UInt8) (xid st : UInt32) :
    ((acceptedMsg xid st).xdr (makeWriter w)).1 = makeWriter (w ++ statBytes xid st) := by
  have h2 : ¬ ((1 : UInt32) = 0) := by decide
  have h3 : ¬ ((2 : UInt32) = 0) := by decide
  have hn := fun w => auth_writer w OpaqueAuth.zero (by decide)
  have hz : authOf OpaqueAuth.zero = Auth.null := rfl
  simp only [acceptedMsg, replyMsg, RpcMsg.xdr, ReplyBody.xdr, ReplyBody.zero, AcceptedReply.xdr,
    AcceptedReply.zero, u32_writer, h2, if_false, if_true, hn, hz, statBytes]
  by_cases c0 : st = 0
  · subst c0
    have h4 : ¬ ((0 : UInt32) = 2) := by decide
    simp only [if_true, array_nil_writer, h4, if_false]
    simp
  · by_cases c2 : st = 2
    · subst c2
      simp only [h3, if_false, if_true, Mismatch.xdr, u32_writer, Mismatch.zero]
      simp
    · simp only [c0, c2, if_false]
      simp

theorem deniedMsg_writer (w : List UInt8) (xid : UInt32) :
    ((deniedMsg xid).xdr (makeWriter w)).1 = makeWriter (w ++ deniedBytes xid) := by
  have h2 : ¬ ((1 : UInt32) = 0) := by decide
  simp only [deniedMsg, replyMsg, RpcMsg.xdr, ReplyBody.xdr, ReplyBody.zero, RejectedReply.xdr,
    RejectedReply.zero, u32_writer, h2, if_false, if_true, Mismatch.xdr, Mismatch.zero, deniedBytes]
  simp

/-- The object appends the bytes `s` to any output (and nothing else). -/
def Encodes (x : Xdrable) (s : List UInt8) : Prop := ∀ w, x (makeWriter w) = makeWriter (w ++ s)

/-- The object cannot be encoded: whatever the output so far, an error is reported. -/
def Unencodable (x : Xdrable) : Prop := ∀ w, (x (makeWriter w)).err.isSome

/-- An object whose `Xdr` method only appends, or reports an error. -/
def WellBehaved (x : Xdrable) : Prop := Unencodable x ∨ ∃ s, Encodes x s

theorem reply_none {res : RpcMsg} {m : List UInt8}
    (h : (res.xdr (makeWriter (zeros 4))).1 = makeWriter (zeros 4 ++ m)) :
    reply res none = .ok (be 4 (2 ^ 31 + m.length % 2 ^ 31) ++ m) := by
  simp only [reply, h]
  simp only [makeWriter, writeBuf, setRecordMark_eq]

theorem reply_some {res : RpcMsg} {m : List UInt8} {d : Xdrable} {s : List UInt8}
    (h : (res.xdr (makeWriter (zeros 4))).1 = makeWriter (zeros 4 ++ m)) (hd : Encodes d s) :
    reply res (some d) = .ok (be 4 (2 ^ 31 + (m ++ s).length % 2 ^ 31) ++ (m ++ s)) := by
  simp only [reply, h]
  simp only [hd (zeros 4 ++ m)]
  simp only [makeWriter, writeBuf, List.append_assoc (zeros 4), setRecordMark_eq]

theorem reply_unencodable {res : RpcMsg} {m : List UInt8} {d : Xdrable}
    (h : (res.xdr (makeWriter (zeros 4))).1 = makeWriter (zeros 4 ++ m)) (hd : Unencodable d) :
    ∃ e, reply res (some d) = .error e := by
  have h1 := hd (zeros 4 ++ m)
  simp only [reply, h]
  cases he : (d (makeWriter (zeros 4 ++ m))).err with
  | none => rw [he] at h1; cases h1
  | some e => exact ⟨_, rfl⟩

/-! ### Processing one request -/

variable {σ : Type}

/-- What `handleReqErr` does with a call, in terms of the table lookups. -/
theorem handle_call (hs : Handlers σ) {c : Call} {args b : List UInt8} (h : IsCall c args b) (s : σ) :
    (handleReqErr hs).run b s =
      if c.rpcvers ≠ 2 then (s, reply (deniedMsg c.xid) none)
      else match hs c.prog with
        | none => (s, reply (acceptedMsg c.xid 1) none)
        | some vermap =>
          match vermap c.vers with
          | none => (s, reply (acceptedMsg c.xid 2) none)
          | some procmap =>
            match procmap c.proc with
            | none => (s, reply (acceptedMsg c.xid 3) none)
            | some hd =>
              let r := hd.run (makeReader args) s
              (r.1, reply (acceptedMsg c.xid (if r.2.2 then 4 else 0)) r.2.1) := by
  have hl : ∃ p, b = p ++ args := by
    obtain ⟨wc, wv, _, _, rfl⟩ := h
    exact ⟨_, rfl⟩
  simp only [handleReqErr, Proc.run, decode_call h]
  by_cases hv : c.rpcvers = 2
  · simp only [makeReader, ne_eq, not_true_eq_false, if_false, callBodyOf, hv]
    cases hp : hs c.prog with
    | none => rfl
    | some vm =>
      simp only []
      cases hq : vm c.vers with
      | none => rfl
      | some pm =>
        simp only []
        cases hr : pm c.proc with
        | none => rfl
        | some hd =>
          simp only [Proc.run_bind, Proc.run_comap]
          obtain ⟨p, rfl⟩ := hl
          have hdrop : (p ++ args).drop ((p ++ args).length - args.length) = args := by simp
          rw [hdrop]
          by_cases he : (hd.run { err := none, reader := true, buf := args } s).2.2 = true
          · simp only [he, if_true, Proc.run]
          · simp only [he]; rfl
  · simp [makeReader, callBodyOf, hv, Proc.run]

/-- Anything else is not answered and does not change the handlers' state.  The error depends
neither on the table nor on the state. -/
theorem handle_other' {b : List UInt8} (h : ¬ ∃ c args, IsCall c args b) :
    ∃ e, ∀ {σ : Type} (hs : Handlers σ) (s : σ), (handleReqErr hs).run b s = (s, .error e) := by
  rw [← decode_call_iff] at h
  simp only [handleReqErr, Proc.run]
  cases he : (RpcMsg.zero.xdr (makeReader b)).1.err with
  | some e => exact ⟨.xdr e, fun _ _ => rfl⟩
  | none =>
    have hm : (RpcMsg.zero.xdr (makeReader b)).2.mtype ≠ 0 := fun hm => h ⟨he, hm⟩
    exact ⟨.notCall _, fun _ _ => by simp only [ne_eq, hm, not_false_eq_true, if_true]; rfl⟩

theorem handle_other (hs : Handlers σ) {b : List UInt8} (h : ¬ ∃ c args, IsCall c args b) (s : σ) :
    ∃ e, (handleReqErr hs).run b s = (s, .error e) :=
  let ⟨e, he⟩ := handle_other' h
  ⟨e, he hs s⟩

/-- A call message determines its header and arguments. -/
theorem isCall_unique {c c' : Call} {args args' b : List UInt8} (h : IsCall c args b)
    (h' : IsCall c' args' b) : c = c' ∧ args = args' := by
  have h1 := decode_call h RpcMsg.zero
  rw [decode_call h' RpcMsg.zero] at h1
  obtain ⟨xid, rv, pr, ve, pc, ⟨f1, b1⟩, ⟨f2, b2⟩⟩ := c
  obtain ⟨xid', rv', pr', ve', pc', ⟨f1', b1'⟩, ⟨f2', b2'⟩⟩ := c'
  simp only [makeReader, callBodyOf, Prod.mk.injEq, XdrState.mk.injEq, RpcMsg.mk.injEq, CallBody.mk.injEq,
    OpaqueAuth.mk.injEq, Option.some.injEq] at h1
  obtain ⟨⟨_, _, ha⟩, hx, _, ⟨h2, h3, h4, h5, ⟨h6, h7⟩, h8, h9⟩, _⟩ := h1
  simp_all

end Verif.Rpc
