/-
Decoding and encoding of RPC messages, related to the message formats of `Verif.Spec.Rpc`.
-/
import Verif.Rpc.Msg
import Verif.Spec.Rpc
import Verif.Xdr.LibLemmas

namespace Verif.Rpc
open Verif.Xdr Verif.Spec

/-! ### Reading one item: what an error-free read means -/

theorem u32_be (x y : UInt32) (rest : List UInt8) :
    xdrU32 (makeReader (be 4 x.toNat ++ rest)) y = (makeReader rest, x) := by
  rw [u32_reader _ _ _ (be_length _ _), ← putU32_eq_be, getU32_putU32]

theorem u32_ok {b : List UInt8} {y : UInt32} (h : (xdrU32 (makeReader b) y).1.err = none) :
    ∃ x rest, b = be 4 x.toNat ++ rest ∧ xdrU32 (makeReader b) y = (makeReader rest, x) := by
  rcases short_or_split b 4 with hb | ⟨p, rest, rfl, hp⟩
  · rw [u32_short b y hb] at h; cases h
  · refine ⟨getU32 p, rest, ?_, u32_reader p rest y hp⟩
    rw [← putU32_eq_be, putU32_getU32 hp]

theorem auth_reader {a : Auth} {w : List UInt8} (h : IsAuth a w) (rest : List UInt8) (v : OpaqueAuth) :
    v.xdr (makeReader (w ++ rest)) = (makeReader rest, ⟨a.flavor, some a.body⟩) := by
  obtain ⟨hl, q, hq, rfl⟩ := h
  have h1 := varArray_reader a.body q rest (some 400) v.body
    ⟨by omega, fun m hm => by cases hm; exact hl⟩ hq
  simp only [List.append_assoc] at h1
  simp only [OpaqueAuth.xdr, List.append_assoc, u32_be]
  rw [show (400 : Int) = maxInt (some 400) from rfl, h1]

theorem auth_err {xs : XdrState} (v : OpaqueAuth) (h : xs.err.isSome) : (v.xdr xs).1 = xs := by
  simp [OpaqueAuth.xdr, u32_err v.flavor h, varArray_err _ _ h]

theorem auth_ok {b : List UInt8} {v : OpaqueAuth} (h : (v.xdr (makeReader b)).1.err = none) :
    ∃ a w rest, b = w ++ rest ∧ IsAuth a w ∧
      v.xdr (makeReader b) = (makeReader rest, ⟨a.flavor, some a.body⟩) := by
  have h0 : (xdrU32 (makeReader b) v.flavor).1.err = none := by
    cases he : (xdrU32 (makeReader b) v.flavor).1.err with
    | none => rfl
    | some e =>
      simp only [OpaqueAuth.xdr] at h
      rw [varArray_err _ _ (by simp [he]), he] at h; cases h
  obtain ⟨x, r, rfl, hx⟩ := u32_ok h0
  simp only [OpaqueAuth.xdr, hx] at h
  by_cases hc : ∃ d q rest, r = be 4 d.length ++ (d ++ q) ++ rest ∧ withinMax (some 400) d.length ∧
      q.length = pad d.length
  · obtain ⟨d, q, rest, rfl, hd, hq⟩ := hc
    have ha : IsAuth ⟨x, d⟩ (be 4 x.toNat ++ be 4 d.length ++ d ++ q) :=
      ⟨hd.2 400 rfl, q, hq, rfl⟩
    refine ⟨⟨x, d⟩, _, rest, by simp, ha, ?_⟩
    have := auth_reader ha rest v
    simpa using this
  · have := (varArray_fail r (some 400) v.body hc).1
    rw [show maxInt (some 400) = (400 : Int) from rfl, h] at this; cases this

/-! ### Stickiness of the message codecs -/

theorem callBody_err {xs : XdrState} (v : CallBody) (h : xs.err.isSome) : (v.xdr xs).1 = xs := by
  simp [CallBody.xdr, u32_err _ h, auth_err _ h]

theorem mismatch_err {xs : XdrState} (v : Mismatch) (h : xs.err.isSome) : (v.xdr xs).1 = xs := by
  simp [Mismatch.xdr, u32_err _ h]

theorem accepted_err {xs : XdrState} (v : AcceptedReply) (h : xs.err.isSome) : (v.xdr xs).1 = xs := by
  simp only [AcceptedReply.xdr, auth_err _ h, u32_err _ h]
  split
  · simp [array_err _ h]
  · split
    · simp [mismatch_err _ h]
    · rfl

theorem rejected_err {xs : XdrState} (v : RejectedReply) (h : xs.err.isSome) : (v.xdr xs).1 = xs := by
  simp only [RejectedReply.xdr, u32_err _ h]
  split
  · simp [mismatch_err _ h]
  · split <;> simp

theorem replyBody_err {xs : XdrState} (v : ReplyBody) (h : xs.err.isSome) : (v.xdr xs).1 = xs := by
  simp only [ReplyBody.xdr, u32_err _ h]
  split
  · simp [accepted_err _ h]
  · split
    · simp [rejected_err _ h]
    · rfl

/-- If the state after a sticky second step has no error, the state before it had none. -/
theorem none_of_sticky {f : XdrState → XdrState} (hf : ∀ xs, xs.err.isSome → f xs = xs) {xs : XdrState}
    (h : (f xs).err = none) : xs.err = none := by
  cases he : xs.err with
  | none => rfl
  | some e => rw [hf xs (by simp [he]), he] at h; cases h

/-! ### Call messages -/

/-- The decoded call header. -/
def callBodyOf (c : Call) : CallBody :=
  ⟨c.rpcvers, c.prog, c.vers, c.proc, ⟨c.cred.flavor, some c.cred.body⟩, ⟨c.verf.flavor, some c.verf.body⟩⟩

theorem decode_call {c : Call} {args b : List UInt8} (h : IsCall c args b) (v : RpcMsg) :
    v.xdr (makeReader b) = (makeReader args, ⟨c.xid, 0, callBodyOf c, v.rbody⟩) := by
  obtain ⟨wc, wv, hc, hv, rfl⟩ := h
  have h0 : be 4 0 = be 4 (0 : UInt32).toNat := rfl
  simp only [List.append_assoc, RpcMsg.xdr, CallBody.xdr, u32_be, h0, auth_reader hc, auth_reader hv,
    if_true]
  rfl

theorem callBody_ok {b : List UInt8} {v : CallBody} (h : (v.xdr (makeReader b)).1.err = none) :
    ∃ rpcvers prog vers proc cred verf wc wv rest, IsAuth cred wc ∧ IsAuth verf wv ∧
      b = be 4 rpcvers.toNat ++ be 4 prog.toNat ++ be 4 vers.toNat ++ be 4 proc.toNat ++ wc ++ wv ++
        rest ∧
      v.xdr (makeReader b) = (makeReader rest,
        ⟨rpcvers, prog, vers, proc, ⟨cred.flavor, some cred.body⟩, ⟨verf.flavor, some verf.body⟩⟩) := by
  simp only [CallBody.xdr] at h
  have h6 := none_of_sticky (f := fun xs => (v.verf.xdr xs).1) (fun xs hx => auth_err _ hx) h
  have h5 := none_of_sticky (f := fun xs => (v.cred.xdr xs).1) (fun xs hx => auth_err _ hx) h6
  have h4 := none_of_sticky (f := fun xs => (xdrU32 xs v.proc).1) (fun xs hx => by simp [u32_err _ hx]) h5
  have h3 := none_of_sticky (f := fun xs => (xdrU32 xs v.vers).1) (fun xs hx => by simp [u32_err _ hx]) h4
  have h2 := none_of_sticky (f := fun xs => (xdrU32 xs v.prog).1) (fun xs hx => by simp [u32_err _ hx]) h3
  obtain ⟨x1, r1, rfl, e1⟩ := u32_ok h2
  simp only [e1] at h h6 h5 h4 h3
  obtain ⟨x2, r2, rfl, e2⟩ := u32_ok h3
  simp only [e2] at h h6 h5 h4
  obtain ⟨x3, r3, rfl, e3⟩ := u32_ok h4
  simp only [e3] at h h6 h5
  obtain ⟨x4, r4, rfl, e4⟩ := u32_ok h5
  simp only [e4] at h h6
  obtain ⟨a1, w1, r5, rfl, i1, e5⟩ := auth_ok h6
  simp only [e5] at h
  obtain ⟨a2, w2, r6, rfl, i2, e6⟩ := auth_ok h
  refine ⟨x1, x2, x3, x4, a1, a2, w1, w2, r6, i1, i2, by simp, ?_⟩
  simp only [CallBody.xdr, e1, e2, e3, e4, e5, e6]

/-- The header part common to all messages. -/
theorem msg_ok {b : List UInt8} {v : RpcMsg} (h : (v.xdr (makeReader b)).1.err = none) :
    ∃ xid mtype rest, b = be 4 xid.toNat ++ be 4 mtype.toNat ++ rest ∧
      (v.xdr (makeReader b)).2.xid = xid ∧ (v.xdr (makeReader b)).2.mtype = mtype ∧
      (mtype = 0 → v.xdr (makeReader b) =
        ((v.cbody.xdr (makeReader rest)).1, ⟨xid, 0, (v.cbody.xdr (makeReader rest)).2, v.rbody⟩)) ∧
      (mtype = 1 → v.xdr (makeReader b) =
        ((v.rbody.xdr (makeReader rest)).1, ⟨xid, 1, v.cbody, (v.rbody.xdr (makeReader rest)).2⟩)) := by
  have hs : (xdrU32 (xdrU32 (makeReader b) v.xid).1 v.mtype).1.err = none := by
    cases he : (xdrU32 (xdrU32 (makeReader b) v.xid).1 v.mtype).1.err with
    | none => rfl
    | some e =>
      have hi : (xdrU32 (xdrU32 (makeReader b) v.xid).1 v.mtype).1.err.isSome := by simp [he]
      simp only [RpcMsg.xdr] at h
      split at h
      · rw [callBody_err _ hi, he] at h; cases h
      · split at h
        · rw [replyBody_err _ hi, he] at h; cases h
        · rw [he] at h; cases h
  have h1 := none_of_sticky (f := fun xs => (xdrU32 xs v.mtype).1) (fun xs hx => by simp [u32_err _ hx]) hs
  obtain ⟨x1, r1, rfl, e1⟩ := u32_ok h1
  rw [e1] at hs
  obtain ⟨x2, r2, rfl, e2⟩ := u32_ok hs
  refine ⟨x1, x2, r2, by simp, ?_, ?_, ?_, ?_⟩
  · simp only [RpcMsg.xdr, e1, e2]; split <;> (try split) <;> rfl
  · simp only [RpcMsg.xdr, e1, e2]; split <;> (try split) <;> rfl
  · rintro rfl; simp only [RpcMsg.xdr, e1, e2, if_true]
  · rintro rfl
    have : ¬ ((1 : UInt32) = 0) := by decide
    simp only [RpcMsg.xdr, e1, e2, if_true, this, if_false]

/-- Exactly the call messages decode as calls. -/
theorem decode_call_iff (b : List UInt8) :
    ((RpcMsg.zero.xdr (makeReader b)).1.err = none ∧ (RpcMsg.zero.xdr (makeReader b)).2.mtype = 0) ↔
      ∃ c args, IsCall c args b := by
  constructor
  · rintro ⟨h, hm⟩
    obtain ⟨xid, mt, rest, rfl, _, h2, h3, _⟩ := msg_ok h
    rw [h2] at hm
    subst hm
    have h4 := h3 rfl
    rw [h4] at h
    obtain ⟨rv, pr, ve, pc, cr, vf, wc, wv, args, i1, i2, rfl, _⟩ := callBody_ok h
    exact ⟨⟨xid, rv, pr, ve, pc, cr, vf⟩, args, wc, wv, i1, i2, by simp⟩
  · rintro ⟨c, args, h⟩
    rw [decode_call h]
    exact ⟨rfl, rfl⟩

/-! ### Successful replies -/

theorem array_nil_reader (b : List UInt8) : xdrArray (makeReader b) [] = (makeReader b, []) := by
  have := array_reader [] [] b [] rfl rfl
  simpa using this

theorem decode_success {xid : UInt32} {verf : Auth} {r b : List UInt8}
    (h : IsReply xid (.accepted verf (.success r)) b) (v : RpcMsg) :
    v.xdr (makeReader b) = (makeReader r, ⟨xid, 1, v.cbody,
      ⟨0, ⟨⟨verf.flavor, some verf.body⟩, 0, v.rbody.areply.mismatch⟩, v.rbody.rreply⟩⟩) := by
  obtain ⟨wv, hv, rfl⟩ := h
  have h0 : be 4 0 = be 4 (0 : UInt32).toNat := rfl
  have h1 : be 4 1 = be 4 (1 : UInt32).toNat := rfl
  have h2 : ¬ ((1 : UInt32) = 0) := by decide
  simp only [Accept.bytes, List.append_assoc, RpcMsg.xdr, ReplyBody.xdr, AcceptedReply.xdr, u32_be, h0, h1,
    auth_reader hv, if_true, h2, if_false, array_nil_reader]

theorem decode_success_iff (xid : UInt32) (b : List UInt8) :
    ((RpcMsg.zero.xdr (makeReader b)).1.err = none ∧ (RpcMsg.zero.xdr (makeReader b)).2.xid = xid ∧
      (RpcMsg.zero.xdr (makeReader b)).2.mtype = 1 ∧ (RpcMsg.zero.xdr (makeReader b)).2.rbody.stat = 0 ∧
      (RpcMsg.zero.xdr (makeReader b)).2.rbody.areply.stat = 0) ↔
      ∃ verf r, IsReply xid (.accepted verf (.success r)) b := by
  constructor
  · rintro ⟨h, hx, hm, hs, ha⟩
    obtain ⟨xid, mt, rest, rfl, h1, h2, _, h3⟩ := msg_ok h
    rw [h1] at hx
    rw [h2] at hm
    subst hx hm
    have h4 := h3 rfl
    rw [h4] at h hs ha
    simp only at h hs ha
    -- reply body
    have hsn : (xdrU32 (makeReader rest) RpcMsg.zero.rbody.stat).1.err = none := by
      cases he : (xdrU32 (makeReader rest) RpcMsg.zero.rbody.stat).1.err with
      | none => rfl
      | some e =>
        have hi : (xdrU32 (makeReader rest) RpcMsg.zero.rbody.stat).1.err.isSome := by simp [he]
        simp only [ReplyBody.xdr] at h
        split at h
        · rw [accepted_err _ hi, he] at h; cases h
        · split at h
          · rw [rejected_err _ hi, he] at h; cases h
          · rw [he] at h; cases h
    obtain ⟨st, r1, rfl, e1⟩ := u32_ok hsn
    have hst : st = 0 := by
      simp only [ReplyBody.xdr, e1] at hs
      split at hs
      · assumption
      · split at hs <;> exact hs
    subst hst
    simp only [ReplyBody.xdr, e1, if_true] at h ha
    -- accepted reply
    have hvn : (xdrU32 (RpcMsg.zero.rbody.areply.verf.xdr (makeReader r1)).1
        RpcMsg.zero.rbody.areply.stat).1.err = none := by
      cases he : (xdrU32 (RpcMsg.zero.rbody.areply.verf.xdr (makeReader r1)).1
        RpcMsg.zero.rbody.areply.stat).1.err with
      | none => rfl
      | some e =>
        have hi : (xdrU32 (RpcMsg.zero.rbody.areply.verf.xdr (makeReader r1)).1
          RpcMsg.zero.rbody.areply.stat).1.err.isSome := by simp [he]
        simp only [AcceptedReply.xdr] at h
        split at h
        · rw [array_err _ hi, he] at h; cases h
        · split at h
          · rw [mismatch_err _ hi, he] at h; cases h
          · rw [he] at h; cases h
    have hv := none_of_sticky (f := fun xs => (xdrU32 xs RpcMsg.zero.rbody.areply.stat).1)
      (fun xs hx => by simp [u32_err _ hx]) hvn
    obtain ⟨a, w, r2, rfl, ia, e2⟩ := auth_ok hv
    rw [e2] at hvn
    obtain ⟨st, r3, rfl, e3⟩ := u32_ok hvn
    have hst : st = 0 := by
      simp only [AcceptedReply.xdr, e2, e3] at ha
      split at ha
      · assumption
      · split at ha <;> exact ha
    subst hst
    exact ⟨a, r3, w, ia, by simp [Accept.bytes]⟩
  · rintro ⟨verf, r, h⟩
    rw [decode_success h]
    exact ⟨rfl, rfl, rfl, rfl, rfl⟩

/-! ### Encoding -/

/-- The specification's view of an `Opaque_auth` value. -/
def authOf (v : OpaqueAuth) : Auth := ⟨v.flavor, goElems v.body⟩

theorem auth_writer (w : List UInt8) (v : OpaqueAuth) (h : goLen v.body ≤ 400) :
    v.xdr (makeWriter w) = (makeWriter (w ++ authBytes (authOf v)), v) := by
  have := varArray_writer (w ++ be 4 v.flavor.toNat) (some 400) v.body
    ⟨by omega, fun m hm => by cases hm; exact h⟩
  simp only [OpaqueAuth.xdr, u32_writer]
  rw [show (400 : Int) = maxInt (some 400) from rfl, this]
  simp [authBytes, authOf]

theorem auth_writer_large (w : List UInt8) (v : OpaqueAuth) (h : ¬ goLen v.body ≤ 400) :
    (v.xdr (makeWriter w)).1.err.isSome := by
  have := varArray_writer_large (w ++ be 4 v.flavor.toNat) (some 400) v.body
    (fun hc => h (hc.2 400 rfl))
  simp only [OpaqueAuth.xdr, u32_writer]
  rw [show (400 : Int) = maxInt (some 400) from rfl, this]
  rfl

theorem authBytes_isAuth {a : Auth} (h : a.body.length ≤ 400) : IsAuth a (authBytes a) :=
  ⟨h, zeroBytes (pad a.body.length), by simp [zeroBytes], by simp [authBytes, opaqueVar]⟩

theorem callBytes_isCall {c : Call} (h1 : c.cred.body.length ≤ 400) (h2 : c.verf.body.length ≤ 400)
    (args : List UInt8) : IsCall c args (callBytes c args) :=
  ⟨_, _, authBytes_isAuth h1, authBytes_isAuth h2, rfl⟩

end Verif.Rpc
