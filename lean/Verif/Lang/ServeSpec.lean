/-
What handleReqErr of rfc1057/server.go (lines 107-182), as read from the file, does: what Verif.Rpc.Server says.
-/
import Verif.Lang.TableSpec
import Verif.Rpc.ServerLemmas
namespace Verif.Lang
open Verif.Xdr (XErr XdrState)
open Verif.Rpc
variable {ω : Type}
set_option linter.unusedSimpArgs false

theorem wp_conj {α : Type} {m : M ω α} {Q R : α → St ω → Prop} {st : St ω} (h : wp m Q st) (h' : wp m R st) :
    wp m (fun a s => Q a s ∧ R a s) st := by
  rw [wp_iff] at *
  obtain ⟨a, s, e, q⟩ := h
  obtain ⟨a', s', e', q'⟩ := h'
  rw [e] at e'
  cases e'
  exact ⟨a, s, e, q, q'⟩

/-! ### The parts of `handleReqErr` -/

/-- server.go:108-118 -/
def reqDecode : List Stmt := server_serverConn_handleReqErr.body.take 6
/-- server.go:120-152 -/
def reqDispatch : List Stmt := (server_serverConn_handleReqErr.body.drop 6).take 5
/-- server.go:154-174 -/
def reqReply : List Stmt := (server_serverConn_handleReqErr.body.drop 11).take 7
/-- server.go:176-181 -/
def reqSend : List Stmt := server_serverConn_handleReqErr.body.drop 18

theorem req_body : server_serverConn_handleReqErr.body = reqDecode ++ (reqDispatch ++ (reqReply ++ reqSend)) := rfl

/-- The state of the application, of which the model knows only a value of type `σ`: it is in the cells `app` and in the
world.  Sending a reply does not change it. -/
structure App {σ : Type} (E : Ext ω) (rw : V) (I : (Nat → Prop) → St ω → σ → Prop) : Prop where
  lt : ∀ {app st y} (j : Nat), I app st y → app j → j < st.next
  stable : ∀ {app st y} (st' : St ω), I app st y → (∀ j, app j → st'.heap j = st.heap j) → st'.world = st.world → st.next ≤ st'.next →
    I app st' y
  write : ∀ {app st y} (s : Slice) (arr : List UInt8), ArrAt st s arr → I app st y →
    wp (E.ext "Write" [rw, .slice s]) (fun _ st' => I app st' y) st

def connV (T : String) (c : Nat) (rw : V) : V := .struct "rfc1057.serverConn" [("s", .ptr T ⟨c, []⟩), ("rw", rw)]

/-- How the sending of a reply ends. -/
structure PutEnd {σ : Type} (W : Wire ω) (I : (Nat → Prop) → St ω → σ → Prop) (app : Nat → Prop) (y : σ) (w cer : Nat) (b : List UInt8)
    (e : V) (st st' : St ω) : Prop where
  err : if W.ok st.world then e = .nil else ∃ m vs, e = .err m vs
  inv : I app st' y
  sent : W.sent st'.world = W.sent st.world ++ [setRecordMark b]
  input : W.input st'.world = W.input st.world
  frame : ∀ j, j < st.next → j ≠ w → j ≠ cer → st'.heap j = st.heap j
  next : st.next ≤ st'.next
  defers : st'.defers = st.defers

theorem sub_mark {st : St ω} {s : Slice} {arr : List UInt8} (h : ArrAt st s arr) (h4 : 4 ≤ s.len) (v : UInt32) :
    sub s (overwrite arr s.off (be32 v)) = Xdr.putU32 v ++ (sub s arr).drop 4 := by
  obtain ⟨_, h1, h2⟩ := h
  have hl : (arr.take s.off).length = s.off := by rw [List.length_take]; omega
  have hb : (be32 v).length = 4 := rfl
  simp only [sub, overwrite, hb, ← be32_putU32]
  rw [List.append_assoc, List.drop_append, List.drop_eq_nil_of_le (by omega), hl, Nat.sub_self, List.drop_zero, List.nil_append,
    List.take_append, hb, List.take_of_length_le (by omega), List.drop_take, List.drop_drop]

variable [Others]

set_option maxRecDepth 10000 in
theorem reqSend_spec {σ : Type} (E : Ext ω) (W : Wire ω) (k : Nat) {rw : V} (T : Transport E W rw) {I : (Nat → Prop) → St ω → σ → Prop} (A : App E rw I)
    {st : St ω} {app : Nat → Prop} {y : σ} (hI : I app st y)
    {cwr cre crd crs cer crq crdr cbuf csc : Nat} {Tc Ts : String} {c s : Nat} {x a w : Nat} {xs : XdrState}
    (hcc : st.heap csc = .ptr Tc ⟨c, []⟩) (hc : st.heap c = connV Ts s rw) (hwr : st.heap cwr = .ptr "" ⟨x, []⟩) (hx : Xs st x a w xs)
    (hr : xs.reader = false) (hlen : 4 ≤ xs.buf.length) (haw : ¬ app w) (hae : ¬ app cer)
    (u1 : csc < st.next) (u2 : c < st.next) (d1 : csc ≠ w) (d2 : c ≠ w) :
    wp (execs (sem E (k + 7)) "rfc1057" reqSend
        [[("wr", cwr), ("reserveLen", cre), ("resdata", crd), ("res", crs), ("err", cer), ("req", crq), ("rd", crdr), ("buf", cbuf), ("sc", csc)]] .next)
      (fun r st' => ∃ e, r.2 = .ret [e] ∧ PutEnd W I app y w cer (Xdr.writeBuf xs) e st st') st := by
  simp only [reqSend, sem, server_serverConn_handleReqErr, List.drop_succ_cons, List.drop_zero]
  obtain ⟨i, rfl⟩ := T.obj
  rw [connV] at hc
  obtain ⟨e0, b0, hex, _⟩ := hx.cell
  go_run [hwr, hex]
  refine wp_mono (WriteBuf_spec E (k + 6) hx hr) ?_
  rintro _ st1 ⟨b, rfl, hb, hbn, hxs1, hg1⟩
  go_grew hg1 n1 k1 o1 e1
  have hlen : 4 ≤ (Xdr.writeBuf xs).length := hlen
  generalize Xdr.writeBuf xs = l at hb hlen ⊢
  cases hb with
  | nil => simp at hlen
  | slice s arr h hb =>
    obtain ⟨⟨ab, ap⟩, so, sl, sc⟩ := s
    cases hb
    have h1 := h.1
    dsimp only at h1
    rw [at_nil] at h1
    have h1 := Option.some.inj h1
    have h2 := hxs1.wlt
    have h3 := sub_length h
    have h4 := h.2.1
    have h5 := h.2.2
    dsimp only [sub] at h3 h4 h5
    rw [sub_length h] at hlen
    dsimp only at hlen
    go_run [k1, hcc, hc, shl31, ofInt31, ofInt32_nat, be32_length, h1, h3]
    have hmk : UInt32.ofInt ((sl : Int) - ((4 : Nat) : Int)) = UInt32.ofNat (sl - 4) := by
      rw [← Int.ofNat_sub hlen, ofInt32_nat]
    rw [hmk]
    generalize hrest : (fun (vs : List V) (s : St ω) => wp (assignAll _ _ _ _ vs) _ s) = Q
    change wp _ _ ((st1.push (.slice ⟨⟨w, []⟩, so, sl, sc⟩)).set w (.bytes (overwrite arr so (be32 ((1 : UInt32) <<< 31 ||| UInt32.ofNat (sl - 4))))))
    have hol : (overwrite arr so (be32 ((1 : UInt32) <<< 31 ||| UInt32.ofNat (sl - 4)))).length = arr.length :=
      overwrite_length _ _ _ (by rw [be32_length]; omega)
    have hat : ArrAt ((st1.push (.slice ⟨⟨w, []⟩, so, sl, sc⟩)).set w (.bytes (overwrite arr so (be32 ((1 : UInt32) <<< 31 ||| UInt32.ofNat (sl - 4))))))
        ⟨⟨w, []⟩, so, sl, sc⟩ (overwrite arr so (be32 ((1 : UInt32) <<< 31 ||| UInt32.ofNat (sl - 4)))) :=
      ⟨by go_run, by rw [hol]; exact h4, h5⟩
    have hsub := sub_mark h hlen ((1 : UInt32) <<< 31 ||| UInt32.ofNat (sl - 4))
    refine wp_mono (wp_conj (T.write _ _ _ hat) (A.write _ _ hat (A.stable (st := st) (y := y) (app := app) _ hI (fun j hj => ?_) (by go_run [o1]) (by go_lt)))) ?_
    · have := A.lt j hI hj
      have : j ≠ w := fun h => haw (h ▸ hj)
      go_run [k1]
    rintro _ st2 ⟨⟨n2, e2, rfl, hm, s2, i2, k2, x2, f2⟩, hI2⟩
    simp only [next_set, next_push, next_deferring, world_set, world_push, world_deferring, defers_set, defers_push, defers_deferring] at hm s2 i2 k2 x2 f2
    dsimp only at hsub
    rw [hsub, o1] at s2
    rw [o1] at hm i2
    subst hrest
    have hae' : ∀ j, app j → j ≠ cer := fun j hj h => hae (h ▸ hj)
    by_cases hok : W.ok st.world = true
    · rw [if_pos hok] at hm
      subst hm
      go_run
      refine ⟨_, rfl, by rw [if_pos hok], A.stable _ hI2 (fun j hj => by have := hae' j hj; go_run) (by go_run) (by go_lt), ?_, by go_run [i2], fun j a b c => by go_run [k2, k1], by go_lt, by go_run [f2, e1]⟩
      go_run [s2, setRecordMark, sub_length h]
    · rw [if_neg hok] at hm
      obtain ⟨m, vs, rfl⟩ := hm
      go_run
      refine ⟨_, rfl, by rw [if_neg hok]; exact ⟨_, _, rfl⟩, A.stable _ hI2 (fun j hj => by have := hae' j hj; go_run) (by go_run) (by go_lt), ?_, by go_run [i2], fun j a b c => by go_run [k2, k1], by go_lt, by go_run [f2, e1]⟩
      go_run [s2, setRecordMark, sub_length h]

/-- The errors of `handleReqErr` that come before the `Write`. -/
inductive ServeRel : V → ServeErr → Prop
  | xdr (v : V) (e : XErr) (h : ErrRel v (some e)) : ServeRel v (.xdr e)
  | notCall (t : UInt32) : ServeRel (.err (strBytes "request mtype %d != CALL") [.u32 t]) (.notCall t)

/-- The result of a handler: nothing, or an object in cells that are `free`, whose `Xdr` method only adds to what has
been written. -/
inductive Answer (E : Ext ω) (n : Nat) (free : Nat → Prop) (st : St ω) : V → Option Xdrable → Prop
  | none : Answer E n free st .nil none
  | some {τ : Type} {rv : V} {own : Nat → Prop} {R : St ω → τ → Prop} {f : XdrState → τ → XdrState} {y : τ} {d : Xdrable}
      (hx : Writes E n rv own R f) (hR : R st y) (hd : ∀ xs, xs.reader = false → d xs = f xs y)
      (hlen : ∀ xs, xs.reader = false → xs.buf.length ≤ (f xs y).buf.length) (hnil : eqV rv .nil = Option.some false)
      (hown : ∀ j, own j → free j) : Answer E n free st rv (Option.some d)

/-- How the part that encodes the reply ends. -/
structure ReplyEnd (free : Nat → Prop) (crs cer : Nat) (st st' : St ω) : Prop where
  frame : ∀ j, j < st.next → j ≠ crs → j ≠ cer → ¬ free j → st'.heap j = st.heap j
  next : st.next ≤ st'.next
  world : st'.world = st.world
  defers : st'.defers = st.defers

set_option maxRecDepth 10000 in
set_option maxHeartbeats 1000000 in
theorem reqReply_spec (E : Ext ω) (k : Nat) {free : Nat → Prop} {st : St ω} {crd crs cer crq crdr cbuf csc : Nat} {ctl : Ctl}
    (hctl : ctl = .next ∨ ctl = .goto "reply") {res : RpcMsg} (hres : ∀ st' : St ω, ∀ x w t, RMsg st' x w t (st.heap crs) res)
    {m : List UInt8} (hm : (res.xdr (Xdr.makeWriter (Xdr.zeros 4))).1 = Xdr.makeWriter (Xdr.zeros 4 ++ m))
    {rv : V} (hrv : st.heap crd = rv) {resdata : Option Xdrable} (ha : Answer E (k + 7) free st rv resdata)
    (u1 : crd < st.next) (u2 : crs < st.next) (u3 : cer < st.next) (f2 : ¬ free crs) (f3 : ¬ free cer)
    (d1 : crd ≠ crs) (d2 : crd ≠ cer) (d3 : crs ≠ cer) :
    wp (execs (sem E (k + 7)) "rfc1057" reqReply
        [[("resdata", crd), ("res", crs), ("err", cer), ("req", crq), ("rd", crdr), ("buf", cbuf), ("sc", csc)]] ctl)
      (fun r st' => ReplyEnd free crs cer st st' ∧
        match reply res resdata with
        | .error se => ∃ e, r.2 = .ret [e] ∧ ServeRel e se
        | .ok b => ∃ x a w xs cwr cre, r = ([[("wr", cwr), ("reserveLen", cre), ("resdata", crd), ("res", crs), ("err", cer), ("req", crq), ("rd", crdr), ("buf", cbuf), ("sc", csc)]], .next) ∧
          st'.heap cwr = .ptr "" ⟨x, []⟩ ∧ Xs st' x a w xs ∧ xs.reader = false ∧ 4 ≤ xs.buf.length ∧ b = setRecordMark (Xdr.writeBuf xs) ∧
          st.next ≤ w) st := by
  have hlab : ∀ (Q : Env × Ctl → St ω → Prop), wp (execs (sem E (k + 7)) "rfc1057" (reqReply.drop 1)
        [[("resdata", crd), ("res", crs), ("err", cer), ("req", crq), ("rd", crdr), ("buf", cbuf), ("sc", csc)]] .next) Q st →
      wp (execs (sem E (k + 7)) "rfc1057" reqReply
        [[("resdata", crd), ("res", crs), ("err", cer), ("req", crq), ("rd", crdr), ("buf", cbuf), ("sc", csc)]] ctl) Q st := by
    intro Q h
    rcases hctl with rfl | rfl <;> exact h
  refine hlab _ ?_
  clear hlab hctl
  simp only [reqReply, sem, server_serverConn_handleReqErr, List.drop_succ_cons, List.drop_zero, List.take_succ_cons, List.take_zero]
  go_run
  refine wp_mono (MakeWriter_spec E (k + 6) (c := st.next) (l := Xdr.zeros 4)
    (.slice ⟨⟨st.next, []⟩, 0, 4, 4⟩ [0, 0, 0, 0] ⟨by go_run, (by decide : 4 ≤ 4), (by decide : 4 ≤ 4)⟩ rfl) (by go_lt)) ?_
  rintro _ st1 ⟨x, w, rfl, hx1, hxs, hw, hg⟩
  obtain rfl : w = st.next := by rcases hw with h | h; exact absurd h.1 (by intro h; cases h); exact h.2
  go_grew hg n1 k1 o1 e1
  have xlt := hxs.xlt
  simp only [next_push] at hx1
  obtain ⟨vc, vr, hqv, _⟩ := hres st 0 0 0
  go_run [k1, hqv]
  refine wp_mono (Rpc_msg_codec E k (hxs.mono (by go_run) (by go_run) (by go_run) (by go_lt)) _ crs [] _ res (by go_run [k1])
    (hres _ _ _ _) (by go_lt) (by omega) (by omega) (by omega)) ?_
  rintro _ st2 ⟨rfl, w2, hw2, hxs2, hk2, v2, hv2, hR2⟩
  go_after hk2 n2 k2 o2 e2
  simp only [next_set, next_push, next_deferring] at hw2
  rw [put_nil] at hv2
  rw [hm] at hxs2
  obtain ⟨e2v, b2, hex2, he2, _⟩ := hxs2.cell
  have h2x := hxs2.xlt
  have h2w := hxs2.wlt
  cases he2
  cases ha with
  | none =>
    go_run [k2, k1, hex2, hrv]
    have hrep : reply res none = .ok (setRecordMark (Xdr.writeBuf (Xdr.makeWriter (Xdr.zeros 4 ++ m)))) := by
      simp only [reply, hm]; rfl
    rw [hrep]
    exact ⟨⟨fun j a b c d => by go_run [k2, k1], by go_lt, by go_run [o2, o1], by go_run [e2, e1]⟩,
      x, x, w2, _, st1.next, st.next, rfl, by go_run [k2], hxs2.mono (by go_run) (by go_run) (by go_run) (by go_lt), rfl,
      by simp [Xdr.makeWriter, Xdr.zeros], rfl, by omega⟩
  | @some τ rv own R f y d hx hR hd hl hnil hown =>
    unfold eqV at hnil
    have hav := hx.ref
    have hlt : ∀ j, own j → j < st.next := fun j hj => hx.lt st y j hR hj
    have hnn : ∀ j, ¬ free j → ¬ own j := fun j h h' => h (hown j h')
    have hst : R st2 y := hx.stable st _ y hR (fun j hj => by
      have := hlt j hj
      have : j ≠ crs := fun h => f2 (h ▸ hown j hj)
      rw [k2 j (by omega) (by omega) (by omega) (by omega)]; go_run [k1]) (by omega)
    go_run [k2, k1, hex2, hrv, hnil]
    refine wp_mono (hx.call (hxs2.mono (by go_run) (by go_run) (by go_run) (by go_lt)) rfl y
      (hx.stable _ _ y hst (fun j hj => by have : j ≠ cer := fun h => f3 (h ▸ hown j hj); have := hlt j hj; go_run) (by go_lt)) (fun h => by have := hlt _ h; omega) (fun h => by have := hlt _ h; omega)
        (fun h => by have := hlt _ h; omega)) ?_
    rintro _ st3 ⟨w3, hw3, hxs3, hf3⟩
    go_framed hf3 n3 k3 o3 e3
    simp only [next_set, next_push, next_deferring] at hw3
    have k3' := fun j (a : j < _) (b : ¬ free j ∨ st.next ≤ j) (c : j ≠ x) (d : j ≠ w2) => k3 j a c d (fun h => by
      rcases b with b | b
      · exact b (hown j h)
      · have := hlt j h; omega)
    obtain ⟨e3v, b3, hex3, he3, _⟩ := hxs3.cell
    have h3x := hxs3.xlt
    have h3w := hxs3.wlt
    have hrd3 := hx.reader _ (Xdr.makeWriter (Xdr.zeros 4 ++ m)) y hst rfl
    have hl3 := hl (Xdr.makeWriter (Xdr.zeros 4 ++ m)) rfl
    have hd3 := hd (Xdr.makeWriter (Xdr.zeros 4 ++ m)) rfl
    generalize hm3 : f (Xdr.makeWriter (Xdr.zeros 4 ++ m)) y = wr3
    rw [hm3] at hxs3 he3 hrd3 hl3 hd3
    have hrep : reply res (some d) = match wr3.err with
      | some e => .error (.xdr e)
      | none => .ok (setRecordMark (Xdr.writeBuf wr3)) := by
      simp only [reply, hm, hd3]; rfl
    rw [hrep]
    obtain ⟨ge3, hge3⟩ : ∃ e, wr3.err = e := ⟨_, rfl⟩
    rw [hge3] at he3
    simp only [hge3]
    cases ge3 with
    | some e =>
      obtain ⟨m, vs, rfl⟩ := he3.some'
      go_run [k3', k2, k1, hex3]
      exact ⟨⟨fun j a b c d => by have := hnn j d; go_run [k3, k2, k1], by go_lt, by go_run [o3, o2, o1], by go_run [e3, e2, e1]⟩, _, rfl, .xdr _ _ he3⟩
    | none =>
      cases he3
      go_run [k3', k2, k1, hex3]
      exact ⟨⟨fun j a b c d => by have := hnn j d; go_run [k3, k2, k1], by go_lt, by go_run [o3, o2, o1], by go_run [e3, e2, e1]⟩,
        x, x, w3, wr3, st1.next, st.next, rfl, by go_run [k3', k2], hxs3.mono (by go_run) (by go_run) (by go_run) (by go_lt), hrd3,
        Nat.le_trans (by simp [Xdr.makeWriter, Xdr.zeros]) hl3, rfl, by omega⟩

/-- What the part from line 120 to the label `reply` does (server.go:120-152): the new state of the application, the
message and the result. -/
def dispatch {σ : Type} (hs : Handlers σ) (req : RpcMsg) (rd : XdrState) (y : σ) : σ × RpcMsg × Option Xdrable :=
  if req.cbody.rpcvers ≠ 2 then (y, deniedMsg req.xid, none)
  else match hs req.cbody.prog with
    | none => (y, acceptedMsg req.xid 1, none)
    | some vermap =>
      match vermap req.cbody.vers with
      | none => (y, acceptedMsg req.xid 2, none)
      | some procmap =>
        match procmap req.cbody.proc with
        | none => (y, acceptedMsg req.xid 3, none)
        | some h => ((h.run rd y).1, acceptedMsg req.xid (if (h.run rd y).2.2 then 4 else 0), (h.run rd y).2.1)

/-- What `handleReqErr` does without interference. -/
theorem handleReqErr_run {σ : Type} (hs : Handlers σ) (l : List UInt8) (y : σ) :
    (handleReqErr hs).run l y =
      match (RpcMsg.zero.xdr (Xdr.makeReader l)).1.err with
      | some e => (y, .error (.xdr e))
      | none =>
        if (RpcMsg.zero.xdr (Xdr.makeReader l)).2.mtype ≠ 0 then (y, .error (.notCall (RpcMsg.zero.xdr (Xdr.makeReader l)).2.mtype))
        else ((dispatch hs (RpcMsg.zero.xdr (Xdr.makeReader l)).2 (RpcMsg.zero.xdr (Xdr.makeReader l)).1 y).1,
          reply (dispatch hs (RpcMsg.zero.xdr (Xdr.makeReader l)).2 (RpcMsg.zero.xdr (Xdr.makeReader l)).1 y).2.1
            (dispatch hs (RpcMsg.zero.xdr (Xdr.makeReader l)).2 (RpcMsg.zero.xdr (Xdr.makeReader l)).1 y).2.2) := by
  by_cases hc : ∃ c args, Spec.IsCall c args l
  · obtain ⟨c, args, hc⟩ := hc
    rw [handle_call hs hc, decode_call hc]
    simp only [Xdr.makeReader, ne_eq, not_true_eq_false, if_false, dispatch, callBodyOf]
    by_cases hv : c.rpcvers = 2
    · simp only [hv, not_true_eq_false, if_false]
      cases hs c.prog with
      | none => rfl
      | some vm =>
        dsimp only
        cases vm c.vers with
        | none => rfl
        | some pm =>
          dsimp only
          cases pm c.proc <;> rfl
    · simp only [hv, not_false_eq_true, if_true]
  · rw [← decode_call_iff] at hc
    simp only [handleReqErr, Proc.run]
    cases he : (RpcMsg.zero.xdr (Xdr.makeReader l)).1.err with
    | some e => rfl
    | none =>
      dsimp only
      have hm : (RpcMsg.zero.xdr (Xdr.makeReader l)).2.mtype ≠ 0 := fun hm => hc ⟨he, hm⟩
      rw [if_pos hm, if_pos hm]
      rfl

/-- How the part that decodes the request ends. -/
structure DecodeEnd (st st' : St ω) : Prop where
  frame : ∀ j, j < st.next → st'.heap j = st.heap j
  next : st.next ≤ st'.next
  world : st'.world = st.world
  defers : st'.defers = st.defers

set_option maxRecDepth 10000 in
theorem reqDecode_spec (E : Ext ω) (k : Nat) {st : St ω} {cbuf csc : Nat} {a : Nat} {b : V} {l : List UInt8} (hbuf : st.heap cbuf = b) (hb : BytesAt st a b l)
    (ha : a < st.next) :
    wp (execs (sem E (k + 7)) "rfc1057" reqDecode [[("buf", cbuf), ("sc", csc)]] .next)
      (fun r st' => DecodeEnd st st' ∧
        match (RpcMsg.zero.xdr (Xdr.makeReader l)).1.err with
        | some x => ∃ e, r.2 = .ret [e] ∧ ServeRel e (.xdr x)
        | none =>
          if (RpcMsg.zero.xdr (Xdr.makeReader l)).2.mtype ≠ 0 then ∃ e, r.2 = .ret [e] ∧ ServeRel e (.notCall (RpcMsg.zero.xdr (Xdr.makeReader l)).2.mtype)
          else ∃ x a1 w cer crq crdr, r = ([[("err", cer), ("req", crq), ("rd", crdr), ("buf", cbuf), ("sc", csc)]], .next) ∧
            (a1 = a ∨ st.next ≤ a1) ∧ st.next ≤ x ∧ st'.heap crdr = .ptr "" ⟨x, []⟩ ∧ Xs st' x a1 w (RpcMsg.zero.xdr (Xdr.makeReader l)).1 ∧
            st'.heap cer = .nil ∧ RMsg st' x w crq (st'.heap crq) (RpcMsg.zero.xdr (Xdr.makeReader l)).2 ∧
            (st.next ≤ cer ∧ cer < st'.next) ∧ (st.next ≤ crq ∧ crq < st'.next) ∧ (st.next ≤ crdr ∧ crdr < st'.next) ∧
            cer ≠ a1 ∧ cer ≠ x ∧ crq ≠ x) st := by
  simp only [reqDecode, sem, server_serverConn_handleReqErr, List.take_succ_cons, List.take_zero]
  go_run [hbuf]
  refine wp_mono (MakeReader_spec E (k + 6) hb ha) ?_
  rintro _ st1 ⟨x, a1, rfl, hx1, hxs, hw, hg⟩
  go_grew hg n1 k1 o1 e1
  have xlt := hxs.xlt
  have alt := hxs.alt
  have ha1 : a1 = a ∨ st.next ≤ a1 := by
    rcases hw with ⟨_, rfl⟩ | ⟨_, rfl⟩ <;> omega
  go_run
  refine wp_mono (Rpc_msg_codec E k (hxs.mono (by go_run) (by go_run) (by go_run) (by go_lt)) _ (st1.next + 1) [] _ RpcMsg.zero (by go_run)
    (zero_rmsg _ x x _) (by go_lt) (by omega) (by omega) (by omega)) ?_
  rintro _ st2 ⟨rfl, w2, hw2, hxs2, hk2, v2, hv2, hR2⟩
  go_after hk2 n2 k2 o2 e2
  simp only [next_set, next_push, next_deferring] at hw2
  rw [put_nil] at hv2
  obtain ⟨e2v, b2, hex2, he2, _⟩ := hxs2.cell
  rcases hm : RpcMsg.zero.xdr (Xdr.makeReader l) with ⟨rd, req⟩
  dsimp only at hxs2 hR2 he2
  rw [hm] at hxs2 hR2 he2
  have h2x : x < st2.next := hxs2.xlt
  have h2a : a1 < st2.next := hxs2.alt
  have h2w : w2 < st2.next := hxs2.wlt
  have hR2' := hR2
  obtain ⟨xid, mt, cb, rb⟩ := req
  obtain ⟨cv, rv2, rfl, hcv, hrv2⟩ := hR2
  simp only [Option.some.injEq] at hv2
  dsimp only at hv2 ⊢
  obtain ⟨ge, hge⟩ : ∃ e, rd.err = e := ⟨_, rfl⟩
  rw [hge] at he2 ⊢
  cases ge with
  | some e =>
    obtain ⟨m, vs, rfl⟩ := he2.some'
    go_run [k2, hex2]
    exact ⟨⟨fun j a => by go_run [k2, k1], by go_lt, by go_run [o2, o1], by go_run [e2, e1]⟩, _, rfl, .xdr _ _ he2⟩
  | none =>
    cases he2
    by_cases c1 : mt = 0
    case neg =>
      have c1' : (mt == 0) = false := by simp [c1]
      go_run [k2, k1, hex2, hv2.symm, c1', c1, Bool.not_false]
      exact ⟨⟨fun j a => by go_run [k2, k1], by go_lt, by go_run [o2, o1], by go_run [e2, e1]⟩, _, rfl, .notCall _⟩
    subst c1
    go_run [k2, k1, hex2, hv2.symm, beq_self_eq_true, Bool.not_true]
    refine ⟨⟨fun j a => by go_run [k2, k1], by go_lt, by go_run [o2, o1], by go_run [e2, e1]⟩, x, a1, w2, _, _, _, rfl, ha1, by omega, by go_run [k2],
      hxs2.mono (by go_run) (by go_run) (by go_run) (by go_lt), by go_run, ?_, by go_lt, by go_lt, by go_lt, by omega, by omega, by omega⟩
    go_run [← hv2]
    exact RMsg.stable hR2' (fun j a b c d => by go_run) (by go_lt) (.inl rfl)


theorem Answer.ref {E : Ext ω} {n : Nat} {free : Nat → Prop} {st : St ω} {rv : V} {d : Option Xdrable} (h : Answer E n free st rv d) :
    isStruct rv = false := by
  cases h with
  | none => rfl
  | some hx => exact hx.ref

theorem Answer.mono {E : Ext ω} {n : Nat} {free free' : Nat → Prop} {st st' : St ω} {rv : V} {d : Option Xdrable} (h : Answer E n free st rv d)
    (hf : ∀ j, free j → free' j) (hh : ∀ j, free j → j < st.next → st'.heap j = st.heap j) (hn : st.next ≤ st'.next) : Answer E n free' st' rv d := by
  cases h with
  | none => exact .none
  | some hx hR hd hl hnil hown =>
    exact .some hx (hx.stable _ _ _ hR (fun j hj => hh j (hown j hj) (hx.lt _ _ _ hR hj)) hn) hd hl hnil fun j hj => hf j (hown j hj)

/-- How a handler ends, `res` being what the model says. -/
structure HandlerEnd {σ : Type} (E : Ext ω) (W : Wire ω) (n : Nat) (I : (Nat → Prop) → St ω → σ → Prop) (x a : Nat) (app app' : Nat → Prop)
    (res : σ × (Option Xdrable × Bool)) (rv ev : V) (st st' : St ω) : Prop where
  inv : I app' st' res.1
  more : ∀ j, app' j → app j ∨ st.next ≤ j
  err : if res.2.2 then ∃ m vs, ev = .err m vs else ev = .nil
  res : Answer E n (fun j => (j = a ∨ st.next ≤ j) ∧ ¬ app' j) st' rv res.2.1
  frame : ∀ j, j < st.next → ¬ app j → j ≠ x → j ≠ a → st'.heap j = st.heap j
  next : st.next ≤ st'.next
  defers : st'.defers = st.defers
  sent : W.sent st'.world = W.sent st.world
  input : W.input st'.world = W.input st.world
  ok : W.ok st'.world = W.ok st.world

/-- The function value is a handler that does what `h` does, for arguments of less than 2^31 bytes: it gets their decoder, may change the
state of the application and the request buffer, and makes its result in new memory (or in the request buffer). -/
structure Handles {σ : Type} (E : Ext ω) (W : Wire ω) (n : Nat) (I : (Nat → Prop) → St ω → σ → Prop) (hv : V) (h : ProcHandler σ) : Prop where
  val : ∀ n, hv ≠ .const n
  call : ∀ ⦃st : St ω⦄ ⦃x a w l⦄, Xs st x a w (Xdr.makeReader l) → l.length < 2 ^ 31 → ∀ app y, I app st y → ¬ app x → ¬ app a →
    wp (callVal (sem E n) hv [.ptr "" ⟨x, []⟩])
      (fun r st' => ∃ rv ev app', r = [rv, ev] ∧ HandlerEnd E W n I x a app app' (h.run (Xdr.makeReader l) y) rv ev st st') st

/-- How the part that calls the handler ends. -/
structure DispEnd {σ : Type} (E : Ext ω) (W : Wire ω) (n : Nat) (I : (Nat → Prop) → St ω → σ → Prop) (x a cer crd crs n1 : Nat) (app app' : Nat → Prop)
    (d : σ × RpcMsg × Option Xdrable) (crq crdr cbuf csc : Nat) (r : Env × Ctl) (st st' : St ω) : Prop where
  env : r.1 = [[("resdata", crd), ("res", crs), ("err", cer), ("req", crq), ("rd", crdr), ("buf", cbuf), ("sc", csc)]]
  ctl : r.2 = .next ∨ r.2 = .goto "reply"
  inv : I app' st' d.1
  more : ∀ j, app' j → app j ∨ n1 ≤ j
  msg : ∀ st'' : St ω, ∀ x w t, RMsg st'' x w t (st'.heap crs) d.2.1
  res : Answer E n (fun j => (j = a ∨ n1 ≤ j) ∧ ¬ app' j) st' (st'.heap crd) d.2.2
  bound : st.next ≤ n1 ∧ n1 ≤ st'.next
  ltRes : st.next ≤ crd ∧ crd < n1
  ltMsg : st.next ≤ crs ∧ crs < n1
  ne : crd ≠ crs
  frame : ∀ j, j < st.next → ¬ app j → j ≠ x → j ≠ a → j ≠ cer → st'.heap j = st.heap j
  next : st.next ≤ st'.next
  defers : st'.defers = st.defers
  sent : W.sent st'.world = W.sent st.world
  input : W.input st'.world = W.input st.world
  ok : W.ok st'.world = W.ok st.world

/-- The end, when no handler has been called. -/
macro "go_disp" st:ident app:ident A:ident hI:ident alt:ident : tactic => `(tactic| (
  exact ⟨($st).next + 1, ($st).next, _, $app, rfl, by first | exact .inl rfl | exact .inr rfl,
    App.stable $A _ $hI (fun j hj => by have := $alt j hj; go_run) (by go_run) (by go_lt), fun j hj => .inl hj, fun st2 x w t => by
      go_run
      exact ⟨_, _, rfl, ⟨_, _, rfl, ⟨_, rfl, ⟨.nil, fun s h => by cases h⟩⟩, ⟨_, rfl, ⟨.nil, fun s h => by cases h⟩⟩⟩,
        ⟨_, _, rfl, ⟨_, rfl, ⟨_, rfl, ⟨.nil, fun s h => by cases h⟩⟩⟩, rfl⟩⟩,
    by go_run; exact .none, ⟨by go_lt, Nat.le_refl _⟩, by go_lt, by go_lt, by omega, fun j a b c d e => by go_run, by go_lt, by go_run, by go_run,
    by go_run, by go_run⟩))

set_option maxRecDepth 10000 in
set_option maxHeartbeats 1000000 in
theorem reqDispatch_spec {σ : Type} (E : Ext ω) (W : Wire ω) (k : Nat) {rw : V} {I : (Nat → Prop) → St ω → σ → Prop} (A : App E rw I)
    {st : St ω} {app : Nat → Prop} {y : σ} (hI : I app st y) {s : Shape} {hs : Handlers σ} (ht : Table (Handles E W (k + 7) I) st s hs)
    {cer crq crdr cbuf csc : Nat} {Tc Ts : String} {c cs : Nat} {x a w : Nat} {rd : XdrState} {req : RpcMsg}
    (hcc : st.heap csc = .ptr Tc ⟨c, []⟩) (hc : st.heap c = connV Ts cs rw) (hcs : st.heap cs = serverV s.top)
    (hrd : st.heap crdr = .ptr "" ⟨x, []⟩) (hx : Xs st x a w rd) {args : List UInt8} (hr : rd = Xdr.makeReader args) (hal : args.length < 2 ^ 31) (hreq : RMsg st x w crq (st.heap crq) req)
    (hax : ¬ app x) (haa : ¬ app a) (hae : ¬ app cer)
    (u1 : csc < st.next) (u2 : c < st.next) (u3 : cs < st.next) (u4 : cer < st.next) (u5 : crq < st.next) (u6 : crdr < st.next) (d1 : cer ≠ a) :
    wp (execs (sem E (k + 7)) "rfc1057" reqDispatch
        [[("err", cer), ("req", crq), ("rd", crdr), ("buf", cbuf), ("sc", csc)]] .next)
      (fun r st' => ∃ crd crs n1 app', DispEnd E W (k + 7) I x a cer crd crs n1 app app' (dispatch hs req rd y) crq crdr cbuf csc r st st') st := by
  simp only [reqDispatch, sem, server_serverConn_handleReqErr, List.drop_succ_cons, List.drop_zero, List.take_succ_cons, List.take_zero]
  obtain ⟨xid, mt, ⟨rpcvers, prog, vers, proc, cred, verf⟩, rb⟩ := req
  subst hr
  obtain ⟨cv, rv2, hq, ⟨c1, c2, rfl, _, _⟩, _⟩ := hreq
  rw [connV] at hc
  rw [serverV] at hcs
  have alt : ∀ j, app j → j < st.next := fun j => A.lt j hI
  simp only [dispatch]
  have hof : UInt32.ofInt ((2 : Nat) : Int) = 2 := by decide
  by_cases h1 : rpcvers = 2
  case neg =>
    have h1' : (rpcvers == UInt32.ofInt ((2 : Nat) : Int)) = false := by rw [hof]; simp [h1]
    go_run [hq, h1', Bool.not_false]
    simp only [ne_eq, h1, not_false_eq_true, if_true]
    go_disp st app A hI alt
  subst h1
  have h1' : ((2 : UInt32) == UInt32.ofInt ((2 : Nat) : Int)) = true := by decide
  obtain ⟨kvs, hk, hkv⟩ := ht.top
  have t1 := ht.ltTop
  cases hp : hs prog with
  | none =>
    have hl := hkv prog
    rw [hp] at hl
    dsimp only at hl
    go_run [hq, h1', Bool.not_true, hcc, hc, hcs, hk, hl]
    go_disp st app A hI alt
  | some vm =>
    have h2 := hkv prog
    rw [hp] at h2
    obtain ⟨v2, hv2, rfl, kvs2, hk2, hkv2⟩ := h2
    have t2 := ht.ltMid _ _ hp
    dsimp only
    cases hn : vm vers with
    | none =>
      have hl := hkv2 vers
      rw [hn] at hl
      dsimp only at hl
      go_run [hq, h1', Bool.not_true, hcc, hc, hcs, hk, hv2, hk2, hl]
      go_disp st app A hI alt
    | some pm =>
      have h2 := hkv2 vers
      rw [hn] at h2
      obtain ⟨v3, hv3, rfl, kvs3, hk3, hkv3⟩ := h2
      have t3 := ht.ltLow _ _ _ _ hp hn
      dsimp only
      cases hh : pm proc with
      | none =>
        have hl := hkv3 proc
        rw [hh] at hl
        dsimp only at hl
        go_run [hq, h1', Bool.not_true, hcc, hc, hcs, hk, hv2, hk2, hv3, hk3, hl]
        go_disp st app A hI alt
      | some h =>
        have h2 := hkv3 proc
        rw [hh] at h2
        obtain ⟨v4, hv4, hH⟩ := h2
        have hco : coerce (.int 0) v4 = v4 := by
          cases v4 <;> first | rfl | exact absurd rfl (hH.val _)
        go_run [hq, h1', Bool.not_true, hcc, hc, hcs, hk, hv2, hk2, hv3, hk3, hv4, hrd, hco]
        have xlt := hx.xlt
        have alt' := hx.alt
        have wlt := hx.wlt
        refine wp_mono (hH.call (hx.mono (by go_run) (by go_run) (by go_run) (by go_lt)) hal app y
          (A.stable _ hI (fun j hj => by have := alt j hj; go_run) (by go_run) (by go_lt)) hax haa) ?_
        rintro _ st2 ⟨rv, ev, app', rfl, h2⟩
        have n2 := h2.next
        have k2 := h2.frame
        have m2 := h2.more
        have r2 := h2.res
        simp only [next_set, next_push, next_deferring] at n2 k2 m2 r2
        have na : ∀ j, st.next ≤ j → ¬ app j := fun j hj h => by have := alt j h; omega
        have k2' := fun j (a : j < _) (b : st.next ≤ j ∨ ¬ app j) (c : j ≠ x) (d : j ≠ _) => k2 j a (by
          rcases b with b | b
          · exact na j b
          · exact b) c d
        have hne : ∀ j, j = st.next ∨ j = st.next + 1 ∨ j = cer → ¬ app' j := by
          intro j hj h
          rcases m2 j h with h | h
          · rcases hj with rfl | rfl | rfl
            · exact na _ (by omega) h
            · exact na _ (by omega) h
            · exact hae h
          · omega
        have hrv : isStruct rv = false := by
          exact r2.ref
        have e2 := h2.err
        cases hf : (h.run (Xdr.makeReader args) y).2.2 with
        | true =>
          rw [hf] at e2
          simp only [if_true] at e2 ⊢
          obtain ⟨m, vs, rfl⟩ := e2
          go_run [k2']
          simp only [hf]
          refine ⟨st.next + 1, st.next, _, app', rfl, .inr rfl, A.stable _ h2.inv (fun j hj => ?_) (by go_run) (by go_lt), m2, fun st2 x w t => ?_, ?_,
            ⟨by omega, by go_lt⟩, by omega, by omega, by omega, fun j a b c d e => by (go_run; rw [k2 j (by omega) b c d]; go_run), by go_lt, by go_run [h2.defers], by go_run [h2.sent], by go_run [h2.input], by go_run [h2.ok]⟩
          · have : j ≠ st.next := fun h => hne j (.inl h) hj
            have : j ≠ st.next + 1 := fun h => hne j (.inr (.inl h)) hj
            have : j ≠ cer := fun h => hne j (.inr (.inr h)) hj
            go_run
          · go_run
            exact ⟨_, _, rfl, ⟨_, _, rfl, ⟨_, rfl, ⟨.nil, fun s h => by cases h⟩⟩, ⟨_, rfl, ⟨.nil, fun s h => by cases h⟩⟩⟩,
              ⟨_, _, rfl, ⟨_, rfl, ⟨_, rfl, ⟨.nil, fun s h => by cases h⟩⟩⟩, rfl⟩⟩
          · go_run
            refine r2.mono (fun j hj => hj) (fun j hj _ => ?_) (by go_lt)
            have : j ≠ st.next := by omega
            have : j ≠ st.next + 1 := by omega
            have : j ≠ cer := by omega
            go_run
        | false =>
          rw [hf] at e2
          simp only [Bool.false_eq_true, if_false] at e2 ⊢
          subst e2
          go_run [k2']
          simp only [hf]
          refine ⟨st.next + 1, st.next, _, app', rfl, .inl rfl, A.stable _ h2.inv (fun j hj => ?_) (by go_run) (by go_lt), m2, fun st2 x w t => ?_, ?_,
            ⟨by omega, by go_lt⟩, by omega, by omega, by omega, fun j a b c d e => by (go_run; rw [k2 j (by omega) b c d]; go_run), by go_lt, by go_run [h2.defers], by go_run [h2.sent], by go_run [h2.input], by go_run [h2.ok]⟩
          · have : j ≠ st.next := fun h => hne j (.inl h) hj
            have : j ≠ st.next + 1 := fun h => hne j (.inr (.inl h)) hj
            have : j ≠ cer := fun h => hne j (.inr (.inr h)) hj
            go_run
          · go_run
            exact ⟨_, _, rfl, ⟨_, _, rfl, ⟨_, rfl, ⟨.nil, fun s h => by cases h⟩⟩, ⟨_, rfl, ⟨.nil, fun s h => by cases h⟩⟩⟩,
              ⟨_, _, rfl, ⟨_, rfl, ⟨_, rfl, ⟨.nil, fun s h => by cases h⟩⟩⟩, rfl⟩⟩
          · go_run
            refine r2.mono (fun j hj => hj) (fun j hj _ => ?_) (by go_lt)
            have : j ≠ st.next := by omega
            have : j ≠ st.next + 1 := by omega
            have : j ≠ cer := by omega
            go_run


/-- How a call of `handleReqErr` ends, `res` being what the model says. -/
structure ReqEnd {σ : Type} (W : Wire ω) (I : (Nat → Prop) → St ω → σ → Prop) (a : Nat) (app : Nat → Prop)
    (res : σ × Except ServeErr (List UInt8)) (e : V) (st st' : St ω) : Prop where
  inv : ∃ app', I app' st' res.1 ∧ ∀ j, app' j → app j ∨ st.next ≤ j
  out : match res.2 with
    | .ok m => W.sent st'.world = W.sent st.world ++ [m] ∧ if W.ok st.world then e = .nil else ∃ t vs, e = .err t vs
    | .error x => W.sent st'.world = W.sent st.world ∧ ServeRel e x
  input : W.input st'.world = W.input st.world
  frame : ∀ j, j < st.next → ¬ app j → j ≠ a → st'.heap j = st.heap j
  next : st.next ≤ st'.next
  defers : st'.defers = st.defers

set_option maxRecDepth 10000 in
set_option maxHeartbeats 1000000 in
/-- server.go:107-182 -/
theorem handleReqErr_spec {σ : Type} (E : Ext ω) (W : Wire ω) (k : Nat) {rw : V} (T : Transport E W rw) {I : (Nat → Prop) → St ω → σ → Prop} (A : App E rw I)
    {st : St ω} {app : Nat → Prop} {y : σ} (hI : I app st y) {s : Shape} {hs : Handlers σ} (ht : Table (Handles E W (k + 7) I) st s hs)
    {Tc Ts : String} {c cs a : Nat} {b : V} {l : List UInt8}
    (hll : l.length < 2 ^ 31)
    (hc : st.heap c = connV Ts cs rw) (hcs : st.heap cs = serverV s.top) (hb : BytesAt st a b l) (u1 : c < st.next) (u2 : cs < st.next) (u3 : a < st.next)
    (hac : ¬ app c) (haa : ¬ app a) (dca : c ≠ a) :
    wp (callN goProg E (k + 8) (.meth "rfc1057.serverConn" "handleReqErr") [.ptr Tc ⟨c, []⟩, b])
      (fun r st' => ∃ e, r = [e] ∧ ReqEnd W I a app ((handleReqErr hs).run l y) e st st') st := by
  rw [wp_callN _ _ _ _ _ _ _ _ _ find_server_serverConn_handleReqErr, wp_callFunc]
  simp only [req_body]
  dsimp only [server_serverConn_handleReqErr]
  have alt : ∀ j, app j → j < st.next := fun j => A.lt j hI
  have hbs : isStruct b = false := by cases hb <;> rfl
  go_run
  rw [wp_execs_append]
  refine wp_mono (reqDecode_spec E k (b := b) (by go_run) (hb.mono (by go_run)) (by go_lt)) ?_
  rintro ⟨ρ1, ctl1⟩ st1 ⟨h1, hm1⟩
  have n1 := h1.next
  have k1 := h1.frame
  have o1 := h1.world
  have e1 := h1.defers
  clear h1
  simp only [next_set, next_push, next_deferring] at n1 k1
  simp only [world_set, world_push, world_deferring] at o1
  simp only [defers_set, defers_push, defers_deferring] at e1
  rw [handleReqErr_run]
  have hrd := (decode_call_iff l).1
  rcases hm : RpcMsg.zero.xdr (Xdr.makeReader l) with ⟨rd, req⟩
  have hrd : rd.err = none → req.mtype = 0 → ∃ args, rd = Xdr.makeReader args ∧ args.length < 2 ^ 31 := fun h1 h2 => by
    obtain ⟨c, args, h⟩ := hrd ⟨by rw [hm]; exact h1, by rw [hm]; exact h2⟩
    rw [decode_call h] at hm
    refine ⟨args, (Prod.mk.inj hm).1.symm, ?_⟩
    obtain ⟨wc, wv, _, _, rfl⟩ := h
    simp only [List.length_append] at hll
    omega
  rw [hm] at hm1
  dsimp only at hm1 ⊢
  obtain ⟨ge, hge⟩ : ∃ e, rd.err = e := ⟨_, rfl⟩
  rw [hge] at hm1 ⊢
  cases ge with
  | some x =>
    obtain ⟨e, rfl, he⟩ := hm1
    simp only [wp_execs_ret]
    go_run
    rw [e1]
    go_run
    exact ⟨_, rfl, ⟨app, A.stable _ hI (fun j hj => by have := alt j hj; go_run [k1]) (by go_run [o1]) (by go_lt), fun j hj => .inl hj⟩,
      ⟨by go_run [o1], he⟩, by go_run [o1], fun j a b c => by go_run [k1], by go_lt, by go_run⟩
  | none =>
    have hrd := hrd hge
    dsimp only at hm1 ⊢
    by_cases hmt : req.mtype = 0
    case neg =>
      rw [if_pos hmt] at hm1
      rw [if_pos hmt]
      obtain ⟨e, rfl, he⟩ := hm1
      simp only [wp_execs_ret]
      go_run
      rw [e1]
      go_run
      exact ⟨_, rfl, ⟨app, A.stable _ hI (fun j hj => by have := alt j hj; go_run [k1]) (by go_run [o1]) (by go_lt), fun j hj => .inl hj⟩,
        ⟨by go_run [o1], he⟩, by go_run [o1], fun j a b c => by go_run [k1], by go_lt, by go_run⟩
    obtain ⟨args, hrda, hal⟩ := hrd hmt
    rw [if_neg (by simp [hmt])] at hm1
    rw [if_neg (by simp [hmt])]
    obtain ⟨x, a1, w, cer, crq, crdr, hr1, ha1, hx1, hrdv, hxs, hev, hreq, q1, q2, q3, q4, q5, q6⟩ := hm1
    cases hr1
    simp only [next_set, next_push, next_deferring] at ha1 hx1 q1 q2 q3
    have nap : ∀ j, st.next ≤ j → ¬ app j := fun j hj h => by have := alt j h; omega
    have haa1 : ¬ app a1 := by
      rcases ha1 with rfl | h
      · exact haa
      · exact nap _ (by omega)
    rw [wp_execs_append]
    have hcc1 : st1.heap st.next = .ptr Tc ⟨c, []⟩ := by go_run [k1]
    have hc1 : st1.heap c = connV Ts cs rw := by go_run [k1, hc]
    have hcs1 : st1.heap cs = serverV s.top := by go_run [k1, hcs]
    have a1lt := hxs.alt
    have xlt := hxs.xlt
    have ca1 : c ≠ a1 := by
      rcases ha1 with rfl | h
      · exact dca
      · omega
    have sa1 : st.next ≠ a1 := by omega
    refine wp_mono (reqDispatch_spec E W k A (A.stable st1 hI (fun j hj => by have := alt j hj; go_run [k1]) (by go_run [o1]) (by omega))
      (ht.mono (fun j hj => by have := ht.lt hj; go_run [k1]) (by omega)) hcc1 hc1 hcs1
      hrdv hxs hrda hal hreq (nap _ (by omega)) haa1 (nap _ (by omega)) (by omega) (by omega) (by omega) (by omega) (by omega) (by omega) q4) ?_
    rintro ⟨ρ2, ctl2⟩ st2 ⟨crd, crs, n2, app2, h2⟩
    have hm2 : ∃ m, ((dispatch hs req rd y).2.1.xdr (Xdr.makeWriter (Xdr.zeros 4))).1 = Xdr.makeWriter (Xdr.zeros 4 ++ m) := by
      simp only [dispatch]
      split
      · exact ⟨_, deniedMsg_writer _ _⟩
      · split
        · exact ⟨_, acceptedMsg_writer _ _ _⟩
        · split
          · exact ⟨_, acceptedMsg_writer _ _ _⟩
          · split <;> exact ⟨_, acceptedMsg_writer _ _ _⟩
    obtain ⟨m, hm2⟩ := hm2
    obtain ⟨env2, ctl2', inv2, more2, msg2, res2, bound2, ltRes2, ltMsg2, ne2, frame2, next2, defers2, sent2, input2, ok2⟩ := h2
    generalize dispatch hs req rd y = d at *
    obtain ⟨y2, res, resdata⟩ := d
    dsimp only at env2 ctl2' hm2 inv2 msg2 res2 ⊢
    subst env2
    have nap2 : ∀ j, st.next ≤ j → j < n2 → ¬ app2 j := fun j h1 h2 h => by
      rcases more2 j h with h3 | h3
      · exact nap j h1 h3
      · omega
    have alt2 : ∀ j, app2 j → j < st2.next := fun j => A.lt j inv2
    rw [wp_execs_append]
    refine wp_mono (reqReply_spec E k ctl2' msg2 hm2 rfl res2 (by omega) (by omega) (by omega)
      (fun h => by rcases h.1 with h | h <;> omega) (fun h => by rcases h.1 with h | h <;> omega) ne2 (by omega) (by omega)) ?_
    rintro ⟨ρ3, ctl3⟩ st3 ⟨h3, hm3⟩
    have n3 := h3.next
    have k3 := h3.frame
    have o3 := h3.world
    have e3 := h3.defers
    clear h3
    have hI3 : I app2 st3 y2 := A.stable st3 inv2 (fun j hj => k3 j (alt2 j hj) (fun h => nap2 j (by omega) (by omega) hj) (fun h => nap2 j (by omega) (by omega) hj) (fun h => h.2 hj))
      (by go_run [o3]) (by omega)
    have c3 : st3.heap c = connV Ts cs rw := by
      rw [k3 c (by omega) (by omega) (by omega) (fun h => by rcases h.1 with h | h <;> omega), frame2 c (by omega) hac (by omega) ca1 (by omega), hc1]
    have cc3 : st3.heap st.next = .ptr Tc ⟨c, []⟩ := by
      rw [k3 st.next (by omega) (by omega) (by omega) (fun h => by rcases h.1 with h | h <;> omega), frame2 st.next (by omega) (nap _ (by omega)) (by omega) sa1 (by omega), hcc1]
    have f3 : ∀ j, j < st.next → ¬ app j → j ≠ a → st3.heap j = st.heap j := fun j h1 h2 h3 => by
      have ja1 : j ≠ a1 := by
        rcases ha1 with rfl | h
        · exact h3
        · omega
      rw [k3 j (by omega) (by omega) (by omega) (fun h => by rcases h.1 with h | h <;> omega), frame2 j (by omega) h2 (by omega) ja1 (by omega)]
      go_run [k1]
    have more3 : ∀ j, app2 j → app j ∨ st.next ≤ j := fun j hj => by
      rcases more2 j hj with h | h
      · exact .inl h
      · exact .inr (by omega)
    cases hrep : reply res resdata with
    | error se =>
      rw [hrep] at hm3
      dsimp only at hm3
      obtain ⟨e, rfl, he⟩ := hm3
      simp only [wp_execs_ret]
      go_run
      rw [e3, defers2, e1]
      go_run
      exact ⟨_, rfl, ⟨app2, A.stable _ hI3 (fun j hj => rfl) rfl (Nat.le_refl _), more3⟩,
        ⟨by go_run [o3, sent2, o1], he⟩, by go_run [o3, input2, o1], f3, by go_lt, by go_run⟩
    | ok b2 =>
      rw [hrep] at hm3
      dsimp only at hm3
      obtain ⟨x3, a3, w3, xs3, cwr, cre, hr3, hwr, hxs3, hrd3, hlen3, rfl, hw3⟩ := hm3
      cases hr3
      refine wp_mono (reqSend_spec E W k T A hI3 cc3 c3 hwr hxs3 hrd3 hlen3 (fun h => by have := alt2 _ h; omega) (nap2 _ (by omega) (by omega)) (by omega) (by omega)
        (by omega) (by omega)) ?_
      rintro ⟨ρ4, ctl4⟩ st4 ⟨e, rfl, h4⟩
      go_run
      rw [h4.defers, e3, defers2, e1]
      go_run
      have n4 := h4.next
      exact ⟨_, rfl, ⟨app2, A.stable _ h4.inv (fun j hj => rfl) rfl (Nat.le_refl _), more3⟩,
        ⟨by go_run [h4.sent, o3, sent2, o1], by have := h4.err; rw [o3, ok2, o1] at this; exact this⟩, by go_run [h4.input, o3, input2, o1],
        fun j h1 h2 h3 => by rw [← f3 j h1 h2 h3]; exact h4.frame j (by omega) (by omega) (by omega), by go_lt, by go_run⟩

end Verif.Lang
