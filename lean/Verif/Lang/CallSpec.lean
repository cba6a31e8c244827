/-
What rfc1057/client.go, as read from the file, does: what Verif.Rpc.Client says.
-/
import Verif.Lang.Obj
import Verif.Rpc.ClientLemmas
namespace Verif.Lang
open Verif.Xdr (XErr XdrState)
open Verif.Rpc
variable {ω : Type}
set_option linter.unusedSimpArgs false

/-- What is outside: the pieces in which the input will be delivered, the arguments of the `Write`s so far, and
whether the next `Write` will succeed. -/
structure Wire (ω : Type) where
  input : ω → Chunks
  sent : ω → List (List UInt8)
  ok : ω → Bool

/-- `io.EOF` and `io.ErrUnexpectedEOF`. -/
def ioErr : ReadErr → V
  | .eof => .err (strBytes "EOF") []
  | .unexpectedEOF => .err (strBytes "unexpected EOF") []

/-- The `io.ReadWriter` of a client or a server. -/
structure Transport (E : Ext ω) (W : Wire ω) (rw : V) : Prop where
  obj : ∃ i, rw = .obj i
  write : ∀ (st : St ω) (s : Slice) (arr : List UInt8), ArrAt st s arr →
    wp (E.ext "Write" [rw, .slice s]) (fun r st' => ∃ n e, r = [.int n, e] ∧
      (if W.ok st.world then e = .nil else ∃ m vs, e = .err m vs) ∧
      W.sent st'.world = W.sent st.world ++ [sub s arr] ∧ W.input st'.world = W.input st.world ∧
      (∀ j, j < st.next → st'.heap j = st.heap j) ∧ st.next ≤ st'.next ∧ st'.defers = st.defers) st
  read : ∀ (st : St ω) (s : Slice) (arr : List UInt8), ArrAt st s arr → s.base.path = [] →
    wp (E.ext "io.ReadFull" [rw, .slice s]) (fun r st' => ∃ n e arr', r = [.int n, e] ∧ arr'.length = arr.length ∧
      ArrAt st' s arr' ∧
      (match (readFull s.len (W.input st.world)).1 with
        | .ok b => e = .nil ∧ sub s arr' = b
        | .error x => e = ioErr x) ∧
      W.sent st'.world = W.sent st.world ∧ W.input st'.world = (readFull s.len (W.input st.world)).2 ∧
      (∀ j, j < st.next → j ≠ s.base.id → st'.heap j = st.heap j) ∧ st.next ≤ st'.next ∧ st'.defers = st.defers) st

/-- The errors of `Call`. -/
inductive CallRel : V → Option CallErr → Prop
  | ok : CallRel .nil none
  | xdr (v : V) (e : XErr) (h : ErrRel v (some e)) : CallRel v (some (.xdr e))
  | write (m : List UInt8) (vs : List V) : CallRel (.err m vs) (some .write)
  | read (e : ReadErr) : CallRel (ioErr e) (some (.read e))
  | fragment : CallRel (.err (strBytes "fragments not supported") []) (some .fragment)
  | xid (g w : UInt32) : CallRel (.err (strBytes "xid mismatch: %d != %d") [.u32 g, .u32 w]) (some (.xidMismatch g w))
  | notReply (t : UInt32) : CallRel (.err (strBytes "expected REPLY, got %d") [.u32 t]) (some (.notReply t))
  | denied (s : UInt32) : CallRel (.err (strBytes "MSG_DENIED stat %d") [.u32 s]) (some (.denied s))
  | accept (s : UInt32) : CallRel (.err (strBytes "accept_stat %d") [.u32 s]) (some (.acceptStat s))

/-- An `Opaque_auth` passed by value; the bytes of its body are in a cell below `n0`. -/
def AuthArg (n0 : Nat) (st : St ω) (v : V) (y : OpaqueAuth) : Prop :=
  ∃ b, v = .struct "rfc1057.Opaque_auth" [("Flavor", .u32 y.flavor), ("Body", b)] ∧ GoB st b y.body ∧
    ∀ s, b = .slice s → s.base.id < n0

def clientV (rw : V) (c : Client) : V :=
  .struct "rfc1057.Client" [("rw", rw), ("xid", .u32 c.xid), ("prog", .u32 c.prog), ("vers", .u32 c.vers)]

/-! ### The parts of `Call` -/

/-- client.go:28-38 -/
def callHead : List Stmt := client_Client_Call.body.take 10
/-- client.go:40-51 -/
def callEncode : List Stmt := (client_Client_Call.body.drop 10).take 7
/-- client.go:53-59 -/
def callSend : List Stmt := (client_Client_Call.body.drop 17).take 5
/-- client.go:61-75 -/
def callRead : List Stmt := (client_Client_Call.body.drop 22).take 7
/-- client.go:77-107 -/
def callParse : List Stmt := client_Client_Call.body.drop 29

theorem call_body : client_Client_Call.body = callHead ++ (callEncode ++ (callSend ++ (callRead ++ callParse))) := rfl

theorem zero_rmsg (st : St ω) (x w t : Nat) : RMsg st x w t (.struct "rfc1057.Rpc_msg" [("Xid", .u32 0), ("Body", .struct "" [("Mtype", .u32 0),
      ("Cbody", .struct "rfc1057.Call_body" [("Rpcvers", .u32 0), ("Prog", .u32 0), ("Vers", .u32 0), ("Proc", .u32 0),
        ("Cred", .struct "rfc1057.Opaque_auth" [("Flavor", .u32 0), ("Body", .nil)]),
        ("Verf", .struct "rfc1057.Opaque_auth" [("Flavor", .u32 0), ("Body", .nil)])]),
      ("Rbody", .struct "rfc1057.Reply_body" [("Stat", .u32 0),
        ("Areply", .struct "rfc1057.Accepted_reply" [("Verf", .struct "rfc1057.Opaque_auth" [("Flavor", .u32 0), ("Body", .nil)]),
          ("Reply_data", .struct "" [("Stat", .u32 0), ("Results", .bytes []),
            ("Mismatch_info", .struct "" [("Low", .u32 0), ("High", .u32 0)])])]),
        ("Rreply", .struct "rfc1057.Rejected_reply" [("Stat", .u32 0),
          ("Mismatch_info", .struct "" [("Low", .u32 0), ("High", .u32 0)]), ("Astat", .u32 0)])])])]) RpcMsg.zero := by
  have hb : ∀ x w t, Bs st x w t .nil none := fun x w t => ⟨.nil, fun s h => by cases h⟩
  exact ⟨_, _, rfl, ⟨_, _, rfl, ⟨_, rfl, hb ..⟩, ⟨_, rfl, hb ..⟩⟩, ⟨_, _, rfl, ⟨_, rfl, ⟨_, rfl, hb ..⟩⟩, rfl⟩⟩

/-- The relation holds, and goes on doing so as long as only new cells are made. -/
def Kept {τ : Type} (R : St ω → τ → Prop) (st : St ω) (y : τ) : Prop :=
  ∀ st' : St ω, (∀ j, j < st.next → st'.heap j = st.heap j) → st.next ≤ st'.next → R st' y

/-- How the last part of `Call` ends. -/
structure ParseEnd {τ : Type} (RR RR' : St ω → τ → Prop) (ownR : Nat → Prop) (n0 : Nat) (st st' : St ω) (e : V) (yr : τ)
    (res : Option CallErr × τ) : Prop where
  err : CallRel e res.1
  resp : Kept RR' st' res.2 ∨ (RR st' yr ∧ res.2 = yr)
  frame : ∀ j, j < n0 → ¬ ownR j → st'.heap j = st.heap j
  next : st.next ≤ st'.next
  world : st'.world = st.world
  defers : st'.defers = st.defers

variable [Others]

set_option maxRecDepth 10000 in
set_option maxHeartbeats 1000000 in
theorem callParse_spec {τ : Type} (E : Ext ω) (k : Nat) {rv : V} {ownR : Nat → Prop} {RR RR' : St ω → τ → Prop}
    {fr : XdrState → τ → XdrState × τ} (hr : Receives E (k + 7) rv ownR RR RR' fr) {st : St ω} {n0 : Nat}
    (hown : ∀ j, ownR j → j < n0) {yr : τ} (hR : RR st yr)
    {cbuf chl chd cwb cer cwr crq crs car cvf ccr cpr cc : Nat}
    {a : Nat} {b : V} {l : List UInt8} (hll : l.length < 2 ^ 31) (hbuf : st.heap cbuf = b) (hb : BytesAt st a b l) (ha : n0 ≤ a) (ha' : a < st.next)
    {Tq : String} {xid : UInt32} {bq : V} (hreq : st.heap crq = .struct Tq [("Xid", .u32 xid), ("Body", bq)])
    (hres : st.heap crs = rv)
    (l2 : n0 ≤ cer)
    (u2 : cer < st.next) (u3 : crq < st.next) (u4 : crs < st.next)
    (d1 : cer ≠ crq) (d2 : cer ≠ crs) (d3 : cer ≠ a) :
    wp (execs (sem E (k + 7)) "rfc1057" callParse
        [[("buf", cbuf), ("hlen", chl), ("hdr", chd), ("wbuf", cwb), ("err", cer), ("wr", cwr), ("req", crq), ("resp", crs), ("args", car),
          ("verf", cvf), ("cred", ccr), ("proc", cpr), ("c", cc)]] .next)
      (fun r st' => ∃ e, r.2 = .ret [e] ∧ ParseEnd RR RR' ownR n0 st st' e yr (parseReply xid l fr yr)) st := by
  simp only [callParse, sem, client_Client_Call, List.drop_succ_cons, List.drop_zero]
  have hrvs := hr.ref
  go_run [hbuf]
  refine wp_mono (MakeReader_spec E (k + 6) hb ha') ?_
  rintro _ st1 ⟨x, a1, rfl, hx1, hxs, hw, hg⟩
  go_grew hg n1 k1 o1 e1
  have := hxs.xlt
  have := hxs.alt
  go_run
  have ha1 : n0 ≤ a1 ∧ a1 ≠ st1.next ∧ a1 ≠ st1.next + 1 ∧ cer ≠ a1 := by
    rcases hw with ⟨_, rfl⟩ | ⟨_, rfl⟩ <;> omega
  refine wp_mono (Rpc_msg_codec E k (hxs.mono (by go_run) (by go_run) (by go_run) (by go_lt)) _ (st1.next + 1) [] _ RpcMsg.zero (by go_run)
    (zero_rmsg _ x x _) (by go_lt) (by omega) (by omega) (by omega)) ?_
  rintro _ st2 ⟨rfl, w2, hw2, hxs2, hk2, v2, hv2, hR2⟩
  go_after hk2 n2 k2 o2 e2
  simp only [next_set, next_push, next_deferring] at hw2
  rw [put_nil] at hv2
  obtain ⟨e2v, b2, hex2, he2, _⟩ := hxs2.cell
  simp only [parseReply]
  have hrd := (decode_success_iff xid l).1
  rcases hm : RpcMsg.zero.xdr (Xdr.makeReader l) with ⟨rd, res⟩
  have hrd : rd.err = none → res.xid = xid → res.mtype = 1 → res.rbody.stat = 0 → res.rbody.areply.stat = 0 →
      ∃ bytes, rd = Xdr.makeReader bytes ∧ bytes.length < 2 ^ 31 := fun h1 h2 h3 h4 h5 => by
    obtain ⟨v, bytes, h⟩ := hrd ⟨by rw [hm]; exact h1, by rw [hm]; exact h2, by rw [hm]; exact h3, by rw [hm]; exact h4, by rw [hm]; exact h5⟩
    rw [decode_success h] at hm
    refine ⟨bytes, (Prod.mk.inj hm).1.symm, ?_⟩
    obtain ⟨wv, _, rfl⟩ := h
    simp only [List.length_append, Spec.Accept.bytes] at hll
    omega
  have hst : RR st2 yr := hr.stable st _ yr hR (fun j hj => by have := hown j hj; rw [k2 j (by omega) (by omega) (by omega) (by omega)]; go_run [k1]) (by omega)
  have hfr : ∀ j, j < n0 → st2.heap j = st.heap j := fun j hj => by
    rw [k2 j (by omega) (by omega) (by omega) (by omega)]; go_run [k1]
  dsimp only at hxs2 hR2 he2
  rw [hm] at hxs2 hR2 he2
  have h2x : x < st2.next := hxs2.xlt
  have h2a : a1 < st2.next := hxs2.alt
  have h2w : w2 < st2.next := hxs2.wlt
  obtain ⟨xs', m', cb', ⟨rst, ⟨av, ast, amm⟩, rrep⟩⟩ := res
  obtain ⟨cv, rv2, rfl, hcv, av2, rr2, rfl, ⟨fv, rfl, hfv⟩, rfl⟩ := hR2
  simp only [Option.some.injEq] at hv2
  dsimp only at hv2 ⊢
  obtain ⟨ge, hge⟩ : ∃ e, rd.err = e := ⟨_, rfl⟩
  rw [hge] at he2 ⊢
  cases ge with
  | some e =>
    obtain ⟨m, vs, rfl⟩ := he2.some'
    go_run [k2, hex2]
    exact ⟨_, rfl, .xdr _ _ he2, .inr ⟨hr.stable _ _ yr hst (fun j hj => by have := hown j hj; go_run) (by go_lt), rfl⟩,
      fun j hj _ => by go_run [hfr j hj], by go_lt, by go_run [o2, o1], by go_run [e2, e1]⟩
  | none =>
    cases he2
    by_cases c1 : xs' = xid
    case neg =>
      have c1' : (xs' == xid) = false := by simp [c1]
      go_run [k2, k1, hex2, hv2.symm, hreq, c1', c1, Bool.not_false]
      exact ⟨_, rfl, .xid .., .inr ⟨hr.stable _ _ yr hst (fun j hj => by have := hown j hj; go_run) (by go_lt), rfl⟩,
        fun j hj _ => by go_run [hfr j hj], by go_lt, by go_run [o2, o1], by go_run [e2, e1]⟩
    subst c1
    by_cases c2 : m' = 1
    case neg =>
      have c2' : (m' == 1) = false := by simp [c2]
      go_run [k2, k1, hex2, hv2.symm, hreq, beq_self_eq_true, Bool.not_true, ne_eq, not_true_eq_false, c2', c2, Bool.not_false]
      exact ⟨_, rfl, .notReply _, .inr ⟨hr.stable _ _ yr hst (fun j hj => by have := hown j hj; go_run) (by go_lt), rfl⟩,
        fun j hj _ => by go_run [hfr j hj], by go_lt, by go_run [o2, o1], by go_run [e2, e1]⟩
    subst c2
    by_cases c3 : rst = 0
    case neg =>
      have c3' : (rst == 0) = false := by simp [c3]
      go_run [k2, k1, hex2, hv2.symm, hreq, beq_self_eq_true, Bool.not_true, ne_eq, not_true_eq_false, c3', c3, Bool.not_false]
      exact ⟨_, rfl, .denied _, .inr ⟨hr.stable _ _ yr hst (fun j hj => by have := hown j hj; go_run) (by go_lt), rfl⟩,
        fun j hj _ => by go_run [hfr j hj], by go_lt, by go_run [o2, o1], by go_run [e2, e1]⟩
    subst c3
    by_cases c4 : ast = 0
    case neg =>
      have c4' : (ast == 0) = false := by simp [c4]
      go_run [k2, k1, hex2, hv2.symm, hreq, beq_self_eq_true, Bool.not_true, ne_eq, not_true_eq_false, c4', c4, Bool.not_false]
      exact ⟨_, rfl, .accept _, .inr ⟨hr.stable _ _ yr hst (fun j hj => by have := hown j hj; go_run) (by go_lt), rfl⟩,
        fun j hj _ => by go_run [hfr j hj], by go_lt, by go_run [o2, o1], by go_run [e2, e1]⟩
    subst c4
    obtain ⟨bytes, rfl, hbl⟩ := hrd hge rfl rfl rfl rfl
    have hoa : ¬ ownR a1 := fun h => by have := hown _ h; omega
    have hox : ¬ ownR x := fun h => by have := hown _ h; omega
    have how : ¬ ownR w2 := fun h => by have := hown _ h; omega
    go_run [k2, k1, hex2, hv2.symm, hreq, hres, beq_self_eq_true, Bool.not_true, ne_eq, not_true_eq_false]
    refine wp_mono (hr.call (hxs2.mono (by go_run) (by go_run) (by go_run) (by go_lt)) hbl yr
      (hr.stable _ _ yr hst (fun j hj => by have := hown j hj; go_run) (by go_lt)) hox hoa how) ?_
    rintro _ st3 ⟨w3, hw3, hxs3, hf3, hR3⟩
    go_framed hf3 n3 k3 o3 e3
    have k3' : ∀ j, j < st2.next + 1 → n0 ≤ j → j ≠ x → j ≠ w2 → st3.heap j =
        ((((st2.deferring []).push (V.ptr "" { id := x, path := [] })).deferring st2.defers).set cer V.nil).heap j :=
      fun j a b c d => k3 j a c d (fun h => by have := hown j h; omega)
    obtain ⟨e3v, b3, hex3, he3, _⟩ := hxs3.cell
    have h3x : x < st3.next := hxs3.xlt
    have hnc : ∀ j, j < st3.next → ownR j ∨ j = a1 ∨ st2.next + 1 ≤ j → j ≠ cer := by
      rintro j hj (h | rfl | h)
      · have := hown j h; omega
      · omega
      · omega
    rcases hm3 : fr (Xdr.makeReader bytes) yr with ⟨rd3, y3⟩
    rw [hm3] at hxs3 hR3 he3
    dsimp only at hxs3 hR3 he3 ⊢
    obtain ⟨ge3, hge3⟩ : ∃ e, rd3.err = e := ⟨_, rfl⟩
    rw [hge3] at he3 ⊢
    cases ge3 with
    | some e =>
      obtain ⟨m, vs, rfl⟩ := he3.some'
      go_run [k3', k2, k1, hex3]
      exact ⟨_, rfl, .xdr _ _ he3, .inl fun st4 hk4 hn4 => hR3 _ (fun j hj hs => by have : j ≠ cer := hnc j hj hs; rw [hk4 j (by go_lt)]; go_run) (Nat.le_trans (by go_lt) hn4),
        fun j hj hn => by go_run [k3, hfr j hj], by go_lt, by go_run [o3, o2, o1], by go_run [e3, e2, e1]⟩
    | none =>
      cases he3
      go_run [k3', k2, k1, hex3]
      exact ⟨_, rfl, .ok, .inl fun st4 hk4 hn4 => hR3 _ (fun j hj hs => by have : j ≠ cer := hnc j hj hs; rw [hk4 j (by go_lt)]; go_run) (Nat.le_trans (by go_lt) hn4),
        fun j hj hn => by go_run [k3, hfr j hj], by go_lt, by go_run [o3, o2, o1], by go_run [e3, e2, e1]⟩

theorem shl31 : (if 0 ≤ ((31 : Nat) : Int) then some (V.const (((1 : Nat) : Int) * 2 ^ 31)) else none) = some (.const 2147483648) := rfl
theorem ofInt31 : UInt32.ofInt 2147483648 = (1 : UInt32) <<< 31 := by decide
theorem ofInt_7 : UInt32.ofInt ((2147483647 : Nat) : Int) = 0x7fffffff := by decide
theorem ofInt_0 : UInt32.ofInt ((0 : Nat) : Int) = 0 := by decide

/-- How the part of `Call` that reads the reply ends. -/
structure ReadEnd (W : Wire ω) (cer chd : Nat) (st st' : St ω) : Prop where
  frame : ∀ j, j < st.next → j ≠ cer → j ≠ chd → st'.heap j = st.heap j
  next : st.next ≤ st'.next
  sent : W.sent st'.world = W.sent st.world
  input : W.input st'.world = (readReply (W.input st.world)).2
  defers : st'.defers = st.defers

set_option maxRecDepth 10000 in
theorem callRead_spec (E : Ext ω) (W : Wire ω) (k : Nat) {rw : V} (T : Transport E W rw) {st : St ω}
    {chd cwb cer cwr crq crs car cvf ccr cpr cc : Nat} {Tc : String} {c : Nat} {cl : Client} {hb : List UInt8}
    (hcc : st.heap cc = .ptr Tc ⟨c, []⟩) (hc : st.heap c = clientV rw cl) (hhd : st.heap chd = .bytes hb) (hl : hb.length = 4)
    (u1 : cc < st.next) (u2 : c < st.next) (u4 : cer < st.next)
    (d1 : chd ≠ cc) (d2 : chd ≠ c) (d3 : cer ≠ cc) (d4 : cer ≠ c) (d5 : cer ≠ chd) :
    wp (execs (sem E (k + 7)) "rfc1057" callRead
        [[("hdr", chd), ("wbuf", cwb), ("err", cer), ("wr", cwr), ("req", crq), ("resp", crs), ("args", car),
          ("verf", cvf), ("cred", ccr), ("proc", cpr), ("c", cc)]] .next)
      (fun r st' => ReadEnd W cer chd st st' ∧
        match (readReply (W.input st.world)).1 with
        | .error ce => ∃ e, r.2 = .ret [e] ∧ CallRel e (some ce)
        | .ok l => ∃ a cbuf chl b, r = ([[("buf", cbuf), ("hlen", chl), ("hdr", chd), ("wbuf", cwb), ("err", cer), ("wr", cwr), ("req", crq),
            ("resp", crs), ("args", car), ("verf", cvf), ("cred", ccr), ("proc", cpr), ("c", cc)]], .next) ∧
          st.next ≤ a ∧ st.next ≤ cbuf ∧ a < st'.next ∧ cbuf < st'.next ∧ st'.heap cbuf = b ∧ BytesAt st' a b l) st := by
  simp only [callRead, sem, client_Client_Call, List.drop_succ_cons, List.drop_zero, List.take_succ_cons, List.take_zero]
  obtain ⟨i, rfl⟩ := T.obj
  rw [clientV] at hc
  go_run [hcc, hc, hhd]
  refine wp_mono (T.read st _ hb ⟨by go_run [hhd], by simp, by simp⟩ rfl) ?_
  rintro _ st1 ⟨n1, e1, arr1, rfl, hla, harr, hm, s1, i1, k1, x1, f1⟩
  dsimp only at hm k1 i1
  rw [hl] at hm i1 harr hla
  simp only [readReply]
  have harr' : st1.heap chd = .bytes arr1 := by have := harr.1; dsimp only at this; rw [at_nil] at this; exact Option.some.inj this
  rcases hrf : readFull 4 (W.input st.world) with ⟨r1, in1⟩
  rw [hrf] at hm i1
  cases r1 with
  | error re =>
    dsimp only at hm ⊢
    subst hm
    cases re <;> simp only [ioErr] <;> go_run
    · exact ⟨⟨fun j a b c => by go_run [k1], by go_lt, by go_run [s1], by simp only [readReply, hrf]; go_run [i1], by go_run [f1]⟩, _, rfl, .read .eof⟩
    · exact ⟨⟨fun j a b c => by go_run [k1], by go_lt, by go_run [s1], by simp only [readReply, hrf]; go_run [i1], by go_run [f1]⟩, _, rfl, .read .unexpectedEOF⟩
  | ok h4 =>
    obtain ⟨rfl, hs⟩ := hm
    have hs' : arr1 = h4 := by rw [← hs, sub]; simp [← hla]
    have hl4 : h4.length = 4 := by rw [← hs', hla]
    subst hs'
    dsimp only
    by_cases cf : Xdr.getU32 arr1 &&& ((1 : UInt32) <<< 31) = 0
    · rw [if_pos cf]
      have cf' : (Xdr.getU32 arr1 &&& ((1 : UInt32) <<< 31) == 0) = true := by rw [beq_iff_eq, ← cf]
      go_run [harr', List.drop_zero, List.take_length, ofBe32_getU32 _ hl4, shl31, ofInt31, ofInt_0, cf']
      exact ⟨⟨fun j a b c => by go_run [k1], by go_lt, by go_run [s1], by simp only [readReply, hrf]; go_run [i1, cf], by go_run [f1]⟩, _, rfl, .fragment⟩
    · rw [if_neg cf]
      have cf' : (Xdr.getU32 arr1 &&& ((1 : UInt32) <<< 31) == 0) = false := by simpa using cf
      go_run [harr', List.drop_zero, List.take_length, ofBe32_getU32 _ hl4, shl31, ofInt31, ofInt_0, cf', ofInt_7, k1, hcc, hc]
      refine wp_mono (T.read _ _ (List.replicate (Xdr.getU32 arr1 &&& 2147483647).toNat 0) ⟨by go_run, by simp, by simp⟩ rfl) ?_
      rintro _ st2 ⟨n2, e2, arr2, rfl, hla2, harr2, hm2, s2, i2, k2, x2, f2⟩
      simp only [next_set, next_push, next_deferring, world_set, world_push, world_deferring, defers_set, defers_push, defers_deferring] at hm2 s2 i2 k2 x2 f2
      rw [List.length_replicate] at hla2 harr2
      rw [i1] at hm2 i2
      rcases hrf2 : readFull (Xdr.getU32 arr1 &&& 2147483647).toNat in1 with ⟨r2, in2⟩
      dsimp only at hm2 i2
      rw [hrf2] at hm2 i2
      have hin : W.input st2.world = (readReply (W.input st.world)).2 := by
        simp only [readReply, hrf, if_neg cf, hrf2]
        cases r2 <;> exact i2
      cases r2 with
      | error re =>
        dsimp only at hm2 ⊢
        subst hm2
        cases re <;> simp only [ioErr] <;> go_run
        · exact ⟨⟨fun j a b c => by go_run [k2, k1], by go_lt, by go_run [s2, s1], by go_run [hin], by go_run [f2, f1]⟩, _, rfl, .read .eof⟩
        · exact ⟨⟨fun j a b c => by go_run [k2, k1], by go_lt, by go_run [s2, s1], by go_run [hin], by go_run [f2, f1]⟩, _, rfl, .read .unexpectedEOF⟩
      | ok buf =>
        obtain ⟨rfl, hs2⟩ := hm2
        dsimp only
        go_run
        refine ⟨⟨fun j a b c => by go_run [k2, k1], by go_lt, by go_run [s2, s1], by go_run [hin], by go_run [f2, f1]⟩,
          st1.next + 1, st1.next + 1 + 1, st1.next, _, rfl, by omega, by omega, by go_lt, by go_lt, rfl, ?_⟩
        go_run [k2]
        rw [← hs2]
        exact .slice _ _ ⟨by have := harr2.1; go_run [this], by simp [hla2], by simp⟩ rfl

/-- What `Call` hands to `Write`. -/
def record (b : List UInt8) : List UInt8 := Xdr.putU32 (((1 : UInt32) <<< 31) ||| UInt32.ofNat b.length) ++ b

/-- How the part of `Call` that sends the request ends. -/
structure SendEnd (W : Wire ω) (cer : Nat) (b : List UInt8) (st st' : St ω) : Prop where
  frame : ∀ j, j < st.next → j ≠ cer → st'.heap j = st.heap j
  next : st.next ≤ st'.next
  sent : W.sent st'.world = W.sent st.world ++ [record b]
  input : W.input st'.world = W.input st.world
  defers : st'.defers = st.defers

set_option maxRecDepth 10000 in
theorem callSend_spec (E : Ext ω) (W : Wire ω) (k : Nat) {rw : V} (T : Transport E W rw) {st : St ω}
    {cer cwr crq crs car cvf ccr cpr cc : Nat} {Tc : String} {c : Nat} {cl : Client} {x a w : Nat} {xs : XdrState}
    (hcc : st.heap cc = .ptr Tc ⟨c, []⟩) (hc : st.heap c = clientV rw cl) (hwr : st.heap cwr = .ptr "" ⟨x, []⟩) (hx : Xs st x a w xs)
    (hr : xs.reader = false)
    (u1 : cc < st.next) (u2 : c < st.next) (u4 : cer < st.next) :
    wp (execs (sem E (k + 7)) "rfc1057" callSend
        [[("err", cer), ("wr", cwr), ("req", crq), ("resp", crs), ("args", car),
          ("verf", cvf), ("cred", ccr), ("proc", cpr), ("c", cc)]] .next)
      (fun r st' => SendEnd W cer (Xdr.writeBuf xs) st st' ∧
        if W.ok st.world then ∃ chd cwb hb, r = ([[("hdr", chd), ("wbuf", cwb), ("err", cer), ("wr", cwr), ("req", crq),
            ("resp", crs), ("args", car), ("verf", cvf), ("cred", ccr), ("proc", cpr), ("c", cc)]], .next) ∧
          st.next ≤ chd ∧ chd < st'.next ∧ st'.heap chd = .bytes hb ∧ hb.length = 4
        else ∃ e, r.2 = .ret [e] ∧ CallRel e (some .write)) st := by
  simp only [callSend, sem, client_Client_Call, List.drop_succ_cons, List.drop_zero, List.take_succ_cons, List.take_zero]
  obtain ⟨i, rfl⟩ := T.obj
  rw [clientV] at hc
  obtain ⟨e0, b0, hex, _⟩ := hx.cell
  go_run [hwr, hex]
  refine wp_mono (WriteBuf_spec E (k + 6) hx hr) ?_
  rintro _ st1 ⟨b, rfl, hb, hbn, hxs1, hg1⟩
  go_grew hg1 n1 k1 o1 e1
  generalize Xdr.writeBuf xs = l at hb ⊢
  have hol : ∀ v : UInt32, (overwrite [0, 0, 0, 0] 0 (be32 v)).length = 4 := fun v => rfl
  cases hb with
  | nil =>
    go_run [k1, hcc, hc, shl31, ofInt31, ofInt32_nat, be32_length, List.length_replicate, List.isEmpty]
    rw [hol]
    have hsub : sub ⟨⟨st1.next + 1, []⟩, 0, 4, 4⟩ (overwrite (overwrite [0, 0, 0, 0] 0 (be32 ((1 : UInt32) <<< 31 ||| UInt32.ofInt 0))) 4 []) = record [] := rfl
    refine wp_mono (T.write _ _ (overwrite (overwrite [0, 0, 0, 0] 0 (be32 ((1 : UInt32) <<< 31 ||| UInt32.ofInt 0))) 4 []) (⟨by go_run [List.take_zero], (by decide : 4 ≤ 4), (by decide : 4 ≤ 4)⟩)) ?_
    rintro _ st2 ⟨n2, e2, rfl, hm, s2, i2, k2, x2, f2⟩
    simp only [next_set, next_push, next_deferring, world_set, world_push, world_deferring, defers_set, defers_push, defers_deferring] at hm s2 i2 k2 x2 f2
    rw [hsub] at s2
    rw [o1] at hm s2 i2
    by_cases hok : W.ok st.world = true
    · rw [if_pos hok] at hm
      simp only [if_pos hok]
      subst hm
      go_run
      exact ⟨⟨fun j a b => by go_run [k2, k1], by go_lt, by go_run [s2], by go_run [i2], by go_run [f2, e1]⟩,
        st1.next + 1, st1.next, overwrite (overwrite [0, 0, 0, 0] 0 (be32 ((1 : UInt32) <<< 31 ||| UInt32.ofInt 0))) 4 [], rfl, by go_lt, by go_lt, by go_run [k2, List.take_zero], by decide⟩
    · rw [if_neg hok] at hm
      simp only [if_neg hok]
      obtain ⟨m, vs, rfl⟩ := hm
      go_run
      exact ⟨⟨fun j a b => by go_run [k2, k1], by go_lt, by go_run [s2], by go_run [i2], by go_run [f2, e1]⟩, _, rfl, .write ..⟩
  | slice s arr h hb =>
    obtain ⟨⟨ab, ap⟩, so, sl, sc⟩ := s
    cases hb
    have h1 := h.1
    dsimp only at h1
    rw [at_nil] at h1
    have h1 := Option.some.inj h1
    have h2 := hxs1.wlt
    have h3 := sub_length h
    have h4 := h.2.1
    have h5 := h.2.2
    dsimp only [sub] at h3 h4 h5
    by_cases hz : sl = 0
    · subst hz
      go_run [k1, hcc, hc, shl31, ofInt31, ofInt32_nat, be32_length, List.length_replicate, List.isEmpty, h1, h3, hol]
      have hsub : sub ⟨⟨st1.next + 1, []⟩, 0, 4, 4⟩ (overwrite (overwrite [0, 0, 0, 0] 0 (be32 ((1 : UInt32) <<< 31 ||| UInt32.ofNat 0))) 4 []) = record (sub ⟨⟨w, []⟩, so, 0, sc⟩ arr) := rfl
      refine wp_mono (T.write _ _ (overwrite (overwrite [0, 0, 0, 0] 0 (be32 ((1 : UInt32) <<< 31 ||| UInt32.ofNat 0))) 4 []) (⟨by go_run [List.take_zero], (by decide : 4 ≤ 4), (by decide : 4 ≤ 4)⟩)) ?_
      rintro _ st2 ⟨n2, e2, rfl, hm, s2, i2, k2, x2, f2⟩
      simp only [next_set, next_push, next_deferring, world_set, world_push, world_deferring, defers_set, defers_push, defers_deferring] at hm s2 i2 k2 x2 f2
      rw [hsub] at s2
      rw [o1] at hm s2 i2
      by_cases hok : W.ok st.world = true
      · rw [if_pos hok] at hm
        simp only [if_pos hok]
        subst hm
        go_run
        exact ⟨⟨fun j a b => by go_run [k2, k1], by go_lt, by go_run [s2], by go_run [i2], by go_run [f2, e1]⟩,
          st1.next + 1, st1.next, overwrite (overwrite [0, 0, 0, 0] 0 (be32 ((1 : UInt32) <<< 31 ||| UInt32.ofNat 0))) 4 [], rfl, by go_lt, by go_lt, by go_run [k2, List.take_zero], by decide⟩
      · rw [if_neg hok] at hm
        simp only [if_neg hok]
        obtain ⟨m, vs, rfl⟩ := hm
        go_run
        exact ⟨⟨fun j a b => by go_run [k2, k1], by go_lt, by go_run [s2], by go_run [i2], by go_run [f2, e1]⟩, _, rfl, .write ..⟩
    · go_run [k1, hcc, hc, shl31, ofInt31, ofInt32_nat, be32_length, List.length_replicate, List.isEmpty, h1, h3, hol]
      have hl : (List.take 4 (List.drop 0 (overwrite [0, 0, 0, 0] 0 (be32 ((1 : UInt32) <<< 31 ||| UInt32.ofNat sl)))) ++
                  List.take sl (List.drop so arr)) = record (sub ⟨⟨w, []⟩, so, sl, sc⟩ arr) := by
        rw [record, sub, h3]; rfl
      rw [hl]
      have hsub : ∀ m, sub ⟨⟨st1.next + 1 + 1, []⟩, 0, (record (sub ⟨⟨w, []⟩, so, sl, sc⟩ arr)).length,
          (record (sub ⟨⟨w, []⟩, so, sl, sc⟩ arr) ++ List.replicate m 0).length⟩ (record (sub ⟨⟨w, []⟩, so, sl, sc⟩ arr) ++ List.replicate m 0)
          = record (sub ⟨⟨w, []⟩, so, sl, sc⟩ arr) := fun m => by
        simp only [sub, List.drop_zero, List.take_left]
      generalize h9 : record (sub ⟨⟨w, []⟩, so, sl, sc⟩ arr) = rec at hsub hl ⊢
      refine wp_mono (T.write _ _ (rec ++ List.replicate (E.grow 4 rec.length - rec.length) 0) (⟨by go_run; rw [hol, hl], by simp, by simp⟩)) ?_
      rintro _ st2 ⟨n2, e2, rfl, hm, s2, i2, k2, x2, f2⟩
      simp only [next_set, next_push, next_deferring, world_set, world_push, world_deferring, defers_set, defers_push, defers_deferring] at hm s2 i2 k2 x2 f2
      rw [hsub] at s2
      rw [o1] at hm s2 i2
      by_cases hok : W.ok st.world = true
      · rw [if_pos hok] at hm
        simp only [if_pos hok]
        subst hm
        go_run
        exact ⟨⟨fun j a b => by go_run [k2, k1], by go_lt, by go_run [s2, h9], by go_run [i2], by go_run [f2, e1]⟩,
          st1.next + 1, st1.next, overwrite [0, 0, 0, 0] 0 (be32 ((1 : UInt32) <<< 31 ||| UInt32.ofNat sl)), rfl, by go_lt, by go_lt, by go_run [k2], hol _⟩
      · rw [if_neg hok] at hm
        simp only [if_neg hok]
        obtain ⟨m, vs, rfl⟩ := hm
        go_run
        exact ⟨⟨fun j a b => by go_run [k2, k1], by go_lt, by go_run [s2, h9], by go_run [i2], by go_run [f2, e1]⟩, _, rfl, .write ..⟩

theorem clientV_at (rw : V) (hrw : ∃ i, rw = .obj i) (cl : Client) (p : List String) (b : List UInt8) : (clientV rw cl).at p ≠ some (.bytes b) := by
  obtain ⟨i, rfl⟩ := hrw
  rcases p with _ | ⟨f, p⟩
  · rw [at_nil, clientV]; simp
  · have key : ∀ (fs : List (String × V)), (∀ q ∈ fs, (∃ i, q.2 = .obj i) ∨ ∃ n, q.2 = .u32 n) → (V.struct "rfc1057.Client" fs).at (f :: p) ≠ some (.bytes b) := by
      intro fs hfs
      rw [at_cons]
      cases hl : fs.lookup f with
      | none => simp
      | some v =>
        have hm : (f, v) ∈ fs := by
          obtain ⟨l1, l2, h, _⟩ := List.lookup_eq_some_iff.1 hl
          rw [h]; simp
        rcases hfs _ hm with ⟨i, h⟩ | ⟨n, h⟩ <;> dsimp only at h <;> subst h <;> cases p <;> simp [V.at, V.field]
    refine key _ fun q hq => ?_
    simp only [List.mem_cons, List.not_mem_nil, or_false] at hq
    rcases hq with rfl | rfl | rfl | rfl
    · exact .inl ⟨_, rfl⟩
    · exact .inr ⟨_, rfl⟩
    · exact .inr ⟨_, rfl⟩
    · exact .inr ⟨_, rfl⟩

theorem GoB.ne_client {st : St ω} {v : V} {y : Xdr.GoBytes} (h : GoB st v y) {c : Nat} {rw : V} (hrw : ∃ i, rw = .obj i) {cl : Client}
    (hc : st.heap c = clientV rw cl) (s : Slice) (hs : v = .slice s) : s.base.id ≠ c := by
  subst hs
  rintro rfl
  cases h with
  | slice s arr h => have := h.1; rw [hc] at this; exact clientV_at rw hrw cl _ _ this

/-- How the part of `Call` that makes the request ends. -/
structure HeadEnd (c crq : Nat) (rw : V) (cl : Client) (m : RpcMsg) (n0 : Nat) (st st' : St ω) : Prop where
  frame : ∀ j, j < st.next → j ≠ c → st'.heap j = st.heap j
  next : st.next ≤ st'.next
  client : st'.heap c = clientV rw cl
  lt : st.next ≤ crq ∧ crq < st'.next
  req : ∀ x w t, n0 ≤ x → n0 ≤ w → n0 ≤ t → RMsg st' x w t (st'.heap crq) m
  world : st'.world = st.world
  defers : st'.defers = st.defers

set_option maxRecDepth 10000 in
theorem callHead_spec (E : Ext ω) (k : Nat) {rw : V} (hrw : ∃ i, rw = .obj i) {st : St ω} {n0 : Nat}
    {crs car cvf ccr cpr cc : Nat} {Tc : String} {c : Nat} {cl : Client} {proc : UInt32} {cv fv : V} {cred verf : OpaqueAuth}
    (hcc : st.heap cc = .ptr Tc ⟨c, []⟩) (hc : st.heap c = clientV rw cl) (hpr : st.heap cpr = .u32 proc)
    (hcr : st.heap ccr = cv) (hvf : st.heap cvf = fv) (hcv : AuthArg n0 st cv cred) (hfv : AuthArg n0 st fv verf)
    (hn0 : n0 ≤ st.next)
    (u1 : cc < st.next) (u2 : c < n0) (u3 : cpr < st.next) (u4 : ccr < st.next) (u5 : cvf < st.next)
    (l1 : n0 ≤ cc) (l2 : n0 ≤ cpr) (l3 : n0 ≤ ccr) (l4 : n0 ≤ cvf) :
    wp (execs (sem E (k + 7)) "rfc1057" callHead
        [[("resp", crs), ("args", car), ("verf", cvf), ("cred", ccr), ("proc", cpr), ("c", cc)]] .next)
      (fun r st' => ∃ crq, r = ([[("req", crq), ("resp", crs), ("args", car), ("verf", cvf), ("cred", ccr), ("proc", cpr), ("c", cc)]], .next) ∧
        HeadEnd c crq rw { cl with xid := cl.xid + 1 } (callMsg { cl with xid := cl.xid + 1 } proc cred verf) n0 st st') st := by
  simp only [callHead, sem, client_Client_Call, List.drop_succ_cons, List.drop_zero, List.take_succ_cons, List.take_zero]
  obtain ⟨b1, e1, g1, hb1⟩ := hcv
  obtain ⟨b2, e2, g2, hb2⟩ := hfv
  have s1 := g1.ne_client hrw hc
  have s2 := g2.ne_client hrw hc
  rw [clientV] at hc
  go_run [hcc, hc, hpr, hcr, hvf, e1, e2]
  refine ⟨_, rfl, ⟨fun j a b => by go_run, by go_lt, by go_run; rfl, ⟨by go_lt, by go_lt⟩, fun x w t hx hw ht => ?_, by go_run, by go_run⟩⟩
  go_run
  refine ⟨_, _, rfl, ⟨_, _, rfl, ⟨_, rfl, ?_⟩, ⟨_, rfl, ?_⟩⟩, ?_⟩
  · refine ⟨g1.mono fun s hs => ?_, fun s hs => ?_⟩
    · have := s1 s hs; have := hb1 s hs; go_run
    · have := hb1 s hs; exact ⟨by go_lt, by omega, by omega, by omega⟩
  · refine ⟨g2.mono fun s hs => ?_, fun s hs => ?_⟩
    · have := s2 s hs; have := hb2 s hs; go_run
    · have := hb2 s hs; exact ⟨by go_lt, by omega, by omega, by omega⟩
  · exact ⟨_, _, rfl, ⟨_, rfl, ⟨_, rfl, ⟨.nil, fun s h => by cases h⟩⟩⟩, rfl⟩

theorem callMsg_xid (c : Client) (proc : UInt32) (cred verf : OpaqueAuth) :
    ((callMsg c proc cred verf).xdr (Xdr.makeWriter [])).2.xid = c.xid := by
  simp only [callMsg, RpcMsg.xdr, Xdr.u32_writer, if_true]

/-- How the part of `Call` that encodes the request ends. -/
structure EncodeEnd (ownA : Nat → Prop) (crq : Nat) (xid : UInt32) (st st' : St ω) : Prop where
  frame : ∀ j, j < st.next → j ≠ crq → ¬ ownA j → st'.heap j = st.heap j
  next : st.next ≤ st'.next
  req : ∃ T b, st'.heap crq = .struct T [("Xid", .u32 xid), ("Body", b)]
  world : st'.world = st.world
  defers : st'.defers = st.defers

set_option maxRecDepth 10000 in
theorem callEncode_spec {τ : Type} (E : Ext ω) (k : Nat) {av : V} {ownA : Nat → Prop} {RA : St ω → τ → Prop}
    {fa : XdrState → τ → XdrState} (ha : Writes E (k + 7) av ownA RA fa) {st : St ω} {n0 : Nat}
    (hown : ∀ j, ownA j → j < n0) {ya : τ} (hR : RA st ya)
    {crq crs car cvf ccr cpr cc : Nat} {cl : Client} {proc : UInt32} {cred verf : OpaqueAuth}
    (hreq : ∀ x w t, n0 ≤ x → n0 ≤ w → n0 ≤ t → RMsg st x w t (st.heap crq) (callMsg cl proc cred verf))
    (har : st.heap car = av) (u1 : crq < st.next) (u2 : car < st.next) (l1 : n0 ≤ crq) (d1 : crq ≠ car) :
    wp (execs (sem E (k + 7)) "rfc1057" callEncode
        [[("req", crq), ("resp", crs), ("args", car), ("verf", cvf), ("cred", ccr), ("proc", cpr), ("c", cc)]] .next)
      (fun r st' => EncodeEnd ownA crq cl.xid st st' ∧
        match callRequest cl proc cred verf fun xs => fa xs ya with
        | .error ce => ∃ e, r.2 = .ret [e] ∧ CallRel e (some ce)
        | .ok m => ∃ x a w xs cwr cer, r = ([[("err", cer), ("wr", cwr), ("req", crq), ("resp", crs), ("args", car), ("verf", cvf), ("cred", ccr), ("proc", cpr), ("c", cc)]], .next) ∧
          st'.heap cwr = .ptr "" ⟨x, []⟩ ∧ Xs st' x a w xs ∧ xs.reader = false ∧ m = record (Xdr.writeBuf xs) ∧
          st.next ≤ cer ∧ cer < st'.next ∧ st.next ≤ cwr ∧ cwr < st'.next ∧ cer ≠ cwr) st := by
  simp only [callEncode, sem, client_Client_Call, List.drop_succ_cons, List.drop_zero, List.take_succ_cons, List.take_zero]
  have hav := ha.ref
  go_run
  refine wp_mono (MakeWriter_spec E (k + 6) (c := crq) .nil (by go_lt)) ?_
  rintro _ st1 ⟨x, w, rfl, hx1, hxs, hw, hg⟩
  go_grew hg n1 k1 o1 e1

  obtain rfl : w = x := by rcases hw with h | h; exact h.2; exact absurd rfl h.1
  have hq := hreq w w crq (by omega) (by omega) l1
  have := hxs.xlt
  obtain ⟨vc, vr, hqv, hqc, hqr⟩ := id hq
  go_run [k1, hqv]
  refine wp_mono (Rpc_msg_codec E k (hxs.mono (by go_run) (by go_run) (by go_run) (by go_lt)) _ crq [] _ (callMsg cl proc cred verf) (by go_run [k1])
    (RMsg.stable hq (fun j a b c d => by go_run [k1]) (by go_lt) (.inl rfl)) (by go_lt) (by omega) (by omega) (by omega)) ?_
  rintro _ st2 ⟨rfl, w2, hw2, hxs2, hk2, v2, hv2, hR2⟩
  go_after hk2 n2 k2 o2 e2
  simp only [next_set, next_push, next_deferring] at hw2
  rw [put_nil] at hv2
  have hv2 := Option.some.inj hv2
  obtain ⟨e2v, b2, hex2, he2, _⟩ := hxs2.cell
  have hxid := callMsg_xid cl proc cred verf
  have hsmall := callMsg_writer cl proc cred verf
  have hlarge := callMsg_writer_large cl proc cred verf
  simp only [callRequest]
  rcases hm : (callMsg cl proc cred verf).xdr (Xdr.makeWriter []) with ⟨wr, res⟩
  dsimp only at hxs2 hR2 he2
  rw [hm] at hxs2 hR2 he2 hxid hsmall hlarge
  dsimp only at hxs2 hR2 he2 hxid hsmall hlarge
  have h2x : w < st2.next := hxs2.xlt
  have h2w : w2 < st2.next := hxs2.wlt
  obtain ⟨c2, r2, hv2', _, _⟩ := hR2
  rw [hv2', hxid] at hv2
  obtain ⟨ge, hge⟩ : ∃ e, wr.err = e := ⟨_, rfl⟩
  rw [hge] at he2 hlarge ⊢
  cases ge with
  | some e =>
    obtain ⟨m, vs, rfl⟩ := he2.some'
    go_run [k2, hex2]
    exact ⟨⟨fun j a b c => by go_run [k2, k1], by go_lt, ⟨_, _, by go_run [← hv2]; rfl⟩, by go_run [o2, o1], by go_run [e2, e1]⟩, _, rfl, .xdr _ _ he2⟩
  | none =>
    cases he2
    have hrd : wr.reader = false := by
      by_cases hs : Xdr.goLen cred.body ≤ 400 ∧ Xdr.goLen verf.body ≤ 400
      · rw [hsmall hs.1 hs.2]; rfl
      · have := hlarge hs; cases this
    have hst : RA st2 ya := ha.stable st _ ya hR (fun j hj => by have := hown j hj; rw [k2 j (by omega) (by omega) (by omega) (by omega)]; go_run [k1]) (by omega)
    have hox : ¬ ownA w := fun h => by have := hown _ h; omega
    have how : ¬ ownA w2 := fun h => by have := hown _ h; omega
    go_run [k2, k1, hex2, har]
    refine wp_mono (ha.call (hxs2.mono (by go_run) (by go_run) (by go_run) (by go_lt)) hrd ya
      (ha.stable _ _ ya hst (fun j hj => by have := hown j hj; go_run) (by go_lt)) hox hox how) ?_
    rintro _ st3 ⟨w3, hw3, hxs3, hf3⟩
    go_framed hf3 n3 k3 o3 e3
    simp only [next_set, next_push, next_deferring] at hw3
    have h3w := hxs3.wlt
    have k3' := fun j (a : j < _) (b : n0 ≤ j) (c : j ≠ w) (d : j ≠ w2) => k3 j a c d (fun h => by have := hown j h; omega)
    obtain ⟨e3v, b3, hex3, he3, _⟩ := hxs3.cell
    have h3x : w < st3.next := hxs3.xlt
    have hrd3 : (fa wr ya).reader = false := ha.reader _ _ _ hst hrd
    generalize fa wr ya = wr3 at hxs3 he3 hrd3 ⊢
    dsimp only at hxs3 he3 hrd3 ⊢
    obtain ⟨ge3, hge3⟩ : ∃ e, wr3.err = e := ⟨_, rfl⟩
    rw [hge3] at he3
    simp only [hge3]
    cases ge3 with
    | some e =>
      obtain ⟨m, vs, rfl⟩ := he3.some'
      go_run [k3', k2, k1, hex3]
      exact ⟨⟨fun j a b c => by go_run [k3, k2, k1], by go_lt, ⟨_, _, by go_run [k3', ← hv2]; rfl⟩, by go_run [o3, o2, o1], by go_run [e3, e2, e1]⟩, _, rfl, .xdr _ _ he3⟩
    | none =>
      cases he3
      go_run [k3', k2, k1, hex3]
      exact ⟨⟨fun j a b c => by go_run [k3, k2, k1], by go_lt, ⟨_, _, by go_run [k3', ← hv2]; rfl⟩, by go_run [o3, o2, o1], by go_run [e3, e2, e1]⟩,
        w, w, w3, wr3, st1.next, st2.next + 1, rfl, by go_run [k3', k2], (hxs3.mono (by go_run) (by go_run) (by go_run) (by go_lt)), hrd3, rfl, by go_lt, by go_lt, by go_lt, by go_lt, by omega⟩

omit [Others] in
theorem readFull_length {n : Nat} {cs rest : Chunks} {b : List UInt8} (h : readFull n cs = (.ok b, rest)) : b.length = n := by
  have : ∀ (got : List UInt8) (n : Nat) (cs : Chunks), readFullFrom got n cs = (.ok b, rest) → b.length = got.length + n := by
    intro got n cs
    induction cs generalizing got n with
    | nil => cases n <;> simp [readFullFrom]
             rintro rfl _; rfl
    | cons c cs ih =>
      cases n with
      | zero => simp [readFullFrom]; rintro rfl _; rfl
      | succ n =>
        rw [readFullFrom]
        split
        · intro h
          have := ih _ _ h
          rw [List.length_append] at this
          omega
        · intro h
          cases h
          rw [List.length_append, List.length_take]
          omega
  have := this [] n cs h
  simpa using this

omit [Others] in
theorem readReply_length {cs rest : Chunks} {l : List UInt8} (h : readReply cs = (.ok l, rest)) : l.length < 2 ^ 31 := by
  simp only [readReply] at h
  split at h
  · cases h
  · split at h
    · cases h
    · split at h
      · cases h
      · rename_i hb
        cases h
        rw [readFull_length hb, UInt32.toNat_and]
        exact Nat.lt_of_le_of_lt Nat.and_le_right (by decide)

/-- How a call of `Call` ends, `res` being what the model says. -/
structure CallEnd {τ : Type} (W : Wire ω) (rw : V) (c : Nat) (ownA ownR : Nat → Prop) (RR RR' : St ω → τ → Prop) (yr : τ)
    (res : CallResult τ) (e : V) (st st' : St ω) : Prop where
  err : CallRel e res.err
  client : st'.heap c = clientV rw res.client
  sent : W.sent st'.world = W.sent st.world ++ res.sent.toList
  input : W.input st'.world = res.input
  resp : Kept RR' st' res.resp ∨ (RR st' yr ∧ res.resp = yr)
  frame : ∀ j, j < st.next → j ≠ c → ¬ ownA j → ¬ ownR j → st'.heap j = st.heap j
  next : st.next ≤ st'.next
  defers : st'.defers = st.defers

set_option maxRecDepth 10000 in
set_option maxHeartbeats 1000000 in
/-- client.go:27-108 -/
theorem Call_spec {τ τ' : Type} (E : Ext ω) (W : Wire ω) (k : Nat) {rw : V} (T : Transport E W rw)
    {av rv : V} {ownA ownR : Nat → Prop} {RA : St ω → τ' → Prop} {RR RR' : St ω → τ → Prop}
    {fa : XdrState → τ' → XdrState} {fr : XdrState → τ → XdrState × τ}
    (ha : Writes E (k + 7) av ownA RA fa) (hr : Receives E (k + 7) rv ownR RR RR' fr)
    (hdis : ∀ j, ownA j → ¬ ownR j) {st : St ω} {ya : τ'} {yr : τ} (hA : RA st ya) (hR : RR st yr)
    {Tc : String} {c : Nat} {cl : Client} (hc : st.heap c = clientV rw cl) (hlt : c < st.next) (hca : ¬ ownA c) (hcr : ¬ ownR c)
    {cv fv : V} {cred verf : OpaqueAuth} (hcv : AuthArg st.next st cv cred) (hfv : AuthArg st.next st fv verf) (proc : UInt32) :
    wp (callN goProg E (k + 8) (.meth "rfc1057.Client" "Call") [.ptr Tc ⟨c, []⟩, .u32 proc, cv, fv, av, rv])
      (fun r st' => ∃ e, r = [e] ∧ CallEnd W rw c ownA ownR RR RR' yr
        (cl.call proc cred verf (fun xs => fa xs ya) fr yr (W.ok st.world) (W.input st.world)) e st st') st := by
  rw [wp_callN _ _ _ _ _ _ _ _ _ find_client_Client_Call, wp_callFunc]
  simp only [call_body]
  dsimp only [client_Client_Call]
  have hav := ha.ref
  have hrv := hr.ref
  obtain ⟨b1, rfl, g1, hb1⟩ := hcv
  obtain ⟨b2, rfl, g2, hb2⟩ := hfv
  go_run
  rw [wp_execs_append]
  refine wp_mono (callHead_spec E k (n0 := st.next) T.obj (Tc := Tc) (c := c) (cl := cl) (proc := proc) (cred := cred) (verf := verf) (by go_run) (by go_run [hc]) (by go_run) rfl rfl
    ⟨b1, by go_run, g1.mono fun s hs => by have := hb1 s hs; go_run, fun s hs => hb1 s hs⟩
    ⟨b2, by go_run, g2.mono fun s hs => by have := hb2 s hs; go_run, fun s hs => hb2 s hs⟩ (by go_lt) (by go_lt) (by go_lt) (by go_lt) (by go_lt) (by go_lt) (by omega) (by omega) (by omega) (by omega)) ?_
  rintro _ st1 ⟨crq, rfl, h1⟩
  have n1 := h1.next
  have k1 := h1.frame
  have o1 := h1.world
  have e1 := h1.defers
  have c1 := h1.client
  have q1 := h1.lt
  have r1 := h1.req
  clear h1
  simp only [next_set, next_push, next_deferring] at n1 k1 q1
  simp only [world_set, world_push, world_deferring] at o1
  simp only [defers_set, defers_push, defers_deferring] at e1
  have hoA : ∀ j, ownA j → j < st.next := fun j => ha.lt st ya j hA
  have hoR : ∀ j, ownR j → j < st.next := fun j => hr.lt st yr j hR
  have hA1 : RA st1 ya := ha.stable st _ ya hA (fun j hj => by
    have := hoA j hj
    have : j ≠ c := fun h => hca (h ▸ hj)
    go_run [k1]) (by omega)
  have hR1 : RR st1 yr := hr.stable st _ yr hR (fun j hj => by
    have := hoR j hj
    have : j ≠ c := fun h => hcr (h ▸ hj)
    go_run [k1]) (by omega)
  rw [wp_execs_append]
  refine wp_mono (callEncode_spec E k ha hoA hA1 r1 (by go_run [k1]) (by omega) (by omega) (by omega) (by omega)) ?_
  rintro ⟨ρ2, ctl2⟩ st2 ⟨h2, hm⟩
  have n2 := h2.next
  have k2 := h2.frame
  have o2 := h2.world
  have e2 := h2.defers
  obtain ⟨Tq, bq, q2⟩ := h2.req
  clear h2
  have hR2 : RR st2 yr := hr.stable st1 _ yr hR1 (fun j hj => by
    have := hoR j hj
    exact k2 j (by omega) (by omega) fun h => hdis j h hj) (by omega)
  simp only [Client.call]
  have hcc2 : st2.heap st.next = .ptr Tc ⟨c, []⟩ := by
    rw [k2 _ (by omega) (by omega) (fun h => by have := hoA _ h; omega), k1 _ (by omega) (by omega)]
    go_run
  have hrs2 : st2.heap (st.next + 1 + 1 + 1 + 1 + 1) = rv := by
    rw [k2 _ (by omega) (by omega) (fun h => by have := hoA _ h; omega), k1 _ (by omega) (by omega)]
    go_run
  have hc2 : st2.heap c = clientV rw { cl with xid := cl.xid + 1 } := by
    rw [k2 _ (by omega) (by omega) hca, c1]
  have hf2 : ∀ j, j < st.next → j ≠ c → ¬ ownA j → st2.heap j = st.heap j := fun j a b c => by
    rw [k2 _ (by omega) (by omega) c, k1 _ (by omega) (by omega)]
    go_run
  rw [o1] at o2
  rw [e1] at e2
  cases hcr : callRequest { cl with xid := cl.xid + 1 } proc cred verf (fun xs => fa xs ya) with
  | error ce =>
    rw [hcr] at hm
    obtain ⟨e, hp, he⟩ := hm
    dsimp only at hp
    subst hp
    simp only [wp_execs_ret]
    go_run [e2]
    exact ⟨_, rfl, he, hc2, by go_run [o2]; simp, by go_run [o2], .inr ⟨hr.stable _ _ yr hR2 (fun j hj => by have := hoR j hj; go_run) (by go_lt), rfl⟩,
      fun j a b c d => hf2 j a b c, by go_lt, rfl⟩
  | ok m =>
    rw [hcr] at hm
    obtain ⟨x, a, w, xs, cwr, cer, hp, hwr, hxs, hrd, rfl, l1, l2, l3, l4, d1⟩ := hm
    cases hp
    rw [wp_execs_append]
    refine wp_mono (callSend_spec E W k T hcc2 hc2 hwr hxs hrd (by omega) (by omega) (by omega)) ?_
    rintro ⟨ρ3, ctl3⟩ st3 ⟨h3, hm⟩
    have n3 := h3.next
    have k3 := h3.frame
    have s3 := h3.sent
    have i3 := h3.input
    have e3 := h3.defers
    rw [o2] at s3 i3 hm
    have hR3 : RR st3 yr := hr.stable st2 _ yr hR2 (fun j hj => by
      have := hoR j hj
      exact k3 j (by omega) (by omega)) (by omega)
    by_cases hok : W.ok st.world = true
    case neg =>
      rw [if_neg hok] at hm
      simp only [if_neg hok]
      obtain ⟨e, hp, he⟩ := hm
      dsimp only at hp
      subst hp
      simp only [wp_execs_ret]
      go_run [e3, e2]
      exact ⟨_, rfl, he, by go_run [k3, hc2], by go_run [s3]; rfl, by go_run [i3], .inr ⟨hr.stable _ _ yr hR3 (fun j hj => by have := hoR j hj; go_run) (by go_lt), rfl⟩,
        fun j a b c d => by go_run [k3, hf2 j a b c], by go_lt, rfl⟩
    rw [if_pos hok] at hm
    simp only [if_pos hok]
    obtain ⟨chd, cwb, hb, hp, l5, l6, hhd, hlen⟩ := hm
    cases hp
    rw [wp_execs_append]
    refine wp_mono (callRead_spec E W k T (by rw [k3 _ (by omega) (by omega), hcc2]) (by rw [k3 _ (by omega) (by omega), hc2])
      hhd hlen (by omega) (by omega) (by omega) (by omega) (by omega) (by omega) (by omega) (by omega)) ?_
    rintro ⟨ρ4, ctl4⟩ st4 ⟨h4, hm⟩
    have n4 := h4.next
    have k4 := h4.frame
    have s4 := h4.sent
    have i4 := h4.input
    have e4 := h4.defers
    rw [i3] at i4 hm
    rw [s3] at s4
    have hR4 : RR st4 yr := hr.stable st3 _ yr hR3 (fun j hj => by
      have := hoR j hj
      exact k4 j (by omega) (by omega) (by omega)) (by omega)
    rcases hrr : readReply (W.input st.world) with ⟨r4, in4⟩
    rw [hrr] at hm i4
    cases r4 with
    | error ce =>
      obtain ⟨e, hp, he⟩ := hm
      dsimp only at hp
      subst hp
      simp only [wp_execs_ret]
      go_run [e4, e3, e2]
      exact ⟨_, rfl, he, by go_run [k4, k3, hc2], by go_run [s4]; rfl, by go_run [i4], .inr ⟨hr.stable _ _ yr hR4 (fun j hj => by have := hoR j hj; go_run) (by go_lt), rfl⟩,
        fun j a b c d => by go_run [k4, k3, hf2 j a b c], by go_lt, rfl⟩
    | ok l =>
      obtain ⟨ab, cbuf, chl, b, hp, l7, l8, l9, l10, hbuf, hba⟩ := hm
      cases hp
      dsimp only
      refine wp_mono (callParse_spec E k hr hoR hR4 (readReply_length hrr) hbuf hba (by omega) (by omega)
        (by rw [k4 _ (by omega) (by omega) (by omega), k3 _ (by omega) (by omega), q2]) 
        (by rw [k4 _ (by omega) (by omega) (by omega), k3 _ (by omega) (by omega), hrs2]) (by omega) (by omega) (by omega) (by omega)
        (by omega) (by omega) (by omega)) ?_
      rintro ⟨ρ5, ctl5⟩ st5 ⟨e, hp, h5⟩
      dsimp only at hp
      subst hp
      have n5 := h5.next
      have k5 := h5.frame
      have o5 := h5.world
      have e5 := h5.defers
      go_run [e5, e4, e3, e2]
      refine ⟨_, rfl, h5.err, by go_run [k5, k4, k3, hc2], by go_run [o5, s4]; rfl, by go_run [o5, i4], ?_, fun j a b c d => by go_run [k5, k4, k3, hf2 j a b c], by go_lt, rfl⟩
      rcases h5.resp with h | ⟨h, h'⟩
      · exact .inl fun st6 hk6 hn6 => h st6 hk6 hn6
      · exact .inr ⟨hr.stable _ _ yr h (fun j hj => by have := hoR j hj; go_run) (by go_lt), h'⟩

end Verif.Lang
