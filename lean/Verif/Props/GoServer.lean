/-
PROPERTIES C55 and C56: the text of rfc1057/server.go.
-/
import Verif.Lang.SeqSpec
import Verif.Lang.DemoNet
import Verif.Props.GoLibrary
import Verif.Props.Server
import Verif.Props.Stream

namespace Verif.Props
open Verif.Xdr Verif.Spec Verif.Rpc Verif.Lang

variable {ω σ : Type}

/-! ### What a server has to do, by the list of its registrations -/

/-- The reply to the call `c` with the argument bytes `args`, and the state of the handlers before and after. -/
inductive Verdict (regs : List (ProcReg σ)) (c : Call) (args : List UInt8) (s : σ) : σ → Reply → Prop
  | version (h : c.rpcvers ≠ 2) : Verdict regs c args s s (.rpcMismatch 0 0)
  | noProg (h2 : c.rpcvers = 2) (h : ∀ r ∈ regs, r.prog ≠ c.prog) : Verdict regs c args s s (.accepted .null .progUnavail)
  | noVers (h2 : c.rpcvers = 2) (h : ∃ r ∈ regs, r.prog = c.prog) (h' : ∀ r ∈ regs, ¬ (r.prog = c.prog ∧ r.vers = c.vers)) :
      Verdict regs c args s s (.accepted .null (.progMismatch 0 0))
  | noProc (h2 : c.rpcvers = 2) (h : ∃ r ∈ regs, r.prog = c.prog ∧ r.vers = c.vers) (h' : lastReg regs c.prog c.vers c.proc = none) :
      Verdict regs c args s s (.accepted .null .procUnavail)
  | failed {h : ProcHandler σ} {s' : σ} (h2 : c.rpcvers = 2) (hl : lastReg regs c.prog c.vers c.proc = some h)
      (hr : h.run (makeReader args) s = (s', none, true)) : Verdict regs c args s s' (.accepted .null .garbageArgs)
  | empty {h : ProcHandler σ} {s' : σ} (h2 : c.rpcvers = 2) (hl : lastReg regs c.prog c.vers c.proc = some h)
      (hr : h.run (makeReader args) s = (s', none, false)) : Verdict regs c args s s' (.accepted .null (.success []))
  | result {h : ProcHandler σ} {s' : σ} {d : Xdrable} {bytes : List UInt8} (h2 : c.rpcvers = 2)
      (hl : lastReg regs c.prog c.vers c.proc = some h) (hr : h.run (makeReader args) s = (s', some d, false)) (hd : Encodes d bytes) :
      Verdict regs c args s s' (.accepted .null (.success bytes))

/-- What is written for the request `b`: nothing if it is not a call or its result cannot be encoded, else one record
with the reply. -/
inductive Response (regs : List (ProcReg σ)) (b : List UInt8) (s : σ) : σ → List (List UInt8) → Prop
  | notCall (h : ¬ ∃ c args, IsCall c args b) : Response regs b s s []
  | lost {c : Call} {args : List UInt8} {h : ProcHandler σ} {s' : σ} {d : Xdrable} (hc : IsCall c args b) (h2 : c.rpcvers = 2)
      (hl : lastReg regs c.prog c.vers c.proc = some h) (hr : h.run (makeReader args) s = (s', some d, false)) (hd : Unencodable d) :
      Response regs b s s' []
  | reply {c : Call} {args : List UInt8} {s' : σ} {r : Reply} {m rec : List UInt8} (hc : IsCall c args b) (hv : Verdict regs c args s s' r)
      (hm : IsReply c.xid r m) (hr : IsRecord m rec) : Response regs b s s' [rec]

/-- The same for a list of requests, one after the other. -/
inductive Responses (regs : List (ProcReg σ)) : List (List UInt8) → σ → σ → List (List UInt8) → Prop
  | nil (s : σ) : Responses regs [] s s []
  | cons {b : List UInt8} {bs : List (List UInt8)} {s s' s'' : σ} {o os : List (List UInt8)} (h : Response regs b s s' o)
      (hs : Responses regs bs s' s'' os) : Responses regs (b :: bs) s s'' (o ++ os)

/-- The results of the handlers fit into a record. -/
def Modest (regs : List (ProcReg σ)) : Prop :=
  ∀ r ∈ regs, ∀ args s d bytes, (r.handler.run (makeReader args) s).2.1 = some d → Encodes d bytes → 24 + bytes.length < 2 ^ 31

theorem response_of {regs : List (ProcReg σ)} (ho : Orderly regs) (hm : Modest regs) (b : List UInt8) (s : σ) :
    Response regs b s ((handleReqErr (registerMany makeServer regs)).run b s).1
      (match ((handleReqErr (registerMany makeServer regs)).run b s).2 with | .ok m => [m] | .error _ => []) := by
  by_cases hc : ∃ c args, IsCall c args b
  swap
  · obtain ⟨e, he⟩ := C29_silent regs b s hc
    rw [he]
    exact .notCall hc
  obtain ⟨c, args, hb⟩ := hc
  have key : ∀ {s' r}, Answered ((handleReqErr (registerMany makeServer regs)).run b s) s' c.xid r → Verdict regs c args s s' r →
      Response regs b s ((handleReqErr (registerMany makeServer regs)).run b s).1
        (match ((handleReqErr (registerMany makeServer regs)).run b s).2 with | .ok m => [m] | .error _ => []) := by
    rintro s' r ⟨h1, m, rec, h2, h3, h4⟩ hv
    rw [h1, h2]
    exact .reply hb hv h3 h4
  obtain ⟨q1, q2, q3, q4, q5⟩ := C28_classify regs c args b hb s
  by_cases h2 : c.rpcvers = 2
  swap
  · exact key (q1 h2) (.version h2)
  by_cases hp : ∀ r ∈ regs, r.prog ≠ c.prog
  · exact key (q2 h2 hp) (.noProg h2 hp)
  have hp' : ∃ r ∈ regs, r.prog = c.prog := by simpa using hp
  by_cases hv : ∀ r ∈ regs, ¬ (r.prog = c.prog ∧ r.vers = c.vers)
  · exact key (q3 h2 hp' hv) (.noVers h2 hp' hv)
  have hv' : ∃ r ∈ regs, r.prog = c.prog ∧ r.vers = c.vers := by simpa using hv
  cases hl : lastReg regs c.prog c.vers c.proc with
  | none => exact key (q4 h2 hv' hl) (.noProc h2 hv' hl)
  | some h =>
    obtain ⟨rg, hrg, _, _, _, rfl⟩ := lastReg_mem hl
    have q6 := q5 _ h2 hl
    rcases hr : rg.handler.run (makeReader args) s with ⟨s', o, f⟩
    have o1 := ho rg hrg (makeReader args) s
    simp only [hr] at q6 o1
    cases o with
    | none =>
      cases f with
      | true => exact key (q6.1 rfl) (.failed h2 hl hr)
      | false => exact key (q6.2.1 rfl) (.empty h2 hl hr)
    | some d =>
      cases f with
      | true => cases o1.1 rfl
      | false =>
        rcases o1.2 d rfl with hu | ⟨t, ht⟩
        · have hout := handle_regs regs hb s
          rw [if_neg (by simpa using h2), if_neg hp, if_neg hv, hl] at hout
          simp only [hr] at hout
          obtain ⟨e, he⟩ := reply_unencodable (acceptedMsg_writer (zeros 4) c.xid (if false = true then 4 else 0)) hu
          rw [he] at hout
          rw [hout]
          exact .lost hb h2 hl hr hu
        · exact key (q6.2.2 d t rfl ht (hm rg hrg _ s d t (by rw [hr]) ht)) (.result h2 hl hr ht)

theorem responses_of {regs : List (ProcReg σ)} (ho : Orderly regs) (hm : Modest regs) : ∀ (bs : List (List UInt8)) (s : σ),
    Responses regs bs s (bs.foldl (Lang.serve (registerMany makeServer regs)) (s, [])).1
      (bs.foldl (Lang.serve (registerMany makeServer regs)) (s, [])).2
  | [], s => .nil s
  | b :: bs, s => by
    rw [List.foldl_cons]
    have h1 := response_of ho hm b s
    have h2 := responses_of ho hm bs ((handleReqErr (registerMany makeServer regs)).run b s).1
    simp only [Lang.serve, List.nil_append]
    generalize (handleReqErr (registerMany makeServer regs)).run b s = R at h1 h2 ⊢
    obtain ⟨y', o⟩ := R
    cases o with
    | error e => exact .cons h1 h2
    | ok m =>
      have h3 := serve_prefix (registerMany makeServer regs) bs y' [m] []
      rw [List.append_nil] at h3
      rw [h3]
      exact .cons h1 h2

/-! ### The text -/

attribute [local irreducible] wp handleReqErr

section
variable [Others]

/-- `sc.handleReq(b)` for a server with the registrations `regs`, `b` being less than 2^31 bytes (the records that `Run` reads
are).  The buffer is given back to the pool, so the only
cells that may have changed are those of the application (`app`), of the buffer and new ones. -/
theorem C55_request {E : Ext ω} {W : Wire ω} {k : Nat} {rw : V} (T : Transport E W rw) {I : (Nat → Prop) → St ω → σ → Prop} (A : App E rw I)
    (B : Back E W I) {st : St ω} {app : Nat → Prop} {y : σ} (hI : I app st y) {s : Shape} {regs : List (ProcReg σ)}
    (ht : Table (Handles E W (k + 7) I) st s (registerMany makeServer regs)) {c cs a : Nat} {b : V} {l : List UInt8}
    (hl : l.length < 2 ^ 31) (hc : st.heap c = connV "" cs rw) (hcs : st.heap cs = serverV s.top) (hb : BytesAt st a b l) (u1 : c < st.next) (u2 : cs < st.next)
    (u3 : a < st.next) (hac : ¬ app c) (haa : ¬ app a) (dca : c ≠ a) (ho : Orderly regs) (hm : Modest regs) :
    Ends E (k + 9) (.meth "rfc1057.serverConn" "handleReq") [.ptr "" ⟨c, []⟩, b] st fun r st' => r = [] ∧ ∃ y' out app',
      Response regs l y y' out ∧ I app' st' y' ∧ W.sent st'.world = W.sent st.world ++ out ∧ W.input st'.world = W.input st.world ∧
      (∀ j, j < st.next → ¬ app j → j ≠ a → st'.heap j = st.heap j) := by
  refine ends_iff.2 (wp_mono (handleReq_spec E W k T A B hI ht hl hc hcs hb u1 u2 u3 hac haa dca) ?_)
  rintro r st' ⟨rfl, h⟩
  obtain ⟨app', h1, _⟩ := h.inv
  exact ⟨rfl, _, _, app', response_of ho hm l y, h1, h.sent, h.input, h.frame⟩

/-- `srv := MakeServer(); srv.RegisterMany(regs); err := srv.Run(rw)`, on any bytes whatever, when each request is
handled before the next is read: `Run` comes to an end, the error tells how the stream ended, and what is written are
the responses to the records of the stream, in order.  (`loops` bounds the number of iterations considered.) -/
theorem C56_connection {E : Ext ω} {W : Wire ω} {k : Nat} {rw : V} (T : Transport E W rw) {I : (Nat → Prop) → St ω → σ → Prop} (A : App E rw I)
    (B : Back E W I) (F : Front E W rw I) {st : St ω} {app : Nat → Prop} {y : σ} (hI : I app st y) {rv : V} {regs : List (ProcReg σ)}
    (hr : RegsAt (Handles E W (k + 7) I) st rv regs) (ho : Orderly regs) (hm : Modest regs)
    (hl : (W.input st.world).flatten.length < E.loops) {ms : List (List UInt8)} {e : StreamEnd} (hs : Stream (W.input st.world).flatten ms e) :
    ∃ v x st' y' out app', serverMain (atOnce E (k + 9)) rv rw st = .ok ([v], st') ∧ RunRel v x ∧ Reported e x ∧
      Responses regs ms y y' out ∧ I app' st' y' ∧ W.sent st'.world = W.sent st.world ++ out := by
  obtain ⟨x, hx, hrun⟩ := runN_stream hs
  obtain ⟨r, st', h1, v, rfl, h2, ⟨app', h3⟩, h4⟩ := wp_iff.1 (serverMain_spec T A B F hI hr (hrun E.loops _ rfl hl))
  exact ⟨v, x, st', _, _, app', h1, h2, hx, responses_of ho hm ms y, h3, h4⟩

end

/-! ### A concrete case: the server of C28, a call of procedure 3 in two pieces, garbage, and the end -/

attribute [local instance] noOthers

def demoReg (proc : UInt32) (i : Nat) : V :=
  .struct "xdr.ProcRegistration" [("Prog", .u32 7), ("Vers", .u32 1), ("Proc", .u32 proc), ("Handler", .obj i)]

/-- The counter 37 is in the cell 0 and the registrations are in the cell 1. -/
def start56 (input : Chunks) : St Net :=
  { heap := fun j => if j = 0 then .u32 37 else .vals [demoReg 3 2, demoReg 4 2, demoReg 3 1]
    next := 2, world := ⟨input, [], true, none, []⟩, defers := [] }

def demoRequests : Chunks :=
  [[128, 0, 0, 52] ++ (callBytes (demoCall 3) [0, 0, 0, 5]).take 20, (callBytes (demoCall 3) [0, 0, 0, 5]).drop 20 ++ [128, 0, 0, 3, 1], [2, 3]]

theorem inv56 (input : Chunks) : NetInv (· = 0) (start56 input) 37 where
  counter := rfl
  lt := by show 0 < 2; decide
  pool := fun s h => by cases h
  cells := fun j => ⟨.inl, fun h => by rcases h with h | ⟨s, h, _⟩; exact h; cases h⟩

theorem regs56 (input : Chunks) : RegsAt (Handles net netWire 7 NetInv) (start56 input) (.slice ⟨⟨1, []⟩, 0, 3, 3⟩) demoRegs :=
  .slice (l := [demoReg 3 2, demoReg 4 2, demoReg 3 1]) rfl (by show 1 < 2; decide)
    (.cons ⟨_, net_fail 7, rfl⟩ (.cons ⟨_, net_fail 7, rfl⟩ (.cons ⟨_, net_add 4, rfl⟩ .nil)))

theorem demoRegs_orderly : Orderly demoRegs := by
  intro r hr rd s
  simp only [demoRegs, List.mem_cons, List.not_mem_nil, or_false] at hr
  rcases hr with rfl | rfl | rfl
  · simp [Proc.run]
  · simp [Proc.run]
  · simp only [addHandler, Proc.run_atom]
    split
    · simp
    · refine ⟨by simp, fun d hd => ?_⟩
      cases hd
      exact .inr ⟨be 4 (s + (xdrU32 rd 0).2).toNat, fun w => by simp only [u32_writer]⟩

theorem demoRegs_modest : Modest demoRegs := by
  intro r hr args s d bytes
  simp only [demoRegs, List.mem_cons, List.not_mem_nil, or_false] at hr
  rcases hr with rfl | rfl | rfl
  · simp [Proc.run]
  · simp [Proc.run]
  · simp only [addHandler, Proc.run_atom]
    split
    · simp
    · intro hd he
      cases hd
      have := he []
      simp only [u32_writer, List.nil_append] at this
      have := congrArg XdrState.buf this
      simp only [makeWriter] at this
      rw [← this, be_length]
      decide

theorem demoStream : Stream demoRequests.flatten [callBytes (demoCall 3) [0, 0, 0, 5], [1, 2, 3]] .clean :=
  .record (callBytes (demoCall 3) [0, 0, 0, 5]) ([128, 0, 0, 52] ++ callBytes (demoCall 3) [0, 0, 0, 5]) [128, 0, 0, 3, 1, 2, 3] _ _
    ⟨by decide +kernel, by decide +kernel⟩ (.record [1, 2, 3] [128, 0, 0, 3, 1, 2, 3] [] _ _ ⟨by decide, by decide⟩ .clean)

/-- The hypotheses of C56 hold of it. -/
example : ∃ v x st' y' out app', serverMain (atOnce net 9) (.slice ⟨⟨1, []⟩, 0, 3, 3⟩) (.obj 0) (start56 demoRequests) = .ok ([v], st') ∧ RunRel v x ∧
    Reported .clean x ∧ Responses demoRegs [callBytes (demoCall 3) [0, 0, 0, 5], [1, 2, 3]] 37 y' out ∧ NetInv app' st' y' ∧
    st'.world.sent = out := by
  obtain ⟨v, x, st', y', out, app', h1, h2, h3, h4, h5, h6⟩ := C56_connection (k := 0) net_transport net_app net_back net_front
    (inv56 demoRequests) (regs56 demoRequests) demoRegs_orderly demoRegs_modest (by decide +kernel) demoStream
  exact ⟨v, x, st', y', out, app', h1, h2, h3, h4, h5, h6⟩

/-- And this is what the text does, step by step: 42 is answered to transaction 99, and `Run` returns `io.EOF`. -/
example : (match serverMain (atOnce net 9) (.slice ⟨⟨1, []⟩, 0, 3, 3⟩) (.obj 0) (start56 demoRequests) with
      | .ok ([.err m []], st) => some (m, st.world.sent)
      | _ => none) =
    some (strBytes "EOF", [[128, 0, 0, 28, 0, 0, 0, 99, 0, 0, 0, 1, 0, 0, 0, 0, 0, 0, 0, 0, 0, 0, 0, 0, 0, 0, 0, 0, 0, 0, 0, 42]]) := by
  decide +kernel

end Verif.Props
