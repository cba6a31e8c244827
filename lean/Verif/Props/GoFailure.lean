/-
PROPERTY C70: the texts of client and server together, for calls that cannot be served.
-/
import Verif.Props.GoRemote

namespace Verif.Props
open Verif.Xdr Verif.Spec Verif.Gen Verif.Rpc Verif.Lang Verif.Lang.Text

variable {ω ω' σ τ τ' : Type}

/-- A server with the registrations `regs`, in state `s`, cannot serve procedure `proc` of version `vers` of program `prog`
with the argument bytes `args`; its state becomes `s'`, and `accept_stat` of its reply is `code` (RFC 1057 §8: PROG_UNAVAIL is
1, PROG_MISMATCH 2, PROC_UNAVAIL 3 and GARBAGE_ARGS 4).  The state changes only if a handler was run. -/
inductive CannotServe (regs : List (ProcReg σ)) (prog vers proc : UInt32) (args : List UInt8) (s : σ) : σ → UInt32 → Prop
  | prog (h : ∀ r ∈ regs, r.prog ≠ prog) : CannotServe regs prog vers proc args s s 1
  | vers (h : ∃ r ∈ regs, r.prog = prog) (h' : ∀ r ∈ regs, ¬ (r.prog = prog ∧ r.vers = vers)) : CannotServe regs prog vers proc args s s 2
  | proc (h : ∃ r ∈ regs, r.prog = prog ∧ r.vers = vers) (h' : ∀ r ∈ regs, ¬ (r.prog = prog ∧ r.vers = vers ∧ r.proc = proc)) :
    CannotServe regs prog vers proc args s s 3
  | args {hd : ProcHandler σ} {s' : σ} (h : lastReg regs prog vers proc = some hd) (h' : hd.run (makeReader args) s = (s', none, true)) :
    CannotServe regs prog vers proc args s s' 4

/-- The arm of the reply. -/
def refusal (code : UInt32) : Accept :=
  if code = 1 then .progUnavail else if code = 2 then .progMismatch 0 0 else if code = 3 then .procUnavail else .garbageArgs

theorem CannotServe.code {regs : List (ProcReg σ)} {prog vers proc : UInt32} {args : List UInt8} {s s' : σ} {code : UInt32}
    (h : CannotServe regs prog vers proc args s s' code) : code = 1 ∨ code = 2 ∨ code = 3 ∨ code = 4 := by
  cases h <;> simp

theorem CannotServe.answered {regs : List (ProcReg σ)} {c : Spec.Call} {args b : List UInt8} {s s' : σ} {code : UInt32}
    (h : CannotServe regs c.prog c.vers c.proc args s s' code) (hb : IsCall c args b) (hv : c.rpcvers = 2) :
    Answered ((handleReqErr (registerMany makeServer regs)).run b s) s' c.xid (.accepted .null (refusal code)) := by
  obtain ⟨-, k1, k2, k3, k4⟩ := C28_classify regs c args b hb s
  cases h with
  | prog h => exact k1 hv h
  | vers h h' => exact k2 hv h h'
  | proc h h' =>
    refine k3 hv h ?_
    cases hl : lastReg regs c.prog c.vers c.proc with
    | none => rfl
    | some hd =>
      obtain ⟨r, hr, e1, e2, e3, -⟩ := lastReg_mem hl
      exact absurd ⟨e1, e2, e3⟩ (h' r hr)
  | args h h' =>
    have := (k4 _ hv h).1
    rw [h'] at this
    exact this rfl

/-- What the client makes of such a reply. -/
theorem parseReply_refusal {xid : UInt32} {buf : List UInt8} {code : UInt32} (resp : Recv τ) (r : τ)
    (hc : code = 1 ∨ code = 2 ∨ code = 3 ∨ code = 4) (h : IsReply xid (.accepted .null (refusal code)) buf) :
    parseReply xid buf resp r = (some (.acceptStat code), r) := by
  obtain ⟨wv, hv, rfl⟩ := h
  have h0 : be 4 0 = be 4 (0 : UInt32).toNat := rfl
  have h1 : be 4 1 = be 4 (1 : UInt32).toNat := rfl
  have h2 : be 4 2 = be 4 (2 : UInt32).toNat := rfl
  have h3 : be 4 3 = be 4 (3 : UInt32).toNat := rfl
  have h4 : be 4 4 = be 4 (4 : UInt32).toNat := rfl
  have hb : ∀ x : UInt32, ∀ y, xdrU32 (makeReader (be 4 x.toNat)) y = (makeReader [], x) := fun x y => by
    have := u32_be x y []
    rwa [List.append_nil] at this
  rcases hc with rfl | rfl | rfl | rfl
  all_goals
    simp [refusal, parseReply, Accept.bytes, RpcMsg.xdr, ReplyBody.xdr, AcceptedReply.xdr, Mismatch.xdr, u32_be, h0, h1, h2, h3, h4, hb, auth_reader hv]
    try simp [makeReader]

section
variable [Others]

attribute [local irreducible] wp handleReqErr

/-- One exchange between the text of `Call` and the text of `MakeServer`, `RegisterMany` and `Run` that fails because the
server does not have the program, the version or the procedure, or because the handler finds the arguments wrong.  There
are bytes `req` and `rep` so that:

* `Call` writes `req`, whatever it will receive;
* the server that receives `req`, in any pieces, and then the end of the connection writes `rep` and returns `io.EOF`; the
  handlers' state is as before, unless a handler was run and changed it;
* `Call`, when it receives `rep` in any pieces, and whatever follows, returns the error with the code of the failure,
  leaves the result variable as it was and does not consume what follows; the client is ready for the next call, and no cell
  but those of the client, the arguments and the result has changed. -/
theorem C70_failure {E : Ext ω} {W : Wire ω} {k : Nat} {rw av rv cv fv : V} {ownA ownR : Nat → Prop} {RA : St ω → τ' → Prop}
    {RR RR' : St ω → τ → Prop} {fa : XdrState → τ' → XdrState} {fr : XdrState → τ → XdrState × τ} {c : Nat} {cl : Client}
    {cred verf : OpaqueAuth} {ya : τ'} {yr : τ}
    {E' : Ext ω'} {W' : Wire ω'} {k' : Nat} {rw' : V} (T : Transport E' W' rw') {regs : List (ProcReg σ)} (proc : UInt32) {abytes : List UInt8}
    (h1 : goLen cred.body ≤ 400) (h2 : goLen verf.body ≤ 400) (ha : Encodes (fun xs => fa xs ya) abytes)
    (hlen : 840 + abytes.length < 2 ^ 31) {y y' : σ} {code : UInt32} (hf : CannotServe regs cl.prog cl.vers proc abytes y y' code) :
    ∃ req rep, req.length < 2 ^ 32 ∧
      (∀ st, CallSite E W k rw av rv cv fv ownA ownR RA RR RR' fa fr c cl cred verf ya yr st →
        Ends E (k + 8) (.meth "rfc1057.Client" "Call") [.ptr "" ⟨c, []⟩, .u32 proc, cv, fv, av, rv] st fun _ st' =>
          W.sent st'.world = W.sent st.world ++ [req]) ∧
      (∀ I : (Nat → Prop) → St ω' → σ → Prop, App E' rw' I → Back E' W' I → Front E' W' rw' I → ∀ st app rv', I app st y →
        RegsAt (Handles E' W' (k' + 7) I) st rv' regs → (W'.input st.world).flatten = req → req.length < E'.loops →
        ∃ st' app', serverMain (atOnce E' (k' + 9)) rv' rw' st = .ok ([ioErr .eof], st') ∧ I app' st' y' ∧
          (W'.sent st'.world).flatten = (W'.sent st.world).flatten ++ rep) ∧
      (∀ st rest, CallSite E W k rw av rv cv fv ownA ownR RA RR RR' fa fr c cl cred verf ya yr st → W.ok st.world = true →
        (W.input st.world).flatten = rep ++ rest →
        Ends E (k + 8) (.meth "rfc1057.Client" "Call") [.ptr "" ⟨c, []⟩, .u32 proc, cv, fv, av, rv] st fun r st' =>
          r = [.err (strBytes "accept_stat %d") [.u32 code]] ∧ Holds RR RR' yr st' yr ∧ (W.input st'.world).flatten = rest ∧
          W.sent st'.world = W.sent st.world ++ [req] ∧ st'.heap c = clientV rw { cl with xid := cl.xid + 1 } ∧
          ∀ j, j < st.next → j ≠ c → ¬ ownA j → ¬ ownR j → st'.heap j = st.heap j) := by
  have hreq := callRequest_ok { cl with xid := cl.xid + 1 } proc cred verf (fun xs => fa xs ya) h1 h2 ha
  generalize hm : callBytes (Client.header { cl with xid := cl.xid + 1 } proc cred verf) abytes = m at hreq
  have hmlen : m.length < 2 ^ 31 := by
    have := call_length { cl with xid := cl.xid + 1 } proc cred verf abytes h1 h2
    rw [hm] at this; omega
  have hrec := record_of_small hmlen
  generalize be 4 (2 ^ 31 + m.length % 2 ^ 31) ++ m = req at hreq hrec
  have hcall : IsCall (Client.header { cl with xid := cl.xid + 1 } proc cred verf) abytes m := by
    rw [← hm]
    have hg : ∀ b : GoBytes, (goElems b).length = goLen b := by intro b; cases b <;> rfl
    exact callBytes_isCall (by simpa [Client.header, authOf, hg] using h1)
      (by simpa [Client.header, authOf, hg] using h2) _
  obtain ⟨hst, rm, rep, hok, hrep, hreprec⟩ := CannotServe.answered (c := Client.header { cl with xid := cl.xid + 1 } proc cred verf) hf hcall rfl
  refine ⟨req, rep, ?_, fun st h => ?_, fun I A B F st app rv' hI hreg hin hloop => ?_, fun st rest h hwok hin => ?_⟩
  rotate_left 1
  · refine (h.ends proc).mono ?_
    rintro r st' ⟨e, rfl, he⟩
    rw [he.sent, call_sent _ _ _ _ _ _ _ _ _ hreq]
    rfl
  · have hs := reported_clean hrec hin
    obtain ⟨x, hx, hrun⟩ := runN_stream hs
    obtain ⟨r, st', g1, v, rfl, g2, ⟨app', g3⟩, g4⟩ := wp_iff.1 (serverMain_spec (k := k') T A B F hI hreg (hrun E'.loops _ rfl (by rw [hin]; exact hloop)))
    simp only [List.foldl_cons, List.foldl_nil, Lang.serve, hok, hst, List.nil_append] at g3 g4
    cases hx
    cases g2
    exact ⟨st', app', g1, g3, by rw [g4]; simp⟩
  · refine (h.ends proc).mono ?_
    rintro r st' ⟨e, rfl, he⟩
    rw [hwok] at he
    obtain ⟨cs, hr, hcs⟩ := readRequest_record hreprec hin
    have hcl : cl.call proc cred verf (fun xs => fa xs ya) fr yr true (W.input st.world) =
        ⟨{ cl with xid := cl.xid + 1 }, some req, some (.acceptStat code), yr, cs⟩ := by
      simp only [Client.call, hreq, if_true, readReply_ok.mpr hr]
      rw [parseReply_refusal (xid := cl.xid + 1) fr yr hf.code hrep]
    rw [hcl] at he
    refine ⟨?_, he.resp.imp (fun h => h st' (fun _ _ => rfl) (Nat.le_refl _)) id, by rw [he.input]; exact hcs, by rw [he.sent]; rfl, he.client, he.frame⟩
    have := he.err
    cases this with
    | accept s => rfl
  · obtain ⟨g1, g2⟩ := hrec
    rw [g2, List.length_append, be_length]
    omega

end

/-! ### Generated packages -/

/-- A server of version `v` of program `p` does not have procedure `proc` of version `vers` of program `prog`. -/
inductive NotThere (p : ProgDef) (v : ProgVer) (prog vers proc : UInt32) : UInt32 → Prop
  | prog (h : p.id ≠ prog.toNat) : NotThere p v prog vers proc 1
  | vers (h : p.id = prog.toNat) (h' : v.id ≠ vers.toNat) : NotThere p v prog vers proc 2
  | proc (h : p.id = prog.toNat) (h' : v.id = vers.toNat) (h'' : ∀ c ∈ v.calls, c.id ≠ proc.toNat) : NotThere p v prog vers proc 3

/-- The variable in the cell `t`, of the type of a result, has the value `r`. -/
def KeptIn (o : TypespecOpt) (t : Nat) (r : GoVal) (st : St ω) : Prop :=
  match o with
  | some (.ident _) => HasValue st t r
  | _ => True

/-- A remote call of procedure `c` by a client whose program, version or procedure the server does not have.  There are bytes `req` and
`rep` so that:

* `Call` writes `req`, whatever it will receive;
* the server of version `v` of program `p` that receives `req`, in any pieces, and then the end of the connection, runs no method, writes
  `rep` and returns `io.EOF`;
* `Call`, when it receives `rep` in any pieces, and whatever follows, returns the error that has the code of the failure; the result
  variable has its old value, and what follows is not consumed; the client is ready for the next call, and no other variable has changed. -/
def Unserved [Others] (X : Ext ω) (W : Wire ω) (rw : V) (X' : Ext ω') (W' : Wire ω') (rw' : V) (I : (Nat → Prop) → St ω' → σ → Prop) (E : Spec.Env) (q : Pkg)
    (p : ProgDef) (v : ProgVer) (c : ProgCall) (h : Nat) : Prop :=
  ∀ (cl : Client) (code : UInt32), NotThere p v cl.prog cl.vers (UInt32.ofNat c.id) code →
    ∀ (cred verf : OpaqueAuth), goLen cred.body ≤ 400 → goLen verf.body ≤ 400 →
    ∀ (a : Option GoVal) (x : Option XVal), Stands E c.arg a x → 840 + (encO x).length < 2 ^ 31 →
    ∀ (r0 : GoVal), Target E c.res r0 → ∀ (own : Nat → Prop) (ta tr cc : Nat) (cv fv : V), own ta →
    ∃ N, ∀ k, N ≤ k → ∀ (y : σ), ∃ req rep,
      (∀ st : St ω, Calling rw c cc cl own ta a tr r0 cv fv cred verf st →
        Ends X k (.meth "rfc1057.Client" "Call") [.ptr "" ⟨cc, []⟩, .u32 (UInt32.ofNat c.id), cv, fv, addrOf q c.arg ta, addrOf q c.res tr] st fun _ st' =>
          W.sent st'.world = W.sent st.world ++ [req]) ∧
      (∀ (st : St ω') app, I app st y → (W'.input st.world).flatten = req →
        ∃ rv st1 st' app', callN goProg X' k (.fn q.name (versName p v "_regs")) [.obj h] st = .ok ([rv], st1) ∧
          serverMain (atOnce X' k) rv rw' st1 = .ok ([ioErr .eof], st') ∧ I app' st' y ∧
          (W'.sent st'.world).flatten = (W'.sent st.world).flatten ++ rep) ∧
      (∀ (st : St ω) rest, Calling rw c cc cl own ta a tr r0 cv fv cred verf st → W.ok st.world = true → (W.input st.world).flatten = rep ++ rest →
        Ends X k (.meth "rfc1057.Client" "Call") [.ptr "" ⟨cc, []⟩, .u32 (UInt32.ofNat c.id), cv, fv, addrOf q c.arg ta, addrOf q c.res tr] st fun r st' =>
          r = [.err (strBytes "accept_stat %d") [.u32 code]] ∧ KeptIn c.res tr r0 st' ∧ (W.input st'.world).flatten = rest ∧
          W.sent st'.world = W.sent st.world ++ [req] ∧ st'.heap cc = clientV rw { cl with xid := cl.xid + 1 } ∧
          ∀ j, j < st.next → j ≠ cc → ¬ own j → j ≠ tr → st'.heap j = st.heap j)

theorem NotThere.cannot {p : ProgDef} {v : ProgVer} {prog vers proc code : UInt32} (h : NotThere p v prog vers proc code) {regs : List (ProcReg σ)}
    (hn : regs.map (fun r => (r.prog.toNat, r.vers.toNat, r.proc.toNat)) = v.calls.map fun c => (p.id, v.id, c.id)) (hne : v.calls ≠ [])
    (args : List UInt8) (s : σ) : CannotServe regs prog vers proc args s s code := by
  have hall : ∀ r ∈ regs, r.prog.toNat = p.id ∧ r.vers.toNat = v.id ∧ ∃ c ∈ v.calls, r.proc.toNat = c.id := by
    intro r hr
    have : (r.prog.toNat, r.vers.toNat, r.proc.toNat) ∈ v.calls.map fun c => (p.id, v.id, c.id) := by
      rw [← hn]; exact List.mem_map_of_mem hr
    obtain ⟨c, hc, he⟩ := List.mem_map.1 this
    simp only [Prod.mk.injEq] at he
    exact ⟨he.1.symm, he.2.1.symm, c, hc, he.2.2.symm⟩
  obtain ⟨r, hr⟩ : ∃ r, r ∈ regs := by
    cases regs with
    | nil => cases hv : v.calls with
      | nil => exact absurd hv hne
      | cons c cs => rw [hv] at hn; cases hn
    | cons r rs => exact ⟨r, List.mem_cons_self⟩
  obtain ⟨e1, e2, -⟩ := hall r hr
  cases h with
  | prog h => exact .prog fun r hr e => h (by rw [← e, (hall r hr).1])
  | vers h h' => exact .vers ⟨r, hr, UInt32.toNat_inj.1 (e1.trans h)⟩ fun r hr e => h' (by rw [← e.2, (hall r hr).2.1])
  | proc h h' h'' =>
    refine .proc ⟨r, hr, UInt32.toNat_inj.1 (e1.trans h), UInt32.toNat_inj.1 (e2.trans h')⟩ fun r hr e => ?_
    obtain ⟨-, -, c, hc, e3⟩ := hall r hr
    exact h'' c hc (by rw [← e3, e.2.2])

section
variable [Others] {fl : Flags} {s : Gen.Spec} {g : GoProg} {vs : List GoVers} {q : Pkg} (G : Generated fl s g vs q)
  (hq : Has (rpcPkg :: Others.ps) (typedPkg q)) (X : Ext ω) (hX : 2 ^ 32 ≤ X.loops) (X' : Ext ω') (hX' : 2 ^ 32 ≤ X'.loops)

local notation "𝓔" => envOf fl.unsignedEnum s

attribute [local irreducible] wp callN

include G hq hX hX' in
/-- **C70** A procedure of any generated program is called at the server of any other, or of another version, or of one without
such a procedure. -/
theorem C70_call {W : Wire ω} {rw : V} (T : Transport X W rw) {W' : Wire ω'} {rw' : V} (T' : Transport X' W' rw') {I : (Nat → Prop) → St ω' → σ → Prop}
    (A : App X' rw' I) (B : Back X' W' I) (F : Front X' W' rw' I) {p : ProgDef} (hp : .program p ∈ s) {v : ProgVer} (hv : v ∈ p.vers) (hne : v.calls ≠ [])
    {d h : Nat} {hi : Impl σ} (O : Object X' W' I 𝓔 d v h hi) (hI : Implements 𝓔 hi v)
    {p' : ProgDef} (hp' : .program p' ∈ s) {v' : ProgVer} (hv' : v' ∈ p'.vers) {c : ProgCall} (hc : c ∈ v'.calls) :
    Unserved X W rw X' W' rw' I 𝓔 q p v c h := by
  intro cl code hcode cred verf h1 h2 a x ha hlen r0 hr0 own ta tr cc cv fv hta
  have hs := supported_of G.comp
  have hok := callable_of G hp'
  obtain ⟨regs, hr, N1, hN1⟩ := C67_regs G hq X' hX' A hp hv O hI
  obtain ⟨henc, -⟩ := arg_encodes G.gen hs ha
  have hnm : c.res.all (Named 𝓔) = true := by
    simp only [callable, Bool.and_eq_true, decide_eq_true_eq, List.all_eq_true] at hok
    exact ((hok.2 v' hv').2 c hc).2
  obtain ⟨N2, hN2⟩ := Calling.site G hq X hX T ha hnm hr0 own ta tr hta
  refine ⟨N1 + N2 + 20, fun k hk y => ?_⟩
  obtain ⟨k, rfl⟩ : ∃ k', k = k' + 9 := ⟨k - 9, by omega⟩
  have hsite := fun st => hN2 (k + 1) (by omega) st cc cl cv fv cred verf
  obtain ⟨req, rep, q0, q1, q2, q3⟩ := C70_failure (E := X) (W := W) (k := k + 1) (rw := rw) (av := addrOf q c.arg ta) (rv := addrOf q c.res tr)
    (cv := cv) (fv := fv) (ownA := own) (ownR := (· = tr)) (RA := fun st (_ : Unit) => ArgVar c.arg own ta a st)
    (RR := fun st r => r = r0 ∧ ResVar c.res tr r st) (RR' := fun st r => match c.res with | some (.ident _) => HasValue st tr r | _ => True)
    (fa := fun xs _ => argObj g c a xs) (fr := resObj g c) (c := cc) (cl := cl) (cred := cred) (verf := verf) (ya := ()) (yr := r0) (k' := k)
    T' (UInt32.ofNat c.id) h1 h2 henc hlen (hcode.cannot hr.numbers hne (encO x) y)
  refine ⟨req, rep, fun st hst => q1 st (hsite st hst), fun st app hI0 hin => ?_, fun st rest hst hwok hin => ?_⟩
  · obtain ⟨rv, o, st1, app1, e1, e2, e3, -, e5⟩ := hN1 (k + 7) (by omega) st app y hI0 (k + 8)
    obtain ⟨st', app', f1, ⟨app2, f2, -⟩, f3⟩ := q2 _ (Beside.app T' A o _) (Beside.back B o _) (Beside.front T' F o _) st1 app1 rv e3 e2 (by rw [e5]; exact hin) (by omega)
    exact ⟨rv, st1, st', app2, e1, f1, f2, by rw [f3, e5]⟩
  · refine (q3 st rest (hsite st hst) hwok hin).mono ?_
    rintro r st' ⟨rfl, g2, g3, g5, g6, g7⟩
    refine ⟨rfl, ?_, g3, g5, g6, g7⟩
    unfold KeptIn
    unfold Holds ResVar at g2
    cases hn : c.res with
    | none => trivial
    | some t =>
      rw [hn] at g2
      cases t with
      | ident n =>
        rcases g2 with g2 | ⟨⟨-, g2, g4⟩, -⟩
        · exact g2
        · exact ⟨g2, Rep.mono g4 (fun _ h => h.elim) (Nat.le_refl _) fun _ h => h.elim⟩
      | _ => trivial

end

/-- **C70** So it is with the package that the text of the generator leaves. -/
theorem C70_files [Others] {A : Lr} {sys : Sys} {fl : ToolFlags} {fs : Tool.FS} {s : Gen.Spec} {grow : Nat → Nat → Nat} {loops k : Nat} {q : Pkg}
    (R : SpecFile A sys fl fs s) (hm : succeeds (runTool A sys fl grow loops (k + 2) fs))
    (ho : outPkg fl.args (endFiles (runTool A sys fl grow loops (k + 2) fs)) = some q) (hq : Has (rpcPkg :: Others.ps) (typedPkg q))
    (X : Ext ω) (hX : 2 ^ 32 ≤ X.loops) (X' : Ext ω') (hX' : 2 ^ 32 ≤ X'.loops)
    {W : Wire ω} {rw : V} (T : Transport X W rw) {W' : Wire ω'} {rw' : V} (T' : Transport X' W' rw') {I : (Nat → Prop) → St ω' → σ → Prop}
    (A : App X' rw' I) (B : Back X' W' I) (F : Front X' W' rw' I) {p : ProgDef} (hp : .program p ∈ s) {v : ProgVer} (hv : v ∈ p.vers) (hne : v.calls ≠ [])
    {d h : Nat} {hi : Impl σ} (O : Object X' W' I (envOf fl.gen.unsignedEnum s) d v h hi) (hI : Implements (envOf fl.gen.unsignedEnum s) hi v)
    {p' : ProgDef} (hp' : .program p' ∈ s) {v' : ProgVer} (hv' : v' ∈ p'.vers) {c : ProgCall} (hc : c ∈ v'.calls) :
    Unserved X W rw X' W' rw' I (envOf fl.gen.unsignedEnum s) q p v c h := by
  obtain ⟨g, vs, G⟩ := C66_files R hm ho
  exact C70_call G hq X hX X' hX' T T' A B F hp hv hne O hI hp' hv' hc

/-! ### Concrete cases -/

section
attribute [local instance] noOthers

/-- The server of C28 has procedures 3 and 4 of version 1 of program 7, and procedure 4 always fails. -/
example : CannotServe demoRegs 8 1 3 [0, 0, 0, 5] (37 : UInt32) 37 1 := .prog (by simp [demoRegs])
example : CannotServe demoRegs 7 2 3 [0, 0, 0, 5] (37 : UInt32) 37 2 := .vers (by simp [demoRegs]) (by simp [demoRegs])
example : CannotServe demoRegs 7 1 5 [0, 0, 0, 5] (37 : UInt32) 37 3 := .proc (by simp [demoRegs]) (by simp [demoRegs])
example : CannotServe demoRegs 7 1 4 [0, 0, 0, 5] (37 : UInt32) 37 4 := .args (hd := .ret (none, true)) rfl (by simp [Proc.run])

/-- The hypotheses of C70 hold of it: the client of C54 calls procedure 5. -/
example : ∃ req rep,
    (∀ st, CallSite net netWire 0 (.obj 0) (.ptr "xdr.Uint32" ⟨0, []⟩) (.ptr "xdr.Uint32" ⟨1, []⟩) noAuth noAuth (· = 0) (· = 1)
        (fun st y => 0 < st.next ∧ st.heap 0 = .u32 y) (fun st y => 1 < st.next ∧ st.heap 1 = .u32 y)
        (fun st y => st.heap 1 = .u32 y) (fun xs y => (xdrU32 xs y).1) xdrU32 2 ⟨98, 7, 1⟩ .zero .zero 5 0 st →
      Ends net 8 (.meth "rfc1057.Client" "Call")
        [.ptr "" ⟨2, []⟩, .u32 5, noAuth, noAuth, .ptr "xdr.Uint32" ⟨0, []⟩, .ptr "xdr.Uint32" ⟨1, []⟩] st fun _ st' =>
          st'.world.sent = st.world.sent ++ [req]) ∧
    (req.length < 1000 → ∃ st' app', serverMain (atOnce net 9) (.slice ⟨⟨1, []⟩, 0, 3, 3⟩) (.obj 0) (start56 [req]) = .ok ([ioErr .eof], st') ∧
      NetInv app' st' 37 ∧ st'.world.sent.flatten = rep) := by
  obtain ⟨req, rep, -, q1, q2, -⟩ := C70_failure (E := net) (W := netWire) (k := 0) (rw := .obj 0) (av := .ptr "xdr.Uint32" ⟨0, []⟩)
    (rv := .ptr "xdr.Uint32" ⟨1, []⟩) (cv := noAuth) (fv := noAuth) (ownA := (· = 0)) (ownR := (· = 1))
    (RA := fun st y => 0 < st.next ∧ st.heap 0 = .u32 y)
    (RR := fun st y => 1 < st.next ∧ st.heap 1 = .u32 y) (RR' := fun st y => st.heap 1 = .u32 y) (fa := fun xs y => (xdrU32 xs y).1) (fr := xdrU32)
    (c := 2) (cl := ⟨98, 7, 1⟩) (cred := .zero) (verf := .zero) (ya := (5 : UInt32)) (yr := (0 : UInt32)) (k' := 0)
    net_transport (regs := demoRegs) 5 (abytes := [0, 0, 0, 5]) (by decide) (by decide)
    (fun w => by simp only [u32_writer]; rfl) (by decide) (y := (37 : UInt32)) (.proc (by simp [demoRegs]) (by simp [demoRegs]))
  refine ⟨req, rep, fun st h => q1 st h, fun h => ?_⟩
  obtain ⟨st', app', h1, h2, h3⟩ := q2 _ net_app net_back net_front (start56 [req]) (· = 0) _ (inv56 _) (regs56 _) (by simp [start56, netWire]) h
  exact ⟨st', app', h1, h2, by simpa [start56, netWire] using h3⟩

/-- And this is what the texts do, step by step, with procedure `proc`: the request, the reply to it, and what the client has then. -/
def failure70 (proc : UInt32) : Option (List UInt8 × UInt32 × UInt32) :=
  let call := callN goProg net 8 (.meth "rfc1057.Client" "Call")
    [.ptr "" ⟨2, []⟩, .u32 proc, noAuth, noAuth, .ptr "xdr.Uint32" ⟨0, []⟩, .ptr "xdr.Uint32" ⟨1, []⟩]
  let site : Chunks → St Net := fun input => { start54 with world := ⟨input, [], true, none, []⟩ }
  match call (site []) with
  | .ok (_, st) =>
    match serverMain (atOnce net 9) (.slice ⟨⟨1, []⟩, 0, 3, 3⟩) (.obj 0) (start56 st.world.sent) with
    | .ok (_, st2) =>
      match call (site st2.world.sent) with
      | .ok ([.err m [.u32 code]], st3) => match st3.heap 1 with
        | .u32 u => some (m, code, u)
        | _ => none
      | _ => none
    | _ => none
  | _ => none

example : failure70 5 = some (strBytes "accept_stat %d", 3, 0) ∧ failure70 4 = some (strBytes "accept_stat %d", 4, 0) := by
  decide +kernel

end

section
attribute [local instance] withPmap

/-- The hypotheses of C70 hold of the port mapper: procedure 3 of version 3, called at the server of version 2. -/
example (u : UInt32) : ∃ k req rep,
    (∀ input st, st = { remoteSt u input with heap := fun j => if j = 2 then clientV (.obj 0) ⟨98, 100000, 3⟩ else (remoteSt u input).heap j } →
      Ends pmapNet k (.meth "rfc1057.Client" "Call") [.ptr "" ⟨2, []⟩, .u32 3, noAuth, noAuth, .ptr "pmap.Mapping" ⟨0, []⟩, .ptr "pmap.Uint32" ⟨1, []⟩]
        st fun r st' => st'.world.sent = [req] ∧ (input = [rep] → r = [.err (strBytes "accept_stat %d") [.u32 2]] ∧ HasValue st' 1 (.u32 0))) ∧
    (∃ rv st1 st' app', callN goProg pmapNet k (.fn "pmap" "PMAP_PROG_PMAP_VERS_regs") [.obj 7] (pmapSt [req]) = .ok ([rv], st1) ∧
      serverMain (atOnce pmapNet k) rv (.obj 0) st1 = .ok ([ioErr .eof], st') ∧ NetInv app' st' 37 ∧ st'.world.sent.flatten = rep) := by
  have hz : Target (envOf true Inst.Rfc1057.spec) getPort.res (.u32 0) := by
    obtain ⟨z, h1, h2, h3⟩ := zero_fresh (n := "uint32") Inst.Rfc1057.gen Inst.Rfc1057.supp (by decide +kernel)
    have : z = .u32 0 := Option.some.inj (h1.symm.trans (by decide +kernel))
    rw [this] at h2 h3
    exact ⟨h2, h3⟩
  have hR : Unserved pmapNet netWire (.obj 0) pmapNet netWire (.obj 0) NetInv (envOf true Inst.Rfc1057.spec) pmapPkg pmapProg pmapVers getPort 7 :=
    C70_call pmap_generated has_pmap pmapNet (Nat.le_refl _) pmapNet (Nat.le_refl _)
    pmap_transport pmap_transport pmap_app pmap_back pmap_front pmapProg_mem (v := pmapVers) (List.mem_singleton.mpr rfl) (by decide) pmap_object pmapImpl_ok
    pmapProg_mem (v' := pmapVers) (List.mem_singleton.mpr rfl) (c := getPort) (by simp [pmapVers, getPort])
  obtain ⟨N, hN⟩ := hR ⟨98, 100000, 3⟩ 2 (.vers (by decide) (by decide)) .zero .zero (by decide) (by decide) (some (mapping u)) (some (mappingX u)) (mapping_stands u)
    (by simp [encO, mappingX, enc, encs]) (.u32 0) hz (· = 0) 0 1 2 noAuth noAuth rfl
  obtain ⟨req, rep, h1, h2, h3⟩ := hN N (Nat.le_refl _) (37 : UInt32)
  have hsite : ∀ input, Calling (.obj 0) getPort 2 ⟨98, 100000, 3⟩ (· = 0) 0 (some (mapping u)) 1 (.u32 0) noAuth noAuth .zero .zero
      { remoteSt u input with heap := fun j => if j = 2 then clientV (.obj 0) ⟨98, 100000, 3⟩ else (remoteSt u input).heap j } := fun input => by
    obtain ⟨-, k2, k3, k4, k5, k6, k7, -, -⟩ := remote_calling u input
    refine ⟨rfl, k2, ⟨k3.1, k3.2.1, ?_⟩, ⟨k4.1, ?_⟩, k5, k6, k7, ⟨.nil, rfl, .nil, fun s h => by cases h⟩, ⟨.nil, rfl, .nil, fun s h => by cases h⟩⟩
    · exact Rep.mono k3.2.2 (fun j hj _ => by have : j = 0 := hj; subst this; rfl) (Nat.le_refl _) fun _ h _ => h
    · exact .u32 _
  refine ⟨N, req, rep, ?_, ?_⟩
  · rintro input st rfl
    obtain ⟨r, st', k1, k2⟩ := h1 _ (hsite input)
    refine ⟨r, st', k1, k2, ?_⟩
    rintro rfl
    obtain ⟨r', st'', k3, k4, k5, -⟩ := h3 _ [] (hsite [rep]) rfl (by simp [remoteSt, netWire])
    rw [k1] at k3
    cases k3
    exact ⟨k4, k5⟩
  · obtain ⟨rv, st1, st', app', k1, k2, k3, k4⟩ := h2 (pmapSt [req]) _ (pmap_inv _) (by simp [pmapSt, netWire])
    exact ⟨rv, st1, st', app', k1, k2, k3, by simpa [pmapSt, netWire] using k4⟩

end

end Verif.Props
