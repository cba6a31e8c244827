/-
PROPERTY C39: client and server together.
-/
import Verif.Props.Program
import Verif.Props.Client
import Verif.Props.Stream

namespace Verif.Props
open Verif.Xdr Verif.Spec Verif.Gen Verif.Rpc

variable {σ τ : Type}

/-- Processing requests one after the other; what is written, in order. -/
def serveAll (hs : Handlers σ) : List (List UInt8) → σ → σ × List UInt8
  | [], s => (s, [])
  | b :: bs, s =>
    let r := (handleReqErr hs).run b s
    let q := serveAll hs bs r.1
    (q.1, (match r.2 with | .ok o => o | .error _ => []) ++ q.2)

/-- A connection on which every request is finished before the next one arrives (the client waits
for its reply): the bytes written for the bytes received. -/
def serve (hs : Handlers σ) (cs : Chunks) (s : σ) : σ × List UInt8 := serveAll hs (Rpc.run cs).1 s

theorem call_length (c : Client) (proc : UInt32) (cred verf : OpaqueAuth) (s : List UInt8)
    (h1 : goLen cred.body ≤ 400) (h2 : goLen verf.body ≤ 400) :
    (callBytes (c.header proc cred verf) s).length ≤ 840 + s.length := by
  have hg : ∀ b : GoBytes, (goElems b).length = goLen b := by
    intro b; cases b <;> rfl
  have ha : ∀ a : OpaqueAuth, goLen a.body ≤ 400 → (authBytes (authOf a)).length ≤ 408 := by
    intro a h
    simp only [authBytes, authOf, opaqueVar, List.length_append, be_length, hg]
    have : (zeroBytes (pad (goLen a.body))).length ≤ (400 - goLen a.body) := by
      simp only [zeroBytes, List.length_replicate, pad]; omega
    omega
  have := ha cred h1
  have := ha verf h2
  simp only [callBytes, Client.header, List.length_append, be_length]
  omega

/-- One exchange, for any registered handler: the request is the same whatever the transport
delivers later; however it is cut into pieces the server runs the handler once on the argument bytes
and writes one reply; however that is cut into pieces, and whatever follows, the client gets the
bytes of the handler's result and has consumed exactly the reply. -/
theorem C39_exchange (regs : List (ProcReg σ)) (c : Client) (proc : UInt32) (cred verf : OpaqueAuth)
    (args : Xdrable) (resp : Recv τ) (r : τ) (s : σ) {abytes : List UInt8}
    (h1 : goLen cred.body ≤ 400) (h2 : goLen verf.body ≤ 400) (ha : Encodes args abytes)
    (hlen : 840 + abytes.length < 2 ^ 31) {hd : ProcHandler σ}
    (hl : lastReg regs c.prog c.vers proc = some hd) {s' : σ} {d : Xdrable} {rbytes : List UInt8}
    (hr : hd.run (makeReader abytes) s = (s', some d, false)) (hd' : Encodes d rbytes)
    (hrlen : 24 + rbytes.length < 2 ^ 31) :
    ∃ req rep, (∀ ok input, (c.call proc cred verf args resp r ok input).sent = some req) ∧
      (∀ cs, cs.flatten = req → serve (registerMany makeServer regs) cs s = (s', rep)) ∧
      ∀ input rest, input.flatten = rep ++ rest →
        let out := c.call proc cred verf args resp r true input
        out.resp = (resp (makeReader rbytes) r).2 ∧
        (out.err = none ↔ (resp (makeReader rbytes) r).1.err = none) ∧ out.input.flatten = rest := by
  have hreq := callRequest_ok { c with xid := c.xid + 1 } proc cred verf args h1 h2 ha
  generalize hm : callBytes (Client.header { c with xid := c.xid + 1 } proc cred verf) abytes = m at hreq
  have hmlen : m.length < 2 ^ 31 := by
    have := call_length { c with xid := c.xid + 1 } proc cred verf abytes h1 h2
    rw [hm] at this; omega
  have hrec := record_of_small hmlen
  have hcall : IsCall (Client.header { c with xid := c.xid + 1 } proc cred verf) abytes m := by
    rw [← hm]
    have hg : ∀ b : GoBytes, (goElems b).length = goLen b := by intro b; cases b <;> rfl
    exact callBytes_isCall (by simpa [Client.header, authOf, hg] using h1)
      (by simpa [Client.header, authOf, hg] using h2) _
  have hans := (C28_classify regs _ abytes m hcall s).2.2.2.2 hd rfl hl
  simp only [hr] at hans
  obtain ⟨hst, rm, rep, hok, hrep, hreprec⟩ := hans.2.2 d rbytes rfl hd' hrlen
  refine ⟨_, rep, fun ok input => call_sent _ _ _ _ _ _ _ _ _ hreq, fun cs hcs => ?_, fun input rest hin => ?_⟩
  · have hstream : Stream cs.flatten [m] .clean := by
      rw [hcs]
      have := Stream.record m _ [] [] .clean hrec .clean
      simpa using this
    simp only [serve, (C31_records cs [m] .clean hstream).1, serveAll, hok, hst, List.append_nil]
  · obtain ⟨k1, k2, k3⟩ := C37_result c proc cred verf args resp r input abytes h1 h2 ha rbytes rest
      ⟨rm, rep, .null, hreprec, hin, hrep⟩
    exact ⟨k1, k3, k2⟩

/-! ### Generated programs -/

/-- `&arg` as the client passes it to `Call`: the argument variable of a procedure, or `xdr.Void`. -/
noncomputable def argObj (g : GoProg) (c : ProgCall) (a : Option GoVal) : Xdrable :=
  match c.arg, a with
  | some (.ident n), some v => methodXdrable g (i n) v
  | _, _ => voidXdrable

/-- `&res` as the client passes it to `Call`: a variable of the result type, or `xdr.Void`. -/
noncomputable def resObj (g : GoProg) (c : ProgCall) : Recv GoVal :=
  match c.res with
  | some (.ident n) => fun rd v =>
    match callMethod g (i n) rd v with
    | some r => r
    | none => ({ rd with err := some (.msg "") }, v)
  | _ => fun rd v => (rd, v)

/-- `v` is a Go value of type `t` that stands for the XDR value `x` within all bounds; without type
there are no values. -/
def Stands (E : Env) (t : Option Typespec) (v : Option GoVal) (x : Option XVal) : Prop :=
  match t, v, x with
  | none, none, none => True
  | some (.ident n), some v, some x => Typed E n v ∧ Denotes E n v x ∧ IsValue E n x
  | _, _, _ => False

/-- The bytes of an optional value. -/
def encO : Option XVal → List UInt8
  | none => []
  | some x => enc x

/-- A variable the result can be decoded into: of the right type, without old data in it. -/
def Target (E : Env) (t : Option Typespec) (v : GoVal) : Prop :=
  match t with
  | some (.ident n) => Typed E n v ∧ Clean E n v
  | _ => True

/-- The result variable `v` stands for `y`; it is untouched if there is no result. -/
def Got (E : Env) (t : Option Typespec) (before v : GoVal) (y : Option XVal) : Prop :=
  match t, y with
  | some (.ident n), some y => Typed E n v ∧ Denotes E n v y
  | none, none => v = before
  | _, _ => False

theorem stands_cases {E : Env} {t : Option Typespec} {v : Option GoVal} {x : Option XVal}
    (h : Stands E t v x) : (t = none ∧ v = none ∧ x = none) ∨
      ∃ n w y, t = some (.ident n) ∧ v = some w ∧ x = some y ∧ Typed E n w ∧ Denotes E n w y ∧
        IsValue E n y := by
  unfold Stands at h
  split at h
  · exact .inl ⟨rfl, rfl, rfl⟩
  · exact .inr ⟨_, _, _, rfl, rfl, rfl, h⟩
  · exact h.elim

/-- What a handler returns is encoded as the value that the result stands for. -/
theorem returns_encodes {C : Spec.Env} {c : ProgCall} {rv : Option GoVal} {d : Xdrable} {y : Option XVal} (hret : Returns C c rv d)
    (hy : Stands C c.res rv y) : Encodes d (encO y) := by
  unfold Returns at hret
  unfold Stands at hy
  obtain ⟨name, arg, res, id⟩ := c
  cases res with
  | none => cases rv <;> cases y <;> simp_all [encO]
  | some t =>
    cases t with
    | ident n =>
      cases rv with
      | none => exact hret.elim
      | some rv =>
        cases y with
        | none => exact hy.elim
        | some y =>
          obtain ⟨y', hy', g1, _⟩ := hret
          obtain ⟨_, g2, g3⟩ := hy
          cases denotes_unique g2 hy'
          exact g1 g3
    | _ => cases rv <;> cases y <;> exact hy.elim

section
variable {fl : Flags} {s : Gen.Spec} {g : GoProg} (hg : generate fl s = some g)
  (hs : supported fl s = true)

local notation "E" => envOf fl.unsignedEnum s

include hg hs in
theorem arg_encodes {c : ProgCall} {a : Option GoVal} {x : Option XVal} (h : Stands E c.arg a x) :
    Encodes (argObj g c a) (encO x) ∧ ∃ a', Stands E c.arg a' x ∧ Arrives E g c (encO x) a' := by
  obtain ⟨name, arg, res, id⟩ := c
  dsimp only at h
  rcases stands_cases h with ⟨rfl, rfl, rfl⟩ | ⟨n, v, x, rfl, rfl, rfl, hv, hd, hx⟩
  · exact ⟨voidXdrable_encodes, none, trivial, rfl⟩
  · obtain ⟨y, hy, h1, _⟩ := methodXdrable_encodes hg hs hv
    cases denotes_unique hd hy
    obtain ⟨z, hz, _⟩ := zero_fresh hg hs (isValue_declared hx)
    obtain ⟨v', _, g2, g3, g4⟩ := C13_accepts hg hs hz hx (reads_enc x) []
    exact ⟨h1 hx, some v', ⟨g2, g3, hx⟩,
      ⟨x, enc x, [], z, v', by simp [encO], reads_enc x, hx, hz, g4, g3, g2, rfl⟩⟩

include hg hs in
theorem res_decodes {c : ProgCall} {r : Option GoVal} {y : Option XVal} (h : Stands E c.res r y)
    {v : GoVal} (hv : Target E c.res v) :
    (resObj g c (makeReader (encO y)) v).1.err = none ∧
      Got E c.res v (resObj g c (makeReader (encO y)) v).2 y := by
  obtain ⟨name, arg, res, id⟩ := c
  dsimp only at h hv ⊢
  rcases stands_cases h with ⟨rfl, rfl, rfl⟩ | ⟨n, r, y, rfl, rfl, rfl, _, _, hy⟩
  · exact ⟨rfl, rfl⟩
  · simp only [Target] at hv
    rcases runs_decode hg hs hv.1 (enc y) with ⟨x, p, rest, v', h1, h2, h3, h4, h5, h6⟩ | ⟨_, _, _, _, _, _, h5⟩
    · obtain ⟨rfl, rfl⟩ := unique_named E n y x (enc y) p [] rest hy h3 (reads_enc y) h2 (by simpa using h1)
      have hc : callMethod g (i n) (makeReader (encO (some y))) v = some (makeReader rest, v') :=
        callMethod_eq h4
      simp only [resObj, hc, Got]
      exact ⟨rfl, h6, fills_denotes hg hs hv.2 hy h5⟩
    · exact absurd (by simp) (h5 y (enc y) [] hy (reads_enc y))

/-- The table `X_Y_regs(h)` registered last in a server, after any other registrations: the procedure
numbers lead to their entries. -/
theorem lastReg_table {p : ProgDef} {v : ProgVer} {regs pre : List (ProcReg σ)}
    (hn : regs.map (fun r => (r.prog.toNat, r.vers.toNat, r.proc.toNat)) =
      v.calls.map (fun c => (p.id, v.id, c.id)))
    (hids : (v.calls.map (·.id)).Nodup) {k : Nat} {c : ProgCall} {r : ProcReg σ}
    (hc : v.calls[k]? = some c) (hr : regs[k]? = some r) :
    lastReg (pre ++ regs) (UInt32.ofNat p.id) (UInt32.ofNat v.id) (UInt32.ofNat c.id) = some r.handler := by
  have hnum : ∀ (k : Nat) c r, v.calls[k]? = some c → regs[k]? = some r →
      r.prog.toNat = p.id ∧ r.vers.toNat = v.id ∧ r.proc.toNat = c.id := by
    intro k c r hc hr
    have := congrArg (·[k]?) hn
    simp only [List.getElem?_map, hc, hr, Option.map_some, Option.some.injEq, Prod.mk.injEq] at this
    exact this
  have hlen : regs.length = v.calls.length := by
    have := congrArg List.length hn; simpa using this
  obtain ⟨n1, n2, n3⟩ := hnum k c r hc hr
  have e1 : r.prog = UInt32.ofNat p.id := by rw [← n1]; simp
  have e2 : r.vers = UInt32.ofNat v.id := by rw [← n2]; simp
  have e3 : r.proc = UInt32.ofNat c.id := by rw [← n3]; simp
  have huniq : ∀ r' ∈ regs, (r'.prog == UInt32.ofNat p.id && r'.vers == UInt32.ofNat v.id &&
      r'.proc == UInt32.ofNat c.id) = true → r' = r := by
    intro r' hr' hk
    simp only [Bool.and_eq_true, beq_iff_eq] at hk
    obtain ⟨j, hj, hrj⟩ := List.getElem_of_mem hr'
    have hrj' : regs[j]? = some r' := by rw [List.getElem?_eq_getElem hj, hrj]
    obtain ⟨c', hc'⟩ : ∃ c', v.calls[j]? = some c' := ⟨_, List.getElem?_eq_getElem (by omega)⟩
    have h3 := (hnum j c' r' hc' hrj').2.2
    have hid : c'.id = c.id := by rw [← h3, hk.2, ← e3, n3]
    have hjk : j = k := by
      have hlj : j < (v.calls.map (·.id)).length := by rw [List.length_map]; omega
      refine (List.getElem?_inj hlj hids).mp ?_
      simp [List.getElem?_map, hc, hc', hid]
    subst hjk
    rw [hr] at hrj'; cases hrj'; rfl
  rw [lastReg, List.reverse_append, List.find?_append]
  have hfind : regs.reverse.find? (fun r => r.prog == UInt32.ofNat p.id && r.vers == UInt32.ofNat v.id &&
      r.proc == UInt32.ofNat c.id) = some r := by
    cases hf : regs.reverse.find? (fun r => r.prog == UInt32.ofNat p.id && r.vers == UInt32.ofNat v.id &&
        r.proc == UInt32.ofNat c.id) with
    | none =>
      rw [List.find?_eq_none] at hf
      exact absurd (by simp [e1, e2, e3]) (hf r (List.mem_reverse.mpr (List.mem_of_getElem? hr)))
    | some r' =>
      rw [huniq r' (List.mem_reverse.mp (List.mem_of_find?_eq_some hf)) (by have := List.find?_some hf; exact this)]
  rw [hfind]; rfl

include hg hs in
/-- One call of a procedure of a generated program.  `x` is the value on the wire for the client's
argument, `a'` the variable the server-side method gets (it stands for the same `x`), `y` the value on
the wire for the method's result.  The call returns nil, the client's result variable stands for `y`,
the state is the one the method left, and the connection is in step. -/
theorem C39_call {p : ProgDef} (hp : Defn.program p ∈ s) {v : ProgVer} (hv : v ∈ p.vers)
    (hok : callable E p = true) (hids : (v.calls.map (·.id)).Nodup) (h : Impl σ) (hi : Implements E h v) :
    ∃ gv regs, emitVers p v = some gv ∧ regsOf g h gv = some regs ∧
      ∀ (pre : List (ProcReg σ)) (cl : Client) (c : ProgCall) (cred verf : OpaqueAuth) (a : Option GoVal)
        (x : Option XVal) (st : σ),
        cl.prog = UInt32.ofNat p.id → cl.vers = UInt32.ofNat v.id → c ∈ v.calls →
        goLen cred.body ≤ 400 → goLen verf.body ≤ 400 →
        Stands E c.arg a x → 840 + (encO x).length < 2 ^ 31 →
        ∃ a', Stands E c.arg a' x ∧ Arrives E g c (encO x) a' ∧
          ∀ y, Stands E c.res ((h (i c.name) a').run () st).2 y → 24 + (encO y).length < 2 ^ 31 →
          ∃ req rep, (∀ r0 ok input, (cl.call (UInt32.ofNat c.id) cred verf (argObj g c a) (resObj g c) r0 ok
              input).sent = some req) ∧
            (∀ cs, cs.flatten = req → serve (registerMany makeServer (pre ++ regs)) cs st =
              (((h (i c.name) a').run () st).1, rep)) ∧
            ∀ r0 input rest, Target E c.res r0 → input.flatten = rep ++ rest →
              let out := cl.call (UInt32.ofNat c.id) cred verf (argObj g c a) (resObj g c) r0 true input
              out.err = none ∧ Got E c.res r0 out.resp y ∧ out.input.flatten = rest := by
  obtain ⟨gv, regs, h1, h2, h3, h4, _⟩ := C40_table hg hs hp hv hok h hi
  refine ⟨gv, regs, h1, h2, fun pre cl c cred verf a x st hcp hcv hc hcr hvf ha hlen => ?_⟩
  obtain ⟨henc, a', ha', harr⟩ := arg_encodes hg hs ha
  refine ⟨a', ha', harr, fun y hy hylen => ?_⟩
  obtain ⟨k, hk, hck⟩ := List.getElem_of_mem hc
  have hck : v.calls[k]? = some c := by rw [List.getElem?_eq_getElem hk, hck]
  have hrl : regs.length = v.calls.length := by
    have := congrArg List.length h3; simpa using this
  obtain ⟨r, hrk⟩ : ∃ r, regs[k]? = some r := ⟨_, List.getElem?_eq_getElem (by omega)⟩
  obtain ⟨d, hrun, hret⟩ := (h4 k c r hck hrk (encO x) st).1 a' harr
  have hd : Encodes d (encO y) := returns_encodes hret hy
  have hlast := lastReg_table (pre := pre) h3 hids hck hrk
  rw [← hcp, ← hcv] at hlast
  have key := fun r0 => C39_exchange (pre ++ regs) cl (UInt32.ofNat c.id) cred verf (argObj g c a)
    (resObj g c) r0 st hcr hvf henc hlen hlast hrun hd hylen
  obtain ⟨req, rep, k1, k2, _⟩ := key (.bool false)
  refine ⟨req, rep, fun r0 ok input => ?_, k2, fun r0 input rest ht hin => ?_⟩
  · obtain ⟨req', _, j1, _⟩ := key r0
    have hq := callRequest_ok { cl with xid := cl.xid + 1 } (UInt32.ofNat c.id) cred verf (argObj g c a)
      hcr hvf henc
    have e1 := k1 true []
    have e2 := j1 ok input
    rw [call_sent _ _ _ _ _ _ _ _ _ hq] at e1 e2 ⊢
    exact e1
  · obtain ⟨req', rep', j1, j2, j3⟩ := key r0
    have e : rep' = rep := by
      have hq := callRequest_ok { cl with xid := cl.xid + 1 } (UInt32.ofNat c.id) cred verf (argObj g c a)
        hcr hvf henc
      have e1 := k1 true []
      have e2 := j1 true []
      rw [call_sent _ _ _ _ _ _ _ _ _ hq] at e1 e2
      have e3 : req' = req := Option.some.inj (e2.symm.trans e1)
      subst e3
      have := (j2 [req'] (by simp)).symm.trans (k2 [req'] (by simp))
      exact (Prod.mk.inj this).2
    subst e
    obtain ⟨g1, g2, g3⟩ := j3 input rest hin
    obtain ⟨f1, f2⟩ := res_decodes hg hs hy ht
    exact ⟨g2.mpr f1, by rw [g1]; exact f2, g3⟩

/-! ### Sequences of calls -/

/-- One call of a client: procedure, credential, verifier, argument, and the variable for the result. -/
structure Step where
  c : ProgCall
  cred : OpaqueAuth
  verf : OpaqueAuth
  arg : Option GoVal
  into : GoVal

/-- The call itself. -/
noncomputable def Step.on (g : GoProg) (st : Step) (cl : Client) (input : Chunks) : CallResult GoVal :=
  cl.call (UInt32.ofNat st.c.id) st.cred st.verf (argObj g st.c st.arg) (resObj g st.c) st.into true input

/-- A client and a server joined by a connection: each call's request goes to the server, and the
server's answer is the call's input.  (`Call` writes before it reads, and what it writes does not
depend on the input.) -/
noncomputable def session (g : GoProg) (hs : Handlers σ) :
    Client → σ → List Step → Client × σ × List (CallResult GoVal)
  | cl, s, [] => (cl, s, [])
  | cl, s, st :: sts =>
    let req := ((st.on g cl []).sent).getD []
    let (s, rep) := serve hs [req] s
    let out := st.on g cl [rep]
    let (cl, s, outs) := session g hs out.client s sts
    (cl, s, out :: outs)

/-- The calls as an abstract sequence of method invocations from state `s` to state `s'` with the
results `ys`; all arguments and results are within bounds. -/
inductive Executes (F : Env) (g : GoProg) (h : Impl σ) (v : ProgVer) :
    σ → List Step → List (Option XVal) → σ → Prop
  | nil (s : σ) : Executes F g h v s [] [] s
  | cons {s s' : σ} {st : Step} {sts : List Step} {x y : Option XVal} {ys : List (Option XVal)}
      {a' : Option GoVal} :
      st.c ∈ v.calls → goLen st.cred.body ≤ 400 → goLen st.verf.body ≤ 400 →
      Stands F st.c.arg st.arg x → 840 + (encO x).length < 2 ^ 31 →
      Arrives F g st.c (encO x) a' →
      Stands F st.c.res ((h (i st.c.name) a').run () s).2 y → 24 + (encO y).length < 2 ^ 31 →
      Target F st.c.res st.into →
      Executes F g h v ((h (i st.c.name) a').run () s).1 sts ys s' →
      Executes F g h v s (st :: sts) (y :: ys) s'

include hg hs in
/-- Any sequence of calls over one connection: all return nil with the results of the abstract
sequence, nothing is left in the connection between calls, and the server's state is the final one. -/
theorem C39_session {p : ProgDef} (hp : Defn.program p ∈ s) {v : ProgVer} (hv : v ∈ p.vers)
    (hok : callable E p = true) (hids : (v.calls.map (·.id)).Nodup) (h : Impl σ) (hi : Implements E h v) :
    ∃ gv regs, emitVers p v = some gv ∧ regsOf g h gv = some regs ∧
      ∀ (pre : List (ProcReg σ)) (cl : Client) (st st' : σ) (steps : List Step) (ys : List (Option XVal)),
        cl.prog = UInt32.ofNat p.id → cl.vers = UInt32.ofNat v.id → Executes E g h v st steps ys st' →
        let o := session g (registerMany makeServer (pre ++ regs)) cl st steps
        o.2.1 = st' ∧ o.2.2.length = steps.length ∧
        List.Forall₂ (fun (q : Step × CallResult GoVal) y => q.2.err = none ∧
          Got E q.1.c.res q.1.into q.2.resp y ∧ q.2.input.flatten = []) (steps.zip o.2.2) ys := by
  obtain ⟨gv, regs, h1, h2, hcall⟩ := C39_call hg hs hp hv hok hids h hi
  refine ⟨gv, regs, h1, h2, fun pre cl st st' steps ys hcp hcv hex => ?_⟩
  induction hex generalizing cl with
  | nil s => exact ⟨rfl, rfl, .nil⟩
  | @cons s0 s' stp sts x y ys a' hc hcr hvf ha hlen harr hy hylen ht hex ih =>
    obtain ⟨a'', _, g2, g3⟩ := hcall pre cl stp.c stp.cred stp.verf stp.arg x s0 hcp hcv hc hcr hvf ha hlen
    cases C40_argument hg hs harr g2
    obtain ⟨req, rep, k1, k2, k3⟩ := g3 y hy hylen
    have e1 : (stp.on g cl []).sent = some req := k1 _ _ _
    have e2 := k2 [req] (by simp)
    have e3 := k3 stp.into [rep] [] ht (by simp)
    have hcl : (stp.on g cl [rep]).client = { cl with xid := cl.xid + 1 } := C36_client _ _ _ _ _ _ _ _ _
    have ih' := ih { cl with xid := cl.xid + 1 } hcp hcv
    simp only [session, e1, Option.getD_some, e2, hcl]
    refine ⟨ih'.1, by simpa using ih'.2.1, ?_⟩
    simp only [List.zip_cons_cons]
    exact .cons e3 ih'.2.2

end

/-! ### Non-vacuity: two calls of the portmapper program, for every port -/

section
open Verif.Inst

/-- A `Mapping` with the given port. -/
def mapping (u : UInt32) : GoVal :=
  .struct [("Prog", .u32 7), ("Vers", .u32 1), ("Prot", .u32 6), ("Port", .u32 u)]

def mappingX (u : UInt32) : XVal := .struct [.uint 7, .uint 1, .uint 6, .uint u.toNat]

theorem mapping_stands (u : UInt32) :
    Stands (envOf true Rfc1057.spec) (some (.ident "mapping")) (some (mapping u)) (some (mappingX u)) := by
  refine ⟨⟨1, _, rfl, ?_⟩, ⟨1, rfl⟩, ⟨1, _, rfl, ?_⟩⟩
  · simp [hasTop, hasD, hasT, hasDs, hasField, decls, mapping, i]
  · simp [memD, memT, memDs, decls, mappingX, u.toNat_lt]

private theorem mapping_arrives (u : UInt32) (c : ProgCall) (hc : c.arg = some (.ident "mapping")) :
    Arrives (envOf true Rfc1057.spec) Rfc1057.prog c (encO (some (mappingX u))) (some (mapping u)) := by
  obtain ⟨h1, h2, h3⟩ := mapping_stands u
  rw [Arrives, hc]
  refine ⟨mappingX u, enc (mappingX u), [], .struct [("Prog", .u32 0), ("Vers", .u32 0), ("Prot", .u32 0),
    ("Port", .u32 0)], mapping u, by simp [encO], reads_enc _, h3, ?_,
    ⟨1, ?_⟩, h2, h1, rfl⟩
  · decide +kernel
  · show some _ = some _
    simp [mapping]

private theorem i_set : i "PMAPPROC_SET" = "PMAPPROC_SET" := by decide +kernel
private theorem i_getport : i "PMAPPROC_GETPORT" = "PMAPPROC_GETPORT" := by decide +kernel

/-- SET with port `u`, then GETPORT, with no credentials. -/
def setGet (u : UInt32) : List Step :=
  [⟨⟨"PMAPPROC_SET", some (.ident "mapping"), some (.ident "xbool"), 1⟩, ⟨0, none⟩, ⟨0, none⟩,
      some (mapping u), .bool false⟩,
   ⟨⟨"PMAPPROC_GETPORT", some (.ident "mapping"), some (.ident "uint32"), 3⟩, ⟨0, none⟩, ⟨0, none⟩,
      some (mapping 0), .u32 0⟩]

theorem setGet_executes (u s : UInt32) :
    Executes (envOf true Rfc1057.spec) Rfc1057.prog pmapImpl pmapVers s (setGet u)
      [some (.bool true), some (.uint u.toNat)] u := by
  have hb : ∀ b, Typed (envOf true Rfc1057.spec) "xbool" (.bool b) := fun b => ⟨1, _, rfl, by
    simp only [hasTop, hasD, hasT]; exact ⟨b, rfl⟩⟩
  have hu : ∀ x, Typed (envOf true Rfc1057.spec) "uint32" (.u32 x) := fun x => ⟨1, _, rfl, by
    simp only [hasTop, hasD, hasT]; exact ⟨x, rfl⟩⟩
  have hlen : ∀ u, (encO (some (mappingX u))).length = 16 := by
    intro u; simp [encO, mappingX, enc, encs]
  have h1 := @Executes.cons UInt32 (envOf true Rfc1057.spec) Rfc1057.prog pmapImpl pmapVers s u
    ⟨⟨"PMAPPROC_SET", some (.ident "mapping"), some (.ident "xbool"), 1⟩, ⟨0, none⟩, ⟨0, none⟩,
      some (mapping u), .bool false⟩ (setGet u).tail (some (mappingX u)) (some (.bool true)) [some (.uint u.toNat)]
    (some (mapping u)) (by simp [pmapVers]) (by simp [goLen]) (by simp [goLen]) (mapping_stands u)
    (by rw [hlen]; omega) (mapping_arrives u _ rfl)
    (by
      simp only [i_set]
      exact ⟨hb true, ⟨1, rfl⟩, 1, _, rfl, by simp [memD, memT]⟩)
    (by simp [encO, enc]) ⟨hb _, 1, _, rfl, by simp [cleanTop, cleanD, cleanT]⟩
  have h2 := @Executes.cons UInt32 (envOf true Rfc1057.spec) Rfc1057.prog pmapImpl pmapVers u u
    ⟨⟨"PMAPPROC_GETPORT", some (.ident "mapping"), some (.ident "uint32"), 3⟩, ⟨0, none⟩, ⟨0, none⟩,
      some (mapping 0), .u32 0⟩ [] (some (mappingX 0)) (some (.uint u.toNat)) []
    (some (mapping 0)) (by simp [pmapVers]) (by simp [goLen]) (by simp [goLen]) (mapping_stands 0)
    (by rw [hlen]; omega) (mapping_arrives 0 _ rfl)
    (by
      simp only [i_getport]
      exact ⟨hu u, ⟨1, rfl⟩, 1, _, rfl, by simp [memD, memT, u.toNat_lt]⟩)
    (by simp [encO, enc]) ⟨hu _, 1, _, rfl, by simp [cleanTop, cleanD, cleanT]⟩
    (by simp only [i_getport]; exact .nil u)
  refine h1 ?_
  simp only [i_set]
  exact h2

/-- The checked-in portmapper package: after SET with port `u`, GETPORT yields `u`. -/
example (u s : UInt32) : ∃ gv regs, emitVers pmapProg pmapVers = some gv ∧
    regsOf Rfc1057.prog pmapImpl gv = some regs ∧
    let o := session Rfc1057.prog (registerMany makeServer regs) ⟨0, 100000, 2⟩ s (setGet u)
    o.2.1 = u ∧ ∃ r₁ r₂, o.2.2 = [r₁, r₂] ∧ r₁.err = none ∧ r₂.err = none ∧ r₂.resp = .u32 u := by
  obtain ⟨gv, regs, h1, h2, h3⟩ := C39_session Rfc1057.gen Rfc1057.supp pmapProg_mem (v := pmapVers)
    (by simp [pmapProg]) (C40_shipped.1 _ pmapProg_mem) (by decide) pmapImpl pmapImpl_ok
  refine ⟨gv, regs, h1, h2, ?_⟩
  have h4 := h3 [] ⟨0, 100000, 2⟩ s u (setGet u) _ rfl rfl (setGet_executes u s)
  rw [List.nil_append] at h4
  refine ⟨h4.1, ?_⟩
  obtain ⟨_, hlen, h5⟩ := h4
  generalize (session Rfc1057.prog (registerMany makeServer regs) ⟨0, 100000, 2⟩ s (setGet u)).2.2 = l
    at hlen h5 ⊢
  match l, hlen, h5 with
  | [r₁, r₂], _, .cons g1 (.cons g2 .nil) =>
    refine ⟨r₁, r₂, rfl, g1.1, g2.1, ?_⟩
    have hty : (envOf true Rfc1057.spec).typeOf "uint32" = some (.typespec (.int true)) := by decide +kernel
    obtain ⟨⟨k, hk⟩, k', hd⟩ := g2.2.1
    dsimp only at hk hd
    change hasN (envOf true Rfc1057.spec) k "uint32" r₂.resp at hk
    change absN (envOf true Rfc1057.spec) k' "uint32" r₂.resp = _ at hd
    cases k with
    | zero => exact hk.elim
    | succ k =>
      obtain ⟨t, h6, h7⟩ := hk
      rw [hty] at h6
      cases h6
      simp only [hasTop, hasD, hasT] at h7
      obtain ⟨w, hw⟩ := h7
      rw [hw] at hd ⊢
      cases k' with
      | zero => cases hd
      | succ k' =>
        simp only [absN, hty, Option.bind_some, absTop, absD, absT, absU32, Option.some.injEq,
          XVal.uint.injEq] at hd
        rw [UInt32.toNat_inj.mp hd]

end

end Verif.Props
