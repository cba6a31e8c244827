/-
PROPERTY C69: several remote procedure calls over one connection, as Go text.
-/
import Verif.Props.GoRemote

namespace Verif.Props
open Verif.Xdr Verif.Spec Verif.Gen Verif.Rpc Verif.Lang Verif.Lang.Text

variable {ω ω' σ : Type}

attribute [local irreducible] wp callN handleReqErr

/-! ### Specification -/

/-- A call of a client (`Step`, Props/EndToEnd.lean), and where its variables are. -/
structure Site extends Step where
  own : Nat → Prop
  ta : Nat
  tr : Nat
  cv : V
  fv : V

/-- The cells of the variables of a call. -/
def Site.cells (s : Site) (j : Nat) : Prop := s.own j ∨ j = s.tr

/-- The cell of the body of a credential or verifier. -/
def bodyAt (v : V) (j : Nat) : Prop := ∃ f b, v = .struct "rfc1057.Opaque_auth" [("Flavor", f), ("Body", .slice b)] ∧ j = b.base.id

/-- The variables of a call are apart from those of another. -/
def Site.apart (s s' : Site) : Prop := ∀ j, s'.cells j ∨ bodyAt s'.cv j ∨ bodyAt s'.fv j → ¬ s.cells j

/-- What the call starts from. -/
def Site.At (rw : V) (cc : Nat) (cl : Client) (s : Site) (st : St ω) : Prop :=
  Calling rw s.c cc cl s.own s.ta s.arg s.tr s.into s.cv s.fv s.cred s.verf st ∧ ¬ bodyAt s.cv cc ∧ ¬ bodyAt s.fv cc

/-- The client executes the calls one after the other, as long as the connection can be written to: each writes its request, returns nil, and
leaves a value in its result variable that stands for the XDR value given.  In the end `rest` has not been read. -/
def ClientRuns [Others] (X : Ext ω) (W : Wire ω) (E : Spec.Env) (q : Pkg) (cc k : Nat) (rest : List UInt8) : List (Site × List UInt8 × Option XVal) → St ω → Prop
  | [], st => (W.input st.world).flatten = rest
  | (s, req, z) :: l, st => W.ok st.world = true →
    Ends X k (.meth "rfc1057.Client" "Call") [.ptr "" ⟨cc, []⟩, .u32 (UInt32.ofNat s.c.id), s.cv, s.fv, addrOf q s.c.arg s.ta, addrOf q s.c.res s.tr] st fun r st' =>
      r = [.nil] ∧ W.sent st'.world = W.sent st.world ++ [req] ∧ GotIn E s.c.res s.tr z st' ∧ ClientRuns X W E q cc k rest l st'

/-- A client that calls procedures of a generated program one after the other over one connection, the calls being those of
`Executes`: beginning with the state `y` of the server's object, with the XDR values `zs` as results.  There are requests and replies,
one for each call, so that:

* a server that receives the first `n` requests, in any pieces, and then the end of the connection, runs the methods of the first `n` calls,
  in order, and writes the first `n` replies;
* the client, on a connection that delivers the replies, in any pieces, and anything after them, sends the requests, all calls return nil, the
  result variables have values that stand for `zs`, and what follows the replies is not consumed. -/
def Session [Others] (X : Ext ω) (W : Wire ω) (rw : V) (X' : Ext ω') (W' : Wire ω') (rw' : V) (I : (Nat → Prop) → St ω' → σ → Prop) (E : Spec.Env) (g : GoProg) (q : Pkg)
    (hi : Impl σ) (p : ProgDef) (v : ProgVer) (h : Nat) (cl : Client) (sites : List Site) (y y' : σ) (zs : List (Option XVal)) : Prop :=
    ∃ N, ∀ k, N ≤ k → ∃ reqs reps : List (List UInt8), reqs.length = sites.length ∧ reps.length = sites.length ∧ (∀ r ∈ reqs, r.length < 2 ^ 32) ∧
      (∀ n, n ≤ sites.length → ∃ yn, Executes E g hi v y ((sites.take n).map (·.toStep)) (zs.take n) yn ∧ (n = sites.length → yn = y') ∧
        ∀ (st : St ω') app, I app st y → (W'.input st.world).flatten = (reqs.take n).flatten → (reqs.take n).flatten.length < X'.loops →
          ∃ rv st1 st' app', callN goProg X' k (.fn q.name (versName p v "_regs")) [.obj h] st = .ok ([rv], st1) ∧
            serverMain (atOnce X' k) rv rw' st1 = .ok ([ioErr .eof], st') ∧ I app' st' yn ∧
            (W'.sent st'.world).flatten = (W'.sent st.world).flatten ++ (reps.take n).flatten) ∧
      ∀ cc (st : St ω) rest, (∀ b ∈ sites, b.At rw cc cl st) → (W.input st.world).flatten = reps.flatten ++ rest →
        ClientRuns X W E q cc k rest (sites.zip (reqs.zip zs)) st

/-! ### One call -/

section
variable [Others] {fl : Flags} {s : Gen.Spec} {g : GoProg} {vs : List GoVers} {q : Pkg} (G : Generated fl s g vs q)
  (hq : Has (rpcPkg :: Others.ps) (typedPkg q)) (X : Ext ω) (hX : 2 ^ 32 ≤ X.loops)

local notation "𝓔" => envOf fl.unsignedEnum s

omit [Others] in
theorem auth_stable {n : Nat} {st st' : St ω} {v : V} {y : OpaqueAuth} (h : AuthArg n st v y) (hn : n ≤ st'.next)
    (hh : ∀ j, j < n → bodyAt v j → st'.heap j = st.heap j) : AuthArg st'.next st' v y := by
  obtain ⟨b, rfl, h2, h3⟩ := h
  exact ⟨b, rfl, h2.mono fun s e => hh _ (h3 s e) ⟨_, s, by rw [e], rfl⟩, fun s e => by have := h3 s e; omega⟩

omit [Others] in
/-- A call leaves what a later call needs. -/
theorem Site.At.later {rw : V} {cc : Nat} {cl cl' : Client} {a b : Site} {st st' : St ω} (h : b.At rw cc cl st) (hab : a.apart b)
    (hc : st'.heap cc = clientV rw cl') (hf : ∀ j, j < st.next → j ≠ cc → ¬ a.own j → j ≠ a.tr → st'.heap j = st.heap j) (hn : st.next ≤ st'.next) :
    b.At rw cc cl' st' := by
  obtain ⟨h, hb1, hb2⟩ := h
  have key : ∀ j, j < st.next → j ≠ cc → (b.cells j ∨ bodyAt b.cv j ∨ bodyAt b.fv j) → st'.heap j = st.heap j := fun j h1 h2 h3 =>
    hf j h1 h2 (fun e => hab j h3 (.inl e)) fun e => hab j h3 (.inr e)
  have ho : ∀ j, b.own j → st'.heap j = st.heap j := fun j hj => key j (h.arg.2.1 j hj) (fun e => h.notA (e ▸ hj)) (.inl (.inl hj))
  have hr : st'.heap b.tr = st.heap b.tr := key _ h.res.1 (Ne.symm h.notR) (.inl (.inr rfl))
  refine ⟨⟨hc, by have := h.lt; omega, ⟨h.arg.1, fun j hj => by have := h.arg.2.1 j hj; omega, ?_⟩, ⟨by have := h.res.1; omega, ?_⟩, h.notA, h.notR, h.apart,
    auth_stable h.cred hn fun j h1 h2 => key j h1 (fun e => hb1 (e ▸ h2)) (.inr (.inl h2)),
    auth_stable h.verf hn fun j h1 h2 => key j h1 (fun e => hb2 (e ▸ h2)) (.inr (.inr h2))⟩, hb1, hb2⟩
  · have h3 := h.arg.2.2
    rw [ho _ h.arg.1]
    split at h3
    · exact Rep.mono h3 (fun j hj _ => ho j hj) hn fun _ h _ => h
    · exact h3
  · have h3 := h.res.2
    rw [hr]
    split at h3
    · exact Rep.mono h3 (fun j hj => hj.elim) hn fun _ h _ => h
    · exact h3

include G hq hX in
/-- One call: the server, as the model has it, and the text of the client. -/
theorem one_call {W : Wire ω} {rw : V} (T : Transport X W rw) {hi : Impl σ} {p : ProgDef} (hp : .program p ∈ s) {v : ProgVer} (hv : v ∈ p.vers)
    {regs : List (ProcReg σ)} (hr : Registrations 𝓔 g hi p v regs) (hids : (v.calls.map (·.id)).Nodup) (b : Site) (hc : b.c ∈ v.calls)
    (h1 : goLen b.cred.body ≤ 400) (h2 : goLen b.verf.body ≤ 400) {x : Option XVal} (ha : Stands 𝓔 b.c.arg b.arg x) (hlen : 840 + (encO x).length < 2 ^ 31)
    (hr0 : Target 𝓔 b.c.res b.into) (hta : b.own b.ta) :
    ∃ N, ∀ k, N ≤ k → ∀ (cl : Client), cl.prog = UInt32.ofNat p.id → cl.vers = UInt32.ofNat v.id →
      ∀ (y : σ) (a' : Option GoVal) (z : Option XVal), Arrives 𝓔 g b.c (encO x) a' → Stands 𝓔 b.c.res ((hi (i b.c.name) a').run () y).2 z →
      24 + (encO z).length < 2 ^ 31 → ∃ m req rep, IsRecord m req ∧
      serveAll (registerMany makeServer regs) [m] y = (((hi (i b.c.name) a').run () y).1, rep) ∧
      ∀ cc (st : St ω) rest, b.At rw cc cl st → W.ok st.world = true → (W.input st.world).flatten = rep ++ rest →
        Ends X k (.meth "rfc1057.Client" "Call") [.ptr "" ⟨cc, []⟩, .u32 (UInt32.ofNat b.c.id), b.cv, b.fv, addrOf q b.c.arg b.ta, addrOf q b.c.res b.tr] st fun r st' =>
          r = [.nil] ∧ W.sent st'.world = W.sent st.world ++ [req] ∧ GotIn 𝓔 b.c.res b.tr z st' ∧ (W.input st'.world).flatten = rest ∧
          st'.heap cc = clientV rw { cl with xid := cl.xid + 1 } ∧ (∀ j, j < st.next → j ≠ cc → ¬ b.own j → j ≠ b.tr → st'.heap j = st.heap j) ∧
          st.next ≤ st'.next := by
  have hs := supported_of G.comp
  have hok := callable_of G hp
  obtain ⟨henc, a1, -, harr⟩ := arg_encodes G.gen hs ha
  have hnm : b.c.res.all (Named 𝓔) = true := by
    simp only [callable, Bool.and_eq_true, decide_eq_true_eq, List.all_eq_true] at hok
    exact ((hok.2 v hv).2 b.c hc).2
  obtain ⟨N2, hN2⟩ := Calling.site G hq X hX T ha hnm hr0 b.own b.ta b.tr hta
  refine ⟨N2 + 8, fun k hk cl hcp hcv y a' z harr' hz hzl => ?_⟩
  obtain ⟨k, rfl⟩ : ∃ k', k = k' + 8 := ⟨k - 8, by omega⟩
  obtain ⟨k0, hck⟩ := List.getElem?_of_mem hc
  have hrl : regs.length = v.calls.length := by
    have := congrArg List.length hr.numbers; simpa using this
  obtain ⟨r, hrk⟩ : ∃ r, regs[k0]? = some r := ⟨_, List.getElem?_eq_getElem (by
    have := (List.getElem?_eq_some_iff.mp hck).1; omega)⟩
  obtain ⟨dd, hrun, hret⟩ := (hr.serves k0 b.c r hck hrk (encO x) y).1 a' harr'
  have hd : Encodes dd (encO z) := returns_encodes hret hz
  have hlast := lastReg_table (pre := []) hr.numbers hids hck hrk
  rw [← hcp, ← hcv, List.nil_append] at hlast
  obtain ⟨req, rep, q1, q2, q3⟩ := C39_exchange regs cl (UInt32.ofNat b.c.id) b.cred b.verf (argObj g b.c b.arg) (resObj g b.c) b.into y h1 h2 henc hlen hlast hrun hd hzl
  obtain ⟨out, o1, o2⟩ := C36_sent cl (UInt32.ofNat b.c.id) b.cred b.verf (argObj g b.c b.arg) (resObj g b.c) b.into true [] (encO x) h1 h2 henc
  rw [q1] at o1
  cases o1
  have hrec := o2.1 (by
    have := call_length { cl with xid := cl.xid + 1 } (UInt32.ofNat b.c.id) b.cred b.verf (encO x) h1 h2
    exact Nat.lt_of_le_of_lt this hlen)
  refine ⟨_, req, rep, hrec, ?_, fun cc st rest hst hwok hin => ?_⟩
  · have := q2 [req] (by simp)
    rw [serve, (C31_records _ _ _ (reported_clean hrec (by simp))).1] at this
    exact this
  · refine ((hN2 k (by omega) st cc cl b.cv b.fv b.cred b.verf hst.1).ends (UInt32.ofNat b.c.id)).mono ?_
    rintro r st' ⟨e, rfl, he⟩
    rw [hwok] at he
    obtain ⟨k1, k2, k3⟩ := q3 _ _ hin
    obtain ⟨f1, f2⟩ := res_decodes G.gen hs hz hr0
    refine ⟨by rw [(CallRel.nil_iff he.err).mpr (k2.mpr f1)], ?_, ?_, by rw [he.input, k3], by rw [he.client, C36_client], he.frame, he.next⟩
    · rw [he.sent, q1]; rfl
    · have g2 := he.resp
      rw [k1] at g2
      generalize (resObj g b.c (makeReader (encO z)) b.into).2 = w at g2 f2
      unfold Got at f2
      unfold GotIn
      split at f2
      · rename_i n z' hn
        rw [hn] at g2 ⊢
        refine ⟨w, ?_, f2⟩
        rcases g2 with g2 | ⟨⟨-, g2, g4⟩, rfl⟩
        · exact g2 st' (fun _ _ => rfl) (Nat.le_refl _)
        · exact ⟨g2, Rep.mono g4 (fun _ h => h.elim) (Nat.le_refl _) fun _ h => h.elim⟩
      · rename_i hn
        rw [hn]
        trivial
      · exact f2.elim

/-! ### Several calls -/

omit [Others] in
theorem serveAll_cons {hs : Handlers σ} {m : List UInt8} {ms : List (List UInt8)} {y y1 y2 : σ} {rep out : List UInt8} (h1 : serveAll hs [m] y = (y1, rep))
    (h2 : serveAll hs ms y1 = (y2, out)) : serveAll hs (m :: ms) y = (y2, rep ++ out) := by
  simp only [serveAll, List.append_nil, Prod.mk.injEq] at h1
  rw [serveAll]
  simp only [h1.1, h1.2, h2]

include G hq hX in
theorem calls_text {W : Wire ω} {rw : V} (T : Transport X W rw) {hi : Impl σ} {p : ProgDef} (hp : .program p ∈ s) {v : ProgVer} (hv : v ∈ p.vers)
    {regs : List (ProcReg σ)} (hr : Registrations 𝓔 g hi p v regs) (hids : (v.calls.map (·.id)).Nodup) : ∀ (sites : List Site), (∀ b ∈ sites, b.own b.ta) →
    sites.Pairwise Site.apart → ∀ (y y' : σ) (zs : List (Option XVal)), Executes 𝓔 g hi v y (sites.map (·.toStep)) zs y' →
    ∃ N, ∀ k, N ≤ k → ∀ (cl : Client), cl.prog = UInt32.ofNat p.id → cl.vers = UInt32.ofNat v.id → ∃ ms reqs reps : List (List UInt8),
      reqs.length = sites.length ∧ reps.length = sites.length ∧ List.Forall₂ IsRecord ms reqs ∧
      (∀ n, n ≤ sites.length → ∃ yn, Executes 𝓔 g hi v y ((sites.take n).map (·.toStep)) (zs.take n) yn ∧ (n = sites.length → yn = y') ∧
        serveAll (registerMany makeServer regs) (ms.take n) y = (yn, (reps.take n).flatten)) ∧
      ∀ cc (st : St ω) rest, (∀ b ∈ sites, b.At rw cc cl st) → (W.input st.world).flatten = reps.flatten ++ rest →
        ClientRuns X W 𝓔 q cc k rest (sites.zip (reqs.zip zs)) st := by
  intro sites
  induction sites with
  | nil =>
    intro _ _ y y' zs hex
    cases hex
    exact ⟨0, fun k _ cl _ _ => ⟨[], [], [], rfl, rfl, .nil, fun n hn => ⟨y, by simpa using .nil y, fun _ => rfl, by simp [serveAll]⟩, fun cc st rest _ h => h⟩⟩
  | cons b sites ih =>
    intro hta hap y y' zs hex
    rw [List.map_cons] at hex
    cases hex with
    | @cons _ _ _ _ x z zs a' hc h1 h2 ha hlen harr hz hzl hr0 hex =>
      have hap := List.pairwise_cons.mp hap
      obtain ⟨N1, h3⟩ := one_call G hq X hX T hp hv hr hids b hc h1 h2 ha hlen hr0 (hta b (List.mem_cons_self ..))
      obtain ⟨N2, h4⟩ := ih (fun b hb => hta b (List.mem_cons_of_mem _ hb)) hap.2 _ y' zs hex
      refine ⟨N1 + N2, fun k hk cl hcp hcv => ?_⟩
      obtain ⟨m, req, rep, g1, g2, g3⟩ := h3 k (by omega) cl hcp hcv y a' z harr hz hzl
      obtain ⟨ms, reqs, reps, e1, e2, e3, e4, e5⟩ := h4 k (by omega) { cl with xid := cl.xid + 1 } hcp hcv
      refine ⟨m :: ms, req :: reqs, rep :: reps, by simp [e1], by simp [e2], .cons g1 e3, fun n hn => ?_, fun cc st rest hst hin hok => ?_⟩
      · cases n with
        | zero => exact ⟨y, .nil y, fun h => by simp at h, rfl⟩
        | succ n =>
          obtain ⟨yn, k1, k2, k3⟩ := e4 n (by simpa using hn)
          exact ⟨yn, .cons hc h1 h2 ha hlen harr hz hzl hr0 k1, fun h => k2 (by simpa using h), serveAll_cons g2 k3⟩
      · have hb := hst b (List.mem_cons_self ..)
        refine (g3 cc st (reps.flatten ++ rest) hb hok (by rw [hin]; simp)).mono ?_
        rintro r st' ⟨k1, k2, k3, k4, k5, k6, k7⟩
        exact ⟨k1, k2, k3, e5 cc st' rest (fun b' hb' => (hst b' (List.mem_cons_of_mem _ hb')).later (hap.1 b' hb') k5 k6 k7) k4⟩

omit [Others] in
theorem stream_records {ms reqs : List (List UInt8)} (h : List.Forall₂ IsRecord ms reqs) : Stream reqs.flatten ms .clean := by
  induction h with
  | nil => exact .clean
  | cons h _ ih => exact .record _ _ _ _ _ h ih

variable (X' : Ext ω') (hX' : 2 ^ 32 ≤ X'.loops)

include G hq hX hX' in
/-- **C69** Any procedures of a generated program can be called one after the other. -/
theorem C69_session {W : Wire ω} {rw : V} (T : Transport X W rw) {W' : Wire ω'} {rw' : V} (T' : Transport X' W' rw') {I : (Nat → Prop) → St ω' → σ → Prop}
    (A : App X' rw' I) (B : Back X' W' I) (F : Front X' W' rw' I) {p : ProgDef} (hp : .program p ∈ s) {v : ProgVer} (hv : v ∈ p.vers)
    {d h : Nat} {hi : Impl σ} (O : Object X' W' I 𝓔 d v h hi) (hI : Implements 𝓔 hi v) (hids : (v.calls.map (·.id)).Nodup)
    {cl : Client} (hcp : cl.prog = UInt32.ofNat p.id) (hcv : cl.vers = UInt32.ofNat v.id) {sites : List Site} (hta : ∀ b ∈ sites, b.own b.ta)
    (hap : sites.Pairwise Site.apart) {y y' : σ} {zs : List (Option XVal)} (hex : Executes 𝓔 g hi v y (sites.map (·.toStep)) zs y') :
    Session X W rw X' W' rw' I 𝓔 g q hi p v h cl sites y y' zs := by
  obtain ⟨regs, hr, N1, hN1⟩ := C67_regs G hq X' hX' A hp hv O hI
  obtain ⟨N2, hN2⟩ := calls_text G hq X hX T hp hv hr hids sites hta hap y y' zs hex
  refine ⟨N1 + N2 + 10, fun k hk => ?_⟩
  obtain ⟨ms, reqs, reps, e1, e2, e3, e4, e5⟩ := hN2 k (by omega) cl hcp hcv
  obtain ⟨k, rfl⟩ : ∃ k', k = k' + 9 := ⟨k - 9, by omega⟩
  refine ⟨reqs, reps, e1, e2, fun r hr => ?_, fun n hn => ?_, e5⟩
  · obtain ⟨j, hj, rfl⟩ := List.getElem_of_mem hr
    have := (List.forall₂_iff_get.mp e3).2 j (by rw [e3.length_eq]; exact hj) hj
    obtain ⟨g1, g2⟩ := this
    simp only [List.get_eq_getElem] at g1 g2
    rw [g2, List.length_append, be_length]
    omega
  · obtain ⟨yn, k1, k2, k3⟩ := e4 n hn
    refine ⟨yn, k1, k2, fun st app hI0 hin hloop => ?_⟩
    obtain ⟨rv, o, st1, app1, f1, f2, f3, -, f5⟩ := hN1 (k + 7) (by omega) st app y hI0 (k + 8)
    rw [← f5] at hin
    have hs : Stream (W'.input st1.world).flatten (ms.take n) .clean := by
      rw [hin]; exact stream_records (List.forall₂_take n e3)
    obtain ⟨x, hx, hrun⟩ := runN_stream hs
    obtain ⟨r, st', g1, w, rfl, g2, ⟨app', app2, g3, -⟩, g4⟩ := wp_iff.1 (serverMain_spec (k := k) T' (Beside.app T' A o _) (Beside.back B o _) (Beside.front T' F o _) f3 f2
      (hrun X'.loops _ rfl (by rw [hin]; exact hloop)))
    rw [serveAll_foldl] at k3
    obtain ⟨j1, j2⟩ := Prod.mk.inj k3
    cases hx
    cases g2
    exact ⟨rv, st1, st', app2, f1, g1, by rw [← j1]; exact g3, by rw [g4, List.flatten_append, j2, f5]⟩

end

/-- **C69** So it is with the package that the text of the generator leaves. -/
theorem C69_files [Others] {A : Lr} {sys : Sys} {fl : ToolFlags} {fs : Tool.FS} {s : Gen.Spec} {grow : Nat → Nat → Nat} {loops k : Nat} {q : Pkg}
    (R : SpecFile A sys fl fs s) (hm : succeeds (runTool A sys fl grow loops (k + 2) fs))
    (ho : outPkg fl.args (endFiles (runTool A sys fl grow loops (k + 2) fs)) = some q) (hq : Has (rpcPkg :: Others.ps) (typedPkg q))
    (X : Ext ω) (hX : 2 ^ 32 ≤ X.loops) (X' : Ext ω') (hX' : 2 ^ 32 ≤ X'.loops)
    {W : Wire ω} {rw : V} (T : Transport X W rw) {W' : Wire ω'} {rw' : V} (T' : Transport X' W' rw') {I : (Nat → Prop) → St ω' → σ → Prop}
    (A : App X' rw' I) (B : Back X' W' I) (F : Front X' W' rw' I) {p : ProgDef} (hp : .program p ∈ s) {v : ProgVer} (hv : v ∈ p.vers)
    {d h : Nat} {hi : Impl σ} (O : Object X' W' I (envOf fl.gen.unsignedEnum s) d v h hi) (hI : Implements (envOf fl.gen.unsignedEnum s) hi v)
    (hids : (v.calls.map (·.id)).Nodup) {cl : Client} (hcp : cl.prog = UInt32.ofNat p.id) (hcv : cl.vers = UInt32.ofNat v.id) {sites : List Site}
    (hta : ∀ b ∈ sites, b.own b.ta) (hap : sites.Pairwise Site.apart) :
    ∃ g, generate fl.gen s = some g ∧ ∀ (y y' : σ) (zs : List (Option XVal)), Executes (envOf fl.gen.unsignedEnum s) g hi v y (sites.map (·.toStep)) zs y' →
      Session X W rw X' W' rw' I (envOf fl.gen.unsignedEnum s) g q hi p v h cl sites y y' zs := by
  obtain ⟨g, vs, G⟩ := C66_files R hm ho
  exact ⟨g, G.gen, fun y y' zs hex => C69_session G hq X hX X' hX' T T' A B F hp hv O hI hids hcp hcv hta hap hex⟩

/-! ### A concrete case: the port mapper -/

attribute [local instance] withPmap

def mappingV (u : UInt32) : V := .struct "pmap.Mapping" [("Prog", .u32 7), ("Vers", .u32 1), ("Prot", .u32 6), ("Port", .u32 u)]

/-- The variables of `SET` are in the cells 0 and 1, those of `GETPORT` in the cells 3 and 4; the client is in the cell 2. -/
def sessionSt (u : UInt32) (input : Chunks) : St Net :=
  { heap := fun j => match j with
      | 0 => mappingV u
      | 1 => .bool false
      | 3 => mappingV 0
      | 4 => .u32 0
      | _ => clientV (.obj 0) ⟨98, 100000, 2⟩
    next := 5, world := ⟨input, [], true, none, []⟩, defers := [] }

def setGetSites (u : UInt32) : List Site :=
  [⟨⟨⟨"PMAPPROC_SET", some (.ident "mapping"), some (.ident "xbool"), 1⟩, ⟨0, none⟩, ⟨0, none⟩, some (mapping u), .bool false⟩, (· = 0), 0, 1, noAuth, noAuth⟩,
   ⟨⟨⟨"PMAPPROC_GETPORT", some (.ident "mapping"), some (.ident "uint32"), 3⟩, ⟨0, none⟩, ⟨0, none⟩, some (mapping 0), .u32 0⟩, (· = 3), 3, 4, noAuth, noAuth⟩]

theorem mappingV_rep (u : UInt32) (st : St Net) (ok : Nat → Prop) : Rep st ok (mappingV u) (mapping u) := by
  refine .struct rfl (show ["Prog", "Vers", "Prot", "Port"].Nodup by decide) fun k f v g y h1 h2 => ?_
  match k with
  | 0 => cases h1; cases h2; exact .u32 _
  | 1 => cases h1; cases h2; exact .u32 _
  | 2 => cases h1; cases h2; exact .u32 _
  | 3 => cases h1; cases h2; exact .u32 _
  | k + 4 => cases h1

theorem noAuth_body (j : Nat) : ¬ bodyAt noAuth j := by
  rintro ⟨f, b, h, -⟩
  cases h

theorem sites_at (u : UInt32) (input : Chunks) : ∀ b ∈ setGetSites u, b.At (.obj 0) 2 ⟨98, 100000, 2⟩ (sessionSt u input) := by
  intro b hb
  simp only [setGetSites, List.mem_cons, List.not_mem_nil, or_false] at hb
  rcases hb with rfl | rfl
  · exact ⟨⟨rfl, by show 2 < 5; decide, ⟨rfl, fun j hj => by rw [hj]; show 0 < 5; decide, mappingV_rep u _ _⟩, ⟨by show 1 < 5; decide, .bool _⟩,
      show ¬ 2 = 0 by decide, show 2 ≠ 1 by decide, show ¬ 1 = 0 by decide, ⟨.nil, rfl, .nil, fun s h => by cases h⟩, ⟨.nil, rfl, .nil, fun s h => by cases h⟩⟩, noAuth_body _, noAuth_body _⟩
  · exact ⟨⟨rfl, by show 2 < 5; decide, ⟨rfl, fun j hj => by rw [hj]; show 3 < 5; decide, mappingV_rep 0 _ _⟩, ⟨by show 4 < 5; decide, .u32 _⟩,
      show ¬ 2 = 3 by decide, show 2 ≠ 4 by decide, show ¬ 4 = 3 by decide, ⟨.nil, rfl, .nil, fun s h => by cases h⟩, ⟨.nil, rfl, .nil, fun s h => by cases h⟩⟩, noAuth_body _, noAuth_body _⟩

/-- The hypotheses of C69 hold of it: after `SET` with port `u`, `GETPORT` returns `u`. -/
example (u : UInt32) : ∃ k req1 req2 rep1 rep2,
    (∀ input : Chunks, input.flatten = req1 ++ req2 → input.flatten.length < 2 ^ 32 →
      ∃ rv st1 st' app', callN goProg pmapNet k (.fn "pmap" "PMAP_PROG_PMAP_VERS_regs") [.obj 7] (pmapSt input) = .ok ([rv], st1) ∧
        serverMain (atOnce pmapNet k) rv (.obj 0) st1 = .ok ([ioErr .eof], st') ∧ NetInv app' st' u ∧ st'.world.sent.flatten = rep1 ++ rep2) ∧
    ∀ input : Chunks, input.flatten = rep1 ++ rep2 → ClientRuns pmapNet netWire (envOf true Inst.Rfc1057.spec) pmapPkg 2 k []
      ((setGetSites u).zip [(req1, some (.bool true)), (req2, some (.uint u.toNat))]) (sessionSt u input) := by
  have hap : (setGetSites u).Pairwise Site.apart := by
    refine .cons ?_ (.cons (fun b hb => by cases hb) .nil)
    intro b hb
    rw [List.mem_singleton] at hb
    subst hb
    rintro j ((rfl | rfl) | h | h)
    · rintro (h | h) <;> cases h
    · rintro (h | h) <;> cases h
    · exact absurd h (noAuth_body j)
    · exact absurd h (noAuth_body j)
  have hS : Session pmapNet netWire (.obj 0) pmapNet netWire (.obj 0) NetInv (envOf true Inst.Rfc1057.spec) Inst.Rfc1057.prog pmapPkg pmapImpl pmapProg pmapVers 7
      ⟨98, 100000, 2⟩ (setGetSites u) 37 u [some (.bool true), some (.uint u.toNat)] :=
    C69_session pmap_generated has_pmap pmapNet (Nat.le_refl _) pmapNet (Nat.le_refl _)
      pmap_transport pmap_transport pmap_app pmap_back pmap_front pmapProg_mem (v := pmapVers) (List.mem_singleton.mpr rfl) pmap_object pmapImpl_ok (by decide)
      rfl rfl (by
        intro b hb
        simp only [setGetSites, List.mem_cons, List.not_mem_nil, or_false] at hb
        rcases hb with rfl | rfl <;> rfl) hap (setGet_executes u 37)
  obtain ⟨N, hN⟩ := hS
  obtain ⟨reqs, reps, h1, h2, -, h3, h4⟩ := hN N (Nat.le_refl _)
  match reqs, reps, h1, h2 with
  | [req1, req2], [rep1, rep2], _, _ =>
    refine ⟨N, req1, req2, rep1, rep2, fun input hin hl => ?_, fun input hin => ?_⟩
    · obtain ⟨yn, -, e, h⟩ := h3 2 (Nat.le_refl _)
      cases e rfl
      obtain ⟨rv, st1, st', app', k1, k2, k3, k4⟩ := h (pmapSt input) _ (pmap_inv _) (by simpa [pmapSt, netWire] using hin) (by rw [hin] at hl; show _ < 2 ^ 32; simpa using hl)
      exact ⟨rv, st1, st', app', k1, k2, k3, by simpa [pmapSt, netWire] using k4⟩
    · exact h4 2 (sessionSt u input) [] (sites_at u input) (by simpa [sessionSt, netWire] using hin)

end Verif.Props
