/-
PROPERTY C74: remote procedure calls that a server with several services cannot serve, as Go text.
-/
import Verif.Props.GoNetwork
import Verif.Props.GoFailure

namespace Verif.Props
open Verif.Xdr Verif.Spec Verif.Gen Verif.Rpc Verif.Lang Verif.Lang.Text

variable {ω ω' σ τ τ' : Type}

attribute [local irreducible] wp callN handleReqErr

/-! ### Specification -/

/-- A server of the services `xs` does not have procedure `proc` of version `vers` of program `prog`.  A version without procedures
registers nothing. -/
inductive Absent (xs : List (Service σ)) (prog vers proc : UInt32) : UInt32 → Prop
  | prog (h : ∀ x ∈ xs, x.vers.calls ≠ [] → x.prog.id ≠ prog.toNat) : Absent xs prog vers proc 1
  | vers (h : ∃ x ∈ xs, x.vers.calls ≠ [] ∧ x.prog.id = prog.toNat)
      (h' : ∀ x ∈ xs, x.vers.calls ≠ [] → ¬ (x.prog.id = prog.toNat ∧ x.vers.id = vers.toNat)) : Absent xs prog vers proc 2
  | proc (h : ∃ x ∈ xs, x.vers.calls ≠ [] ∧ x.prog.id = prog.toNat ∧ x.vers.id = vers.toNat)
      (h' : ∀ x ∈ xs, x.prog.id = prog.toNat → x.vers.id = vers.toNat → ∀ c ∈ x.vers.calls, c.id ≠ proc.toNat) : Absent xs prog vers proc 3

/-- As `Unserved` (C70), the server having the services `xs`; `q` and `E` are those of the client. -/
def UnservedBy [Others] (X : Ext ω) (W : Wire ω) (rw : V) (X' : Ext ω') (W' : Wire ω') (rw' : V) (I : (Nat → Prop) → St ω' → σ → Prop)
    (xs : List (Service σ)) (E : Spec.Env) (q : Pkg) (c : ProgCall) : Prop :=
  ∀ (cl : Client) (code : UInt32), Absent xs cl.prog cl.vers (UInt32.ofNat c.id) code →
    ∀ (cred verf : OpaqueAuth), goLen cred.body ≤ 400 → goLen verf.body ≤ 400 →
    ∀ (a : Option GoVal) (x : Option XVal), Stands E c.arg a x → 840 + (encO x).length < 2 ^ 31 →
    ∀ (r0 : GoVal), Target E c.res r0 → ∀ (own : Nat → Prop) (ta tr cc : Nat) (cv fv : V), own ta →
    ∃ N, ∀ k, N ≤ k → ∀ (y : σ), ∃ req rep,
      (∀ st : St ω, Calling rw c cc cl own ta a tr r0 cv fv cred verf st →
        Ends X k (.meth "rfc1057.Client" "Call") [.ptr "" ⟨cc, []⟩, .u32 (UInt32.ofNat c.id), cv, fv, addrOf q c.arg ta, addrOf q c.res tr] st fun _ st' =>
          W.sent st'.world = W.sent st.world ++ [req]) ∧
      (∀ (st : St ω') app, I app st y → (W'.input st.world).flatten = req →
        ∃ rvs st1 st' app', callRegs X' k xs st = .ok (rvs, st1) ∧
          serverOf (atOnce X' k) (rvs.map .many) rw' st1 = .ok ([ioErr .eof], st') ∧ I app' st' y ∧
          (W'.sent st'.world).flatten = (W'.sent st.world).flatten ++ rep) ∧
      (∀ (st : St ω) rest, Calling rw c cc cl own ta a tr r0 cv fv cred verf st → W.ok st.world = true → (W.input st.world).flatten = rep ++ rest →
        Ends X k (.meth "rfc1057.Client" "Call") [.ptr "" ⟨cc, []⟩, .u32 (UInt32.ofNat c.id), cv, fv, addrOf q c.arg ta, addrOf q c.res tr] st fun r st' =>
          r = [.err (strBytes "accept_stat %d") [.u32 code]] ∧ KeptIn c.res tr r0 st' ∧ (W.input st'.world).flatten = rest ∧
          W.sent st'.world = W.sent st.world ++ [req] ∧ st'.heap cc = clientV rw { cl with xid := cl.xid + 1 } ∧
          ∀ j, j < st.next → j ≠ cc → ¬ own j → j ≠ tr → st'.heap j = st.heap j)

/-! ### Proof -/

section
variable [Others]

/-- As C70, with a server made by any registrations. -/
theorem failureOf {E : Ext ω} {W : Wire ω} {k : Nat} {rw av rv cv fv : V} {ownA ownR : Nat → Prop} {RA : St ω → τ' → Prop}
    {RR RR' : St ω → τ → Prop} {fa : XdrState → τ' → XdrState} {fr : XdrState → τ → XdrState × τ} {c : Nat} {cl : Client}
    {cred verf : OpaqueAuth} {ya : τ'} {yr : τ}
    {E' : Ext ω'} {W' : Wire ω'} {k' : Nat} {rw' : V} (T : Transport E' W' rw') {rss : List (List (ProcReg σ))} (proc : UInt32) {abytes : List UInt8}
    (h1 : goLen cred.body ≤ 400) (h2 : goLen verf.body ≤ 400) (ha : Encodes (fun xs => fa xs ya) abytes)
    (hlen : 840 + abytes.length < 2 ^ 31) {y y' : σ} {code : UInt32} (hf : CannotServe rss.flatten cl.prog cl.vers proc abytes y y' code) :
    ∃ req rep, req.length < 2 ^ 32 ∧
      (∀ st, CallSite E W k rw av rv cv fv ownA ownR RA RR RR' fa fr c cl cred verf ya yr st →
        Ends E (k + 8) (.meth "rfc1057.Client" "Call") [.ptr "" ⟨c, []⟩, .u32 proc, cv, fv, av, rv] st fun _ st' =>
          W.sent st'.world = W.sent st.world ++ [req]) ∧
      (∀ I : (Nat → Prop) → St ω' → σ → Prop, App E' rw' I → Back E' W' I → Front E' W' rw' I → ∀ st app rcs, I app st y →
        List.Forall₂ (RegCall.At (Handles E' W' (k' + 7) I) st) rcs rss → (W'.input st.world).flatten = req → req.length < E'.loops →
        ∃ st' app', serverOf (atOnce E' (k' + 9)) rcs rw' st = .ok ([ioErr .eof], st') ∧ I app' st' y' ∧
          (W'.sent st'.world).flatten = (W'.sent st.world).flatten ++ rep) ∧
      (∀ st rest, CallSite E W k rw av rv cv fv ownA ownR RA RR RR' fa fr c cl cred verf ya yr st → W.ok st.world = true →
        (W.input st.world).flatten = rep ++ rest →
        Ends E (k + 8) (.meth "rfc1057.Client" "Call") [.ptr "" ⟨c, []⟩, .u32 proc, cv, fv, av, rv] st fun r st' =>
          r = [.err (strBytes "accept_stat %d") [.u32 code]] ∧ Holds RR RR' yr st' yr ∧ (W.input st'.world).flatten = rest ∧
          W.sent st'.world = W.sent st.world ++ [req] ∧ st'.heap c = clientV rw { cl with xid := cl.xid + 1 } ∧
          ∀ j, j < st.next → j ≠ c → ¬ ownA j → ¬ ownR j → st'.heap j = st.heap j) := by
  have hreq := callRequest_ok { cl with xid := cl.xid + 1 } proc cred verf (fun xs => fa xs ya) h1 h2 ha
  generalize hm : callBytes (Client.header { cl with xid := cl.xid + 1 } proc cred verf) abytes = m at hreq
  have hmlen : m.length < 2 ^ 31 := by
    have := call_length { cl with xid := cl.xid + 1 } proc cred verf abytes h1 h2
    rw [hm] at this; omega
  have hrec := record_of_small hmlen
  generalize be 4 (2 ^ 31 + m.length % 2 ^ 31) ++ m = req at hreq hrec
  have hcall : IsCall (Client.header { cl with xid := cl.xid + 1 } proc cred verf) abytes m := by
    rw [← hm]
    have hg : ∀ b : GoBytes, (goElems b).length = goLen b := by intro b; cases b <;> rfl
    exact callBytes_isCall (by simpa [Client.header, authOf, hg] using h1)
      (by simpa [Client.header, authOf, hg] using h2) _
  obtain ⟨hst, rm, rep, hok, hrep, hreprec⟩ := CannotServe.answered (c := Client.header { cl with xid := cl.xid + 1 } proc cred verf) hf hcall rfl
  refine ⟨req, rep, ?_, fun st h => ?_, fun I A B F st app rcs hI hreg hin hloop => ?_, fun st rest h hwok hin => ?_⟩
  rotate_left 1
  · refine (h.ends proc).mono ?_
    rintro r st' ⟨e, rfl, he⟩
    rw [he.sent, call_sent _ _ _ _ _ _ _ _ _ hreq]
    rfl
  · have hs := reported_clean hrec hin
    obtain ⟨x, hx, hrun⟩ := runN_stream hs
    obtain ⟨r, st', g1, v, rfl, g2, ⟨app', g3⟩, g4⟩ := wp_iff.1 (serverOf_spec (k := k') T A B F hI hreg (hrun E'.loops _ rfl (by rw [hin]; exact hloop)))
    simp only [List.foldl_cons, List.foldl_nil, Lang.serve, hok, hst, List.nil_append] at g3 g4
    cases hx
    cases g2
    exact ⟨st', app', g1, g3, by rw [g4]; simp⟩
  · refine (h.ends proc).mono ?_
    rintro r st' ⟨e, rfl, he⟩
    rw [hwok] at he
    obtain ⟨cs, hr, hcs⟩ := readRequest_record hreprec hin
    have hcl : cl.call proc cred verf (fun xs => fa xs ya) fr yr true (W.input st.world) =
        ⟨{ cl with xid := cl.xid + 1 }, some req, some (.acceptStat code), yr, cs⟩ := by
      simp only [Client.call, hreq, if_true, readReply_ok.mpr hr]
      rw [parseReply_refusal (xid := cl.xid + 1) fr yr hf.code hrep]
    rw [hcl] at he
    refine ⟨?_, he.resp.imp (fun h => h st' (fun _ _ => rfl) (Nat.le_refl _)) id, by rw [he.input]; exact hcs, by rw [he.sent]; rfl, he.client, he.frame⟩
    have := he.err
    cases this with
    | accept s => rfl
  · obtain ⟨g1, g2⟩ := hrec
    rw [g2, List.length_append, be_length]
    omega

omit [Others] in
theorem forall2_flatten {R : Service σ → List (ProcReg σ) → Prop} {xs : List (Service σ)} {rss : List (List (ProcReg σ))} (h : List.Forall₂ R xs rss) :
    (∀ r ∈ rss.flatten, ∃ x ∈ xs, ∃ rs, R x rs ∧ r ∈ rs) ∧ ∀ x ∈ xs, ∃ rs, R x rs ∧ ∀ r ∈ rs, r ∈ rss.flatten := by
  induction h with
  | nil => exact ⟨fun _ h => (by cases h), fun _ h => (by cases h)⟩
  | cons h _ ih =>
    refine ⟨fun r hm => ?_, fun x hm => ?_⟩
    · rw [List.flatten_cons, List.mem_append] at hm
      rcases hm with hm | hm
      · exact ⟨_, List.mem_cons_self, _, h, hm⟩
      · obtain ⟨x, h1, h2⟩ := ih.1 r hm
        exact ⟨x, List.mem_cons_of_mem _ h1, h2⟩
    · rcases List.mem_cons.mp hm with rfl | hm
      · exact ⟨_, h, fun r hr => by rw [List.flatten_cons]; exact List.mem_append_left _ hr⟩
      · obtain ⟨rs, h1, h2⟩ := ih.2 x hm
        exact ⟨rs, h1, fun r hr => by rw [List.flatten_cons]; exact List.mem_append_right _ (h2 r hr)⟩

omit [Others] in
theorem Absent.cannot {xs : List (Service σ)} {prog vers proc code : UInt32} (h : Absent xs prog vers proc code) {rss : List (List (ProcReg σ))}
    (hr : List.Forall₂ (fun x rs => Registrations x.env x.go x.impl x.prog x.vers rs ∧ Modest rs) xs rss) (args : List UInt8) (s : σ) :
    CannotServe rss.flatten prog vers proc args s s code := by
  obtain ⟨hf1, hf2⟩ := forall2_flatten hr
  have hall : ∀ r ∈ rss.flatten, ∃ x ∈ xs, r.prog.toNat = x.prog.id ∧ r.vers.toNat = x.vers.id ∧ ∃ c ∈ x.vers.calls, r.proc.toNat = c.id := by
    intro r hm
    obtain ⟨x, hx, rs, ⟨h1, -⟩, hrm⟩ := hf1 r hm
    have : (r.prog.toNat, r.vers.toNat, r.proc.toNat) ∈ x.vers.calls.map fun c => (x.prog.id, x.vers.id, c.id) := by
      rw [← h1.numbers]; exact List.mem_map_of_mem hrm
    obtain ⟨c, hc, he⟩ := List.mem_map.1 this
    simp only [Prod.mk.injEq] at he
    exact ⟨x, hx, he.1.symm, he.2.1.symm, c, hc, he.2.2.symm⟩
  have hsome : ∀ x ∈ xs, x.vers.calls ≠ [] → ∃ r ∈ rss.flatten, r.prog.toNat = x.prog.id ∧ r.vers.toNat = x.vers.id := by
    intro x hx hne
    obtain ⟨rs, ⟨h1, -⟩, h2⟩ := hf2 x hx
    cases rs with
    | nil =>
      have := h1.numbers
      rw [List.map_nil] at this
      exact absurd (List.map_eq_nil_iff.mp this.symm) hne
    | cons r rs => exact ⟨r, h2 r List.mem_cons_self, h1.number List.mem_cons_self⟩
  cases h with
  | prog h =>
    refine .prog fun r hm e => ?_
    obtain ⟨x, hx, e1, -, c, hc, -⟩ := hall r hm
    exact h x hx (List.ne_nil_of_mem hc) (by rw [← e1, e])
  | vers h h' =>
    obtain ⟨x, hx, hne, e⟩ := h
    obtain ⟨r, hm, e1, -⟩ := hsome x hx hne
    refine .vers ⟨r, hm, UInt32.toNat_inj.1 (e1.trans e)⟩ fun r hm e => ?_
    obtain ⟨x, hx, e1, e2, c, hc, -⟩ := hall r hm
    exact h' x hx (List.ne_nil_of_mem hc) ⟨by rw [← e1, e.1], by rw [← e2, e.2]⟩
  | proc h h' =>
    obtain ⟨x, hx, hne, e, e'⟩ := h
    obtain ⟨r, hm, e1, e2⟩ := hsome x hx hne
    refine .proc ⟨r, hm, UInt32.toNat_inj.1 (e1.trans e), UInt32.toNat_inj.1 (e2.trans e')⟩ fun r hm e => ?_
    obtain ⟨x, hx, e1, e2, c, hc, e3⟩ := hall r hm
    exact h' x hx (by rw [← e1, e.1]) (by rw [← e2, e.2.1]) c hc (by rw [← e3, e.2.2])

variable {fl : Flags} {s : Gen.Spec} {g : GoProg} {vs : List GoVers} {q : Pkg} (G : Generated fl s g vs q)
  (hq : Has (rpcPkg :: Others.ps) (typedPkg q)) (X : Ext ω) (hX : 2 ^ 32 ≤ X.loops) (X' : Ext ω') (hX' : 2 ^ 32 ≤ X'.loops)

local notation "𝓔" => envOf fl.unsignedEnum s

include G hq hX hX' in
/-- **C74** A procedure of any generated program is called at a server of any services, none of which has it. -/
theorem C74_call {W : Wire ω} {rw : V} (T : Transport X W rw) {W' : Wire ω'} {rw' : V} (T' : Transport X' W' rw') {I : (Nat → Prop) → St ω' → σ → Prop}
    (A : App X' rw' I) (B : Back X' W' I) (F : Front X' W' rw' I) {xs : List (Service σ)} (hx : ∀ x ∈ xs, x.Ok X' W' I)
    {p : ProgDef} (hp : .program p ∈ s) {v : ProgVer} (hv : v ∈ p.vers) {c : ProgCall} (hc : c ∈ v.calls) :
    UnservedBy X W rw X' W' rw' I xs 𝓔 q c := by
  intro cl code hcode cred verf h1 h2 a x ha hlen r0 hr0 own ta tr cc cv fv hta
  have hs := supported_of G.comp
  have hok := callable_of G hp
  obtain ⟨rss, hr, N1, hN1⟩ := callRegs_spec X' hX' A hx
  obtain ⟨henc, -⟩ := arg_encodes G.gen hs ha
  have hnm : c.res.all (Named 𝓔) = true := by
    simp only [callable, Bool.and_eq_true, decide_eq_true_eq, List.all_eq_true] at hok
    exact ((hok.2 v hv).2 c hc).2
  obtain ⟨N2, hN2⟩ := Calling.site G hq X hX T ha hnm hr0 own ta tr hta
  refine ⟨N1 + N2 + 20, fun k hk y => ?_⟩
  obtain ⟨k, rfl⟩ : ∃ k', k = k' + 9 := ⟨k - 9, by omega⟩
  have hsite := fun st => hN2 (k + 1) (by omega) st cc cl cv fv cred verf
  obtain ⟨req, rep, q0, q1, q2, q3⟩ := failureOf (E := X) (W := W) (k := k + 1) (rw := rw) (av := addrOf q c.arg ta) (rv := addrOf q c.res tr)
    (cv := cv) (fv := fv) (ownA := own) (ownR := (· = tr)) (RA := fun st (_ : Unit) => ArgVar c.arg own ta a st)
    (RR := fun st r => r = r0 ∧ ResVar c.res tr r st) (RR' := fun st r => match c.res with | some (.ident _) => HasValue st tr r | _ => True)
    (fa := fun xs _ => argObj g c a xs) (fr := resObj g c) (c := cc) (cl := cl) (cred := cred) (verf := verf) (ya := ()) (yr := r0) (k' := k)
    T' (UInt32.ofNat c.id) h1 h2 henc hlen (hcode.cannot hr (encO x) y)
  refine ⟨req, rep, fun st hst => q1 st (hsite st hst), fun st app hI0 hin => ?_, fun st rest hst hwok hin => ?_⟩
  · obtain ⟨rvs, l, st1, e1, e2, e3, e4, e5, e6, e7, e8⟩ := hN1 (k + 7) (by omega) st app y hI0 (k + 8)
    obtain ⟨st', app', f1, f2, f3⟩ := q2 _ (besides_app T' A l) (besides_back B l) (besides_front T' F l) st1 _ (rvs.map .many)
      (besides_intro e5 (fun c hc => ⟨fun h => by have := A.lt _ hI0 h; have := (e3 c hc).1; omega, (e3 c hc).2⟩) e4)
      (by
        rw [List.forall₂_map_left_iff]
        exact e2.imp fun _ _ ⟨c, hc, h⟩ => .many (regsAt_weaken h fun _ _ H => handles_among H hc))
      (by rw [e8]; exact hin) (by omega)
    obtain ⟨app0, f2⟩ := besides_inner f2
    exact ⟨rvs, st1, st', app0, e1, f1, f2, by rw [f3, e8]⟩
  · refine (q3 st rest (hsite st hst) hwok hin).mono ?_
    rintro r st' ⟨rfl, g2, g3, g5, g6, g7⟩
    refine ⟨rfl, ?_, g3, g5, g6, g7⟩
    unfold KeptIn
    unfold Holds ResVar at g2
    cases hn : c.res with
    | none => trivial
    | some t =>
      rw [hn] at g2
      cases t with
      | ident n =>
        rcases g2 with g2 | ⟨⟨-, g2, g4⟩, -⟩
        · exact g2
        · exact ⟨g2, Rep.mono g4 (fun _ h => h.elim) (Nat.le_refl _) fun _ h => h.elim⟩
      | _ => trivial

end

/-! ### A concrete case: the services of C72

The client asks for version 3. -/

attribute [local instance] withBoth

theorem absent74 : Absent services72 100000 3 3 2 := .vers ⟨_, List.mem_cons_self, by simp [pmapVers], rfl⟩ (by
  intro x hx _ h
  simp only [services72, List.mem_cons, List.not_mem_nil, or_false] at hx
  rcases hx with rfl | rfl <;> exact absurd h.2 (by decide))

example : Absent services72 100001 2 3 1 := .prog (by
  intro x hx _ h
  simp only [services72, List.mem_cons, List.not_mem_nil, or_false] at hx
  rcases hx with rfl | rfl <;> exact absurd h (by decide))

example : Absent services72 100000 2 6 3 := .proc ⟨_, List.mem_cons_self, by simp [pmapVers], rfl, rfl⟩ (by
  intro x hx _ _
  simp only [services72, List.mem_cons, List.not_mem_nil, or_false] at hx
  rcases hx with rfl | rfl <;> decide)

def site74 (u vers : UInt32) (input : Chunks) : St Net :=
  { heap := fun j => match j with
      | 0 => .struct "pmap.Mapping" [("Prog", .u32 7), ("Vers", .u32 1), ("Prot", .u32 6), ("Port", .u32 u)]
      | 1 => .u32 0
      | _ => clientV (.obj 0) ⟨98, 100000, vers⟩
    next := 3, world := ⟨input, [], true, none, []⟩, defers := [] }

theorem calling74 (u vers : UInt32) (input : Chunks) :
    Calling (.obj 0) getPort 2 ⟨98, 100000, vers⟩ (· = 0) 0 (some (mapping u)) 1 (.u32 0) noAuth noAuth .zero .zero (site74 u vers input) where
  client := rfl
  lt := by show 2 < 3; decide
  arg := ⟨rfl, fun j hj => by rw [hj]; show 0 < 3; decide, by
    show Rep _ _ (.struct _ _) (.struct _)
    refine .struct rfl (show ["Prog", "Vers", "Prot", "Port"].Nodup by decide) fun k f v g y h1 h2 => ?_
    match k with
    | 0 => cases h1; cases h2; exact .u32 _
    | 1 => cases h1; cases h2; exact .u32 _
    | 2 => cases h1; cases h2; exact .u32 _
    | 3 => cases h1; cases h2; exact .u32 _
    | k + 4 => cases h1⟩
  res := ⟨by show 1 < 3; decide, .u32 _⟩
  notA := by decide
  notR := by decide
  apart := by decide
  cred := ⟨.nil, rfl, .nil, fun s h => by cases h⟩
  verf := ⟨.nil, rfl, .nil, fun s h => by cases h⟩

/-- The hypotheses of C74 hold of it. -/
example (u : UInt32) :
    ∃ k req rep, (∃ rvs st1 st' app', callRegs net72 k services72 (pmapSt [req]) = .ok (rvs, st1) ∧
        serverOf (atOnce net72 k) (rvs.map .many) (.obj 0) st1 = .ok ([ioErr .eof], st') ∧ NetInv app' st' 37 ∧ st'.world.sent.flatten = rep) ∧
        Ends net72 k (.meth "rfc1057.Client" "Call") [.ptr "" ⟨2, []⟩, .u32 3, noAuth, noAuth, .ptr "pmap.Mapping" ⟨0, []⟩, .ptr "pmap.Uint32" ⟨1, []⟩]
          (site74 u 3 [rep]) fun r st' => r = [.err (strBytes "accept_stat %d") [.u32 2]] ∧ HasValue st' 1 (.u32 0) := by
  have hz : Target (envOf true Inst.Rfc1057.spec) getPort.res (.u32 0) := by
    obtain ⟨z, h1, h2, h3⟩ := zero_fresh (n := "uint32") Inst.Rfc1057.gen Inst.Rfc1057.supp (by decide +kernel)
    have : z = .u32 0 := Option.some.inj (h1.symm.trans (by decide +kernel))
    rw [this] at h2 h3
    exact ⟨h2, h3⟩
  obtain ⟨N, hN⟩ := C74_call pmap_generated has_pmap72 net72 (Nat.le_refl _) net72 (Nat.le_refl _) transport72 transport72 app72 back72 front72 services72_ok
    pmapProg_mem (v := pmapVers) (List.mem_singleton.mpr rfl) (c := getPort) (by simp [pmapVers, getPort])
    ⟨98, 100000, 3⟩ 2 absent74 .zero .zero (by decide) (by decide) (some (mapping u)) (some (mappingX u)) (mapping_stands u)
    (by simp [encO, mappingX, enc, encs]) (.u32 0) hz (· = 0) 0 1 2 noAuth noAuth rfl
  obtain ⟨req, rep, -, h2, h3⟩ := hN N (Nat.le_refl _) (37 : UInt32)
  refine ⟨N, req, rep, ?_, ?_⟩
  · obtain ⟨rvs, st1, st', app', k1, k2, k3, k4⟩ := h2 (pmapSt [req]) _ (pmap_inv _) (by simp [pmapSt, netWire])
    exact ⟨rvs, st1, st', app', k1, k2, k3, by simpa [pmapSt, netWire] using k4⟩
  · obtain ⟨r, st', k1, k2, k3, -⟩ := h3 (site74 u 3 [rep]) [] (calling74 u 3 _) rfl (by simp [site74, netWire])
    exact ⟨r, st', k1, k2, k3⟩

/-- And this is what the texts do, step by step: with version 3, the error is PROG_MISMATCH. -/
example :
    let call := callN goProg net72 30 (.meth "rfc1057.Client" "Call")
      [.ptr "" ⟨2, []⟩, .u32 3, noAuth, noAuth, .ptr "pmap.Mapping" ⟨0, []⟩, .ptr "pmap.Uint32" ⟨1, []⟩]
    (match call (site74 0 3 []) with
      | .ok (_, st) =>
        match callRegs net72 30 services72 (pmapSt st.world.sent) with
        | .ok (rvs, st1) =>
          match serverOf (atOnce net72 30) (rvs.map .many) (.obj 0) st1 with
          | .ok (_, st2) =>
            match call (site74 0 3 st2.world.sent) with
            | .ok ([.err m [.u32 e]], st3) => match st3.heap 1 with
              | .u32 u => some (m, e, u, st3.world.input)
              | _ => none
            | _ => none
          | _ => none
        | _ => none
      | _ => none) = some (strBytes "accept_stat %d", 2, 0, []) := by
  decide +kernel

end Verif.Props
