/-
PROPERTY C73: remote procedure calls to a server with several versions, programs and generated packages, as Go text.
-/
import Verif.Props.GoVersions
import Verif.Props.GoRemote

namespace Verif.Props
open Verif.Xdr Verif.Spec Verif.Gen Verif.Rpc Verif.Lang Verif.Lang.Text

variable {ω ω' σ τ τ' : Type}

attribute [local irreducible] wp callN handleReqErr

/-! ### Specification -/

/-- As `Remote` (C68), of procedure `c` of the service `x`, the server having all the services `xs`. -/
def RemoteTo [Others] (X : Ext ω) (W : Wire ω) (rw : V) (X' : Ext ω') (W' : Wire ω') (rw' : V) (I : (Nat → Prop) → St ω' → σ → Prop)
    (xs : List (Service σ)) (x : Service σ) (c : ProgCall) : Prop :=
  ∀ (cl : Client), cl.prog = UInt32.ofNat x.prog.id → cl.vers = UInt32.ofNat x.vers.id → ∀ (cred verf : OpaqueAuth), goLen cred.body ≤ 400 → goLen verf.body ≤ 400 →
    ∀ (a : Option GoVal) (u : Option XVal), Stands x.env c.arg a u → 840 + (encO u).length < 2 ^ 31 →
    ∀ (r0 : GoVal), Target x.env c.res r0 → ∀ (own : Nat → Prop) (ta tr cc : Nat) (cv fv : V), own ta →
    ∃ a', Stands x.env c.arg a' u ∧ ∃ N, ∀ k, N ≤ k → ∀ (y : σ) (z : Option XVal), Stands x.env c.res ((x.impl (i c.name) a').run () y).2 z →
      24 + (encO z).length < 2 ^ 31 → ∃ req rep,
      (∀ st : St ω, Calling rw c cc cl own ta a tr r0 cv fv cred verf st →
        Ends X k (.meth "rfc1057.Client" "Call") [.ptr "" ⟨cc, []⟩, .u32 (UInt32.ofNat c.id), cv, fv, addrOf x.pkg c.arg ta, addrOf x.pkg c.res tr] st fun _ st' =>
          W.sent st'.world = W.sent st.world ++ [req]) ∧
      (∀ (st : St ω') app, I app st y → (W'.input st.world).flatten = req →
        ∃ rvs st1 st' app', callRegs X' k xs st = .ok (rvs, st1) ∧
          serverOf (atOnce X' k) (rvs.map .many) rw' st1 = .ok ([ioErr .eof], st') ∧ I app' st' ((x.impl (i c.name) a').run () y).1 ∧
          (W'.sent st'.world).flatten = (W'.sent st.world).flatten ++ rep) ∧
      (∀ (st : St ω) rest, Calling rw c cc cl own ta a tr r0 cv fv cred verf st → W.ok st.world = true → (W.input st.world).flatten = rep ++ rest →
        Ends X k (.meth "rfc1057.Client" "Call") [.ptr "" ⟨cc, []⟩, .u32 (UInt32.ofNat c.id), cv, fv, addrOf x.pkg c.arg ta, addrOf x.pkg c.res tr] st fun r st' =>
          r = [.nil] ∧ GotIn x.env c.res tr z st' ∧ (W.input st'.world).flatten = rest)

/-! ### Proof -/

section
variable [Others]

/-- As C57, with a server made by any registrations. -/
theorem exchangeOf {E : Ext ω} {W : Wire ω} {k : Nat} {rw av rv cv fv : V} {ownA ownR : Nat → Prop} {RA : St ω → τ' → Prop}
    {RR RR' : St ω → τ → Prop} {fa : XdrState → τ' → XdrState} {fr : XdrState → τ → XdrState × τ} {c : Nat} {cl : Client}
    {cred verf : OpaqueAuth} {ya : τ'} {yr : τ}
    {E' : Ext ω'} {W' : Wire ω'} {k' : Nat} {rw' : V} (T : Transport E' W' rw') {rss : List (List (ProcReg σ))} (proc : UInt32) {abytes : List UInt8}
    (h1 : goLen cred.body ≤ 400) (h2 : goLen verf.body ≤ 400) (ha : Encodes (fun xs => fa xs ya) abytes)
    (hlen : 840 + abytes.length < 2 ^ 31) {hd : ProcHandler σ} (hl : lastReg rss.flatten cl.prog cl.vers proc = some hd) {y y' : σ} {d : Xdrable}
    {rbytes : List UInt8} (hr : hd.run (makeReader abytes) y = (y', some d, false)) (hd' : Encodes d rbytes) (hrlen : 24 + rbytes.length < 2 ^ 31) :
    ∃ req rep, req.length < 2 ^ 32 ∧
      (∀ st, CallSite E W k rw av rv cv fv ownA ownR RA RR RR' fa fr c cl cred verf ya yr st →
        Ends E (k + 8) (.meth "rfc1057.Client" "Call") [.ptr "" ⟨c, []⟩, .u32 proc, cv, fv, av, rv] st fun _ st' =>
          W.sent st'.world = W.sent st.world ++ [req]) ∧
      (∀ I : (Nat → Prop) → St ω' → σ → Prop, App E' rw' I → Back E' W' I → Front E' W' rw' I → ∀ st app rcs, I app st y →
        List.Forall₂ (RegCall.At (Handles E' W' (k' + 7) I) st) rcs rss → (W'.input st.world).flatten = req → req.length < E'.loops →
        ∃ st' app', serverOf (atOnce E' (k' + 9)) rcs rw' st = .ok ([ioErr .eof], st') ∧ I app' st' y' ∧
          (W'.sent st'.world).flatten = (W'.sent st.world).flatten ++ rep) ∧
      (∀ st rest, CallSite E W k rw av rv cv fv ownA ownR RA RR RR' fa fr c cl cred verf ya yr st → W.ok st.world = true →
        (W.input st.world).flatten = rep ++ rest →
        Ends E (k + 8) (.meth "rfc1057.Client" "Call") [.ptr "" ⟨c, []⟩, .u32 proc, cv, fv, av, rv] st fun r st' => ∃ e, r = [e] ∧
          (e = .nil ↔ (fr (makeReader rbytes) yr).1.err = none) ∧ Holds RR RR' yr st' (fr (makeReader rbytes) yr).2 ∧
          (W.input st'.world).flatten = rest) := by
  obtain ⟨req, rep, q1, q2, q3⟩ := C39_exchange rss.flatten cl proc cred verf (fun xs => fa xs ya) fr yr y h1 h2 ha hlen hl hr hd' hrlen
  obtain ⟨out, o1, o2⟩ := C36_sent cl proc cred verf (fun xs => fa xs ya) fr yr true [] abytes h1 h2 ha
  rw [q1] at o1
  cases o1
  have hrec := o2.1 (by
    have := call_length { cl with xid := cl.xid + 1 } proc cred verf abytes h1 h2
    exact Nat.lt_of_le_of_lt this hlen)
  have hlt : req.length < 2 ^ 32 := by
    obtain ⟨g1, rfl⟩ := hrec
    rw [List.length_append, be_length]
    omega
  refine ⟨req, rep, hlt, fun st h => ?_, fun I A B F st app rcs hI hreg hin hloop => ?_, fun st rest h hok hin => ?_⟩
  · refine (h.ends proc).mono ?_
    rintro r st' ⟨e, rfl, he⟩
    rw [he.sent, q1]; rfl
  · have hs := reported_clean hrec hin
    obtain ⟨x, hx, hrun⟩ := runN_stream hs
    obtain ⟨r, st', g1, v, rfl, g2, ⟨app', g3⟩, g4⟩ := wp_iff.1 (serverOf_spec (k := k') T A B F hI hreg (hrun E'.loops _ rfl (by rw [hin]; exact hloop)))
    have hms := (C31_records _ _ _ hs).1
    have hq := q2 _ hin
    rw [serve, hms, serveAll_foldl] at hq
    obtain ⟨e1, e2⟩ := Prod.mk.inj hq
    cases hx
    cases g2
    exact ⟨st', app', g1, by rw [← e1]; exact g3, by rw [g4, List.flatten_append, e2]⟩
  · refine (h.ends proc).mono ?_
    rintro r st' ⟨e, rfl, he⟩
    rw [hok] at he
    obtain ⟨k1, k2, k3⟩ := q3 _ _ hin
    refine ⟨e, rfl, ?_, ?_, ?_⟩
    · rw [CallRel.nil_iff he.err, k2]
    · have := he.resp
      rw [k1] at this
      exact this.imp (fun h => h st' (fun _ _ => rfl) (Nat.le_refl _)) id
    · rw [he.input, k3]

omit [Others] in
theorem forall2_middle {α β : Type} {R : α → β → Prop} {x : α} {b : List α} : ∀ {a : List α} {r : List β}, List.Forall₂ R (a ++ x :: b) r →
    ∃ ra y rb, r = ra ++ y :: rb ∧ R x y ∧ List.Forall₂ R b rb
  | [], _, .cons h hs => ⟨[], _, _, rfl, h, hs⟩
  | _ :: _, _, .cons _ hs => by
    obtain ⟨ra, y, rb, rfl, h⟩ := forall2_middle hs
    exact ⟨_ :: ra, y, rb, rfl, h⟩

omit [Others] in
theorem lastReg_before {a b : List (ProcReg σ)} {p v c : UInt32} (h : ∀ r ∈ b, ¬ (r.prog = p ∧ r.vers = v)) : lastReg (a ++ b) p v c = lastReg a p v c := by
  rw [lastReg, lastReg, List.reverse_append, List.find?_append, List.find?_eq_none.mpr, Option.none_or]
  intro r hr
  have := h r (List.mem_reverse.mp hr)
  simp only [Bool.and_eq_true, beq_iff_eq]
  exact fun e => this e.1

omit [Others] in
theorem Registrations.number {C : Spec.Env} {g : GoProg} {hi : Impl σ} {p : ProgDef} {v : ProgVer} {regs : List (ProcReg σ)} (hr : Registrations C g hi p v regs)
    {r : ProcReg σ} (h : r ∈ regs) : r.prog.toNat = p.id ∧ r.vers.toNat = v.id := by
  have : (r.prog.toNat, r.vers.toNat, r.proc.toNat) ∈ v.calls.map fun c => (p.id, v.id, c.id) := by
    rw [← hr.numbers]
    exact List.mem_map.mpr ⟨r, h, rfl⟩
  obtain ⟨c, -, e⟩ := List.mem_map.mp this
  simp only [Prod.mk.injEq] at e
  exact ⟨e.1.symm, e.2.1.symm⟩

variable (X : Ext ω) (hX : 2 ^ 32 ≤ X.loops) (X' : Ext ω') (hX' : 2 ^ 32 ≤ X'.loops)

include hX hX' in
/-- **C73** Any procedure of any service of the server can be called, if no service registered after it has the same numbers. -/
theorem C73_call {W : Wire ω} {rw : V} (T : Transport X W rw) {W' : Wire ω'} {rw' : V} (T' : Transport X' W' rw') {I : (Nat → Prop) → St ω' → σ → Prop}
    (A : App X' rw' I) (B : Back X' W' I) (F : Front X' W' rw' I) {pre post : List (Service σ)} {x : Service σ}
    (hx : ∀ x' ∈ pre ++ x :: post, x'.Ok X' W' I) (hpost : ∀ x' ∈ post, ¬ (x'.prog.id = x.prog.id ∧ x'.vers.id = x.vers.id))
    (hids : (x.vers.calls.map (·.id)).Nodup) {c : ProgCall} (hc : c ∈ x.vers.calls) :
    RemoteTo X W rw X' W' rw' I (pre ++ x :: post) x c := by
  obtain ⟨rss, hrs, N1, hN1⟩ := callRegs_spec X' hX' A hx
  obtain ⟨fl, s, vs, he, G, hq, hp, hv, -, -, -⟩ := hx x (by simp)
  obtain ⟨rpre, regs, rpost, rfl, ⟨hr, -⟩, hrpost⟩ := forall2_middle hrs
  have hlater : ∀ r ∈ rpost.flatten, ∃ x' ∈ post, r.prog.toNat = x'.prog.id ∧ r.vers.toNat = x'.vers.id := by
    clear hpost hx hN1 hrs
    induction hrpost with
    | nil => exact fun _ h => (by cases h)
    | cons h _ ih =>
      intro r hm
      rw [List.flatten_cons, List.mem_append] at hm
      rcases hm with hm | hm
      · exact ⟨_, List.mem_cons_self, h.1.number hm⟩
      · obtain ⟨x', h1, h2⟩ := ih r hm
        exact ⟨x', List.mem_cons_of_mem _ h1, h2⟩
  obtain ⟨q, go, env, p, v, h, hi⟩ := x
  dsimp only at he G hq hp hv hpost hids hc hr
  subst he
  intro cl hcp hcv cred verf h1 h2 a x ha hlen r0 hr0 own ta tr cc cv fv hta
  dsimp only at hcp hcv ha hr0 ⊢
  have hs := supported_of G.comp
  have hok := callable_of G hp
  obtain ⟨henc, a', ha', harr⟩ := arg_encodes G.gen hs ha
  have hnm : c.res.all (Named (envOf fl.unsignedEnum s)) = true := by
    simp only [callable, Bool.and_eq_true, decide_eq_true_eq, List.all_eq_true] at hok
    exact ((hok.2 v hv).2 c hc).2
  obtain ⟨N2, hN2⟩ := Calling.site G hq X hX T ha hnm hr0 own ta tr hta
  refine ⟨a', ha', N1 + N2 + 20, fun k hk y z hz hzl => ?_⟩
  obtain ⟨k0, hck⟩ := List.getElem?_of_mem hc
  have hrl : regs.length = v.calls.length := by
    have := congrArg List.length hr.numbers; simpa using this
  obtain ⟨r, hrk⟩ : ∃ r, regs[k0]? = some r := ⟨_, List.getElem?_eq_getElem (by
    have := (List.getElem?_eq_some_iff.mp hck).1; omega)⟩
  obtain ⟨dd, hrun, hret⟩ := (hr.serves k0 c r hck hrk (encO x) y).1 a' harr
  have hd : Encodes dd (encO z) := returns_encodes hret hz
  have hlast : lastReg (rpre ++ regs :: rpost).flatten cl.prog cl.vers (UInt32.ofNat c.id) = some r.handler := by
    rw [hcp, hcv, List.flatten_append, List.flatten_cons, ← List.append_assoc, lastReg_before, lastReg_table hr.numbers hids hck hrk]
    rintro r' hr' ⟨e1, e2⟩
    obtain ⟨x', m1, m2, m3⟩ := hlater r' hr'
    obtain ⟨n1, n2⟩ := hr.number (List.mem_of_getElem? hrk)
    refine hpost x' m1 ⟨?_, ?_⟩
    · rw [← m2, e1, ← n1]; simp
    · rw [← m3, e2, ← n2]; simp
  obtain ⟨k, rfl⟩ : ∃ k', k = k' + 9 := ⟨k - 9, by omega⟩
  have hsite := fun st => hN2 (k + 1) (by omega) st cc cl cv fv cred verf
  obtain ⟨req, rep, q0, q1, q2, q3⟩ := exchangeOf (E := X) (W := W) (k := k + 1) (rw := rw) (av := addrOf q c.arg ta) (rv := addrOf q c.res tr)
    (cv := cv) (fv := fv) (ownA := own) (ownR := (· = tr)) (RA := fun st (_ : Unit) => ArgVar c.arg own ta a st)
    (RR := fun st r => r = r0 ∧ ResVar c.res tr r st) (RR' := fun st r => match c.res with | some (.ident _) => HasValue st tr r | _ => True)
    (fa := fun xs _ => argObj go c a xs) (fr := resObj go c) (c := cc) (cl := cl) (cred := cred) (verf := verf) (ya := ()) (yr := r0) (k' := k)
    T' (UInt32.ofNat c.id) h1 h2 henc hlen hlast hrun hd hzl
  refine ⟨req, rep, fun st hst => q1 st (hsite st hst), fun st app hI0 hin => ?_, fun st rest hst hwok hin => ?_⟩
  · obtain ⟨rvs, l, st1, e1, e2, e3, e4, e5, e6, e7, e8⟩ := hN1 (k + 7) (by omega) st app y hI0 (k + 8)
    obtain ⟨st', app', f1, f2, f3⟩ := q2 _ (besides_app T' A l) (besides_back B l) (besides_front T' F l) st1 _ (rvs.map .many)
      (besides_intro e5 (fun c hc => ⟨fun h => by have := A.lt _ hI0 h; have := (e3 c hc).1; omega, (e3 c hc).2⟩) e4)
      (by
        rw [List.forall₂_map_left_iff]
        exact e2.imp fun _ _ ⟨c, hc, h⟩ => .many (regsAt_weaken h fun _ _ H => handles_among H hc))
      (by rw [e8]; exact hin) (by omega)
    obtain ⟨app0, f2⟩ := besides_inner f2
    exact ⟨rvs, st1, st', app0, e1, f1, f2, by rw [f3, e8]⟩
  · refine (q3 st rest (hsite st hst) hwok hin).mono ?_
    rintro r st' ⟨e, rfl, g1, g2, g3⟩
    obtain ⟨f1, f2⟩ := res_decodes G.gen hs hz hr0
    refine ⟨by rw [g1.mpr f1], ?_, g3⟩
    generalize (resObj go c (makeReader (encO z)) r0).2 = w at g2 f2
    unfold Got at f2
    unfold GotIn
    split at f2
    · rename_i n z' hn
      rw [hn] at g2 ⊢
      refine ⟨w, ?_, f2⟩
      rcases g2 with g2 | ⟨⟨-, g2, g4⟩, rfl⟩
      · exact g2
      · exact ⟨g2, Rep.mono g4 (fun _ h => h.elim) (Nat.le_refl _) fun _ h => h.elim⟩
    · rename_i hn
      rw [hn]
      trivial
    · exact f2.elim
end

/-! ### A concrete case: the services of C72 -/

attribute [local instance] withBoth

/-- The hypotheses of C73 hold of them: the port is 37. -/
example (u : UInt32) : ∃ k req rep,
    (∀ input, Ends net72 k (.meth "rfc1057.Client" "Call") [.ptr "" ⟨2, []⟩, .u32 3, noAuth, noAuth, .ptr "pmap.Mapping" ⟨0, []⟩, .ptr "pmap.Uint32" ⟨1, []⟩]
      (remoteSt u input) fun _ st' => st'.world.sent = [req]) ∧
    (∃ rvs st1 st' app', callRegs net72 k services72 (pmapSt [req]) = .ok (rvs, st1) ∧
      serverOf (atOnce net72 k) (rvs.map .many) (.obj 0) st1 = .ok ([ioErr .eof], st') ∧ NetInv app' st' 37 ∧ st'.world.sent.flatten = rep) ∧
    Ends net72 k (.meth "rfc1057.Client" "Call") [.ptr "" ⟨2, []⟩, .u32 3, noAuth, noAuth, .ptr "pmap.Mapping" ⟨0, []⟩, .ptr "pmap.Uint32" ⟨1, []⟩]
      (remoteSt u [rep]) fun r st' => r = [.nil] ∧ GotIn (envOf true Inst.Rfc1057.spec) (some (.ident "uint32")) 1 (some (.uint 37)) st' := by
  have hz : Target (envOf true Inst.Rfc1057.spec) getPort.res (.u32 0) := by
    obtain ⟨z, h1, h2, h3⟩ := zero_fresh (n := "uint32") Inst.Rfc1057.gen Inst.Rfc1057.supp (by decide +kernel)
    have : z = .u32 0 := Option.some.inj (h1.symm.trans (by decide +kernel))
    rw [this] at h2 h3
    exact ⟨h2, h3⟩
  have hR := C73_call net72 (Nat.le_refl _) net72 (Nat.le_refl _) transport72 transport72 app72 back72 front72 (pre := services72.take 1) (post := [])
    (x := ⟨pmapPkg, Inst.Rfc1057.prog, envOf true Inst.Rfc1057.spec, pmapProg, pmapVers, 7, pmapImpl⟩) services72_ok (fun _ h => (by cases h)) (by decide)
    (c := getPort) (by simp [pmapVers, getPort])
  obtain ⟨a', -, N, hN⟩ := hR ⟨98, 100000, 2⟩ rfl rfl .zero .zero (by decide) (by decide) (some (mapping u)) (some (mappingX u)) (mapping_stands u)
    (by simp [encO, mappingX, enc, encs]) (.u32 0) hz (· = 0) 0 1 2 noAuth noAuth rfl
  obtain ⟨req, rep, h1, h2, h3⟩ := hN N (Nat.le_refl _) (37 : UInt32) (some (.uint 37))
    ⟨⟨1, _, rfl, ⟨37, rfl⟩⟩, ⟨1, rfl⟩, ⟨1, _, rfl, by simp [memD, memT]⟩⟩ (by decide)
  refine ⟨N, req, rep, fun input => h1 _ (remote_calling u input), ?_, ?_⟩
  · obtain ⟨rvs, st1, st', app', k1, k2, k3, k4⟩ := h2 (pmapSt [req]) _ (pmap_inv _) (by simp [pmapSt, netWire])
    exact ⟨rvs, st1, st', app', k1, k2, k3, by simpa [pmapSt, netWire] using k4⟩
  · obtain ⟨r, st', k1, k2, k3, -⟩ := h3 (remoteSt u [rep]) [] (remote_calling u _) rfl (by simp [remoteSt, netWire])
    exact ⟨r, st', k1, k2, k3⟩

/-- And this is what the texts do, step by step; the object that was registered last is called. -/
example :
    let call := callN goProg net72 30 (.meth "rfc1057.Client" "Call")
      [.ptr "" ⟨2, []⟩, .u32 3, noAuth, noAuth, .ptr "pmap.Mapping" ⟨0, []⟩, .ptr "pmap.Uint32" ⟨1, []⟩]
    [services72, services72.reverse].map (fun xs => match call (remoteSt 0 []) with
      | .ok (_, st) =>
        match callRegs net72 30 xs (pmapSt st.world.sent) with
        | .ok (rvs, st1) =>
          match serverOf (atOnce net72 30) (rvs.map .many) (.obj 0) st1 with
          | .ok (_, st2) =>
            match call (remoteSt 0 st2.world.sent) with
            | .ok ([.nil], st3) => match st3.heap 1 with
              | .u32 u => some (u, st3.world.input)
              | _ => none
            | _ => none
          | _ => none
        | _ => none
      | _ => none) = [some (37, []), some (0, [])] := by
  decide +kernel

end Verif.Props
