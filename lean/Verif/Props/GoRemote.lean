/-
PROPERTY C68: a remote procedure call, as Go text.

Client and server are programs of package xdr, package rfc1057, a generated package `q`, and others, each in a world of its own.
-/
import Verif.Props.GoRegs
import Verif.Props.GoExchange

namespace Verif.Props
open Verif.Xdr Verif.Spec Verif.Gen Verif.Rpc Verif.Lang Verif.Lang.Text

variable {ω ω' σ : Type}

attribute [local irreducible] wp callN

/-! ### Specification -/

/-- The address of the variable in the cell `t`, of the type of an argument or of a result, as a value of type `xdr.Xdrable`. -/
def addrOf (q : Pkg) (o : TypespecOpt) (t : Nat) : V :=
  match o with
  | some (.ident n) => .ptr (goName q n) ⟨t, []⟩
  | _ => .ptr "" ⟨t, []⟩

/-- The variable in the cell `t`, of the type of an argument, has the value `a`, which is in the cells `own`; if the procedure
has no argument it is an `xdr.Void`. -/
def ArgVar (o : TypespecOpt) (own : Nat → Prop) (t : Nat) (a : Option GoVal) (st : St ω) : Prop :=
  own t ∧ (∀ j, own j → j < st.next) ∧
  match o, a with
  | some (.ident _), some y => Rep st own (st.heap t) y
  | _, _ => st.heap t = .struct "xdr.Void" []

/-- The variable in the cell `t`, of the type of a result, has the value `r`, without pointers to anything (a new variable has none); if
the procedure has no result it is an `xdr.Void`. -/
def ResVar (o : TypespecOpt) (t : Nat) (r : GoVal) (st : St ω) : Prop :=
  t < st.next ∧
  match o with
  | some (.ident _) => Rep st (fun _ => False) (st.heap t) r
  | _ => st.heap t = .struct "xdr.Void" []

/-- What a call of procedure `c` starts from: the client `cl` in the cell `cc`, with the connection `rw`, the variable for the
argument in the cell `ta`, and that for the result in the cell `tr`. -/
structure Calling (rw : V) (c : ProgCall) (cc : Nat) (cl : Client) (own : Nat → Prop) (ta : Nat) (a : Option GoVal) (tr : Nat) (r : GoVal)
    (cv fv : V) (cred verf : OpaqueAuth) (st : St ω) : Prop where
  client : st.heap cc = clientV rw cl
  lt : cc < st.next
  arg : ArgVar c.arg own ta a st
  res : ResVar c.res tr r st
  notA : ¬ own cc
  notR : cc ≠ tr
  apart : ¬ own tr
  cred : AuthArg st.next st cv cred
  verf : AuthArg st.next st fv verf

/-- The variable in the cell `t`, of the type of a result, has a value that stands for the XDR value `x`. -/
def GotIn (E : Spec.Env) (o : TypespecOpt) (t : Nat) (x : Option XVal) (st : St ω) : Prop :=
  match o, x with
  | some (.ident n), some x => ∃ r, HasValue st t r ∧ Typed E n r ∧ Denotes E n r x
  | none, none => True
  | _, _ => False

/-- A remote call of procedure `c`.  `x` is the XDR value that the client's argument stands for, `a'` the value that the method of the
server's object `h` gets, which stands for `x` too, and `z` the XDR value that the method's result stands for.  There are bytes `req` and
`rep` so that:

* `Call` writes `req`, whatever it will receive;
* the server that receives `req`, in any pieces, and then the end of the connection, runs the method once, writes `rep` and returns `io.EOF`;
* `Call`, when it receives `rep` in any pieces, and whatever follows, returns nil, the result variable has a value that stands for `z`,
  and what follows is not consumed. -/
def Remote [Others] (X : Ext ω) (W : Wire ω) (rw : V) (X' : Ext ω') (W' : Wire ω') (rw' : V) (I : (Nat → Prop) → St ω' → σ → Prop) (E : Spec.Env) (q : Pkg)
    (hi : Impl σ) (p : ProgDef) (v : ProgVer) (c : ProgCall) (h : Nat) : Prop :=
  ∀ (cl : Client), cl.prog = UInt32.ofNat p.id → cl.vers = UInt32.ofNat v.id → ∀ (cred verf : OpaqueAuth), goLen cred.body ≤ 400 → goLen verf.body ≤ 400 →
    ∀ (a : Option GoVal) (x : Option XVal), Stands E c.arg a x → 840 + (encO x).length < 2 ^ 31 →
    ∀ (r0 : GoVal), Target E c.res r0 → ∀ (own : Nat → Prop) (ta tr cc : Nat) (cv fv : V), own ta →
    ∃ a', Stands E c.arg a' x ∧ ∃ N, ∀ k, N ≤ k → ∀ (y : σ) (z : Option XVal), Stands E c.res ((hi (i c.name) a').run () y).2 z →
      24 + (encO z).length < 2 ^ 31 → ∃ req rep,
      (∀ st : St ω, Calling rw c cc cl own ta a tr r0 cv fv cred verf st →
        Ends X k (.meth "rfc1057.Client" "Call") [.ptr "" ⟨cc, []⟩, .u32 (UInt32.ofNat c.id), cv, fv, addrOf q c.arg ta, addrOf q c.res tr] st fun _ st' =>
          W.sent st'.world = W.sent st.world ++ [req]) ∧
      (∀ (st : St ω') app, I app st y → (W'.input st.world).flatten = req →
        ∃ rv st1 st' app', callN goProg X' k (.fn q.name (versName p v "_regs")) [.obj h] st = .ok ([rv], st1) ∧
          serverMain (atOnce X' k) rv rw' st1 = .ok ([ioErr .eof], st') ∧ I app' st' ((hi (i c.name) a').run () y).1 ∧
          (W'.sent st'.world).flatten = (W'.sent st.world).flatten ++ rep) ∧
      (∀ (st : St ω) rest, Calling rw c cc cl own ta a tr r0 cv fv cred verf st → W.ok st.world = true → (W.input st.world).flatten = rep ++ rest →
        Ends X k (.meth "rfc1057.Client" "Call") [.ptr "" ⟨cc, []⟩, .u32 (UInt32.ofNat c.id), cv, fv, addrOf q c.arg ta, addrOf q c.res tr] st fun r st' =>
          r = [.nil] ∧ GotIn E c.res tr z st' ∧ (W.input st'.world).flatten = rest)

/-! ### Arguments and results -/

section
variable [Others] {fl : Flags} {s : Gen.Spec} {g : GoProg} {vs : List GoVers} {q : Pkg} (G : Generated fl s g vs q)
  (hq : Has (rpcPkg :: Others.ps) (typedPkg q)) (X : Ext ω) (hX : 2 ^ 32 ≤ X.loops)

local notation "𝓔" => envOf fl.unsignedEnum s

include G hq hX in
theorem writes_arg {c : ProgCall} {a : Option GoVal} {x : Option XVal} (h : Stands 𝓔 c.arg a x) (own : Nat → Prop) (t : Nat) (ht : own t) :
    ∃ N, ∀ n, N ≤ n → Writes X n (addrOf q c.arg t) own (fun st (_ : Unit) => ArgVar c.arg own t a st) fun xs _ => argObj g c a xs := by
  obtain ⟨name, arg, res, id⟩ := c
  dsimp only at h ⊢
  rcases stands_cases h with ⟨rfl, rfl, rfl⟩ | ⟨n, v, x, rfl, rfl, rfl, ⟨d, hv⟩, -, -⟩
  · refine ⟨1, fun n hn => ?_⟩
    refine ⟨rfl, fun _ xs _ _ hr => hr, fun st _ j h hj => h.2.1 j hj, fun st st' _ h hh hn => ?_, ?_⟩
    · exact ⟨ht, fun j hj => by have := h.2.1 j hj; omega, (hh t ht).trans h.2.2⟩
    · intro st x a w xs hx hr _ hR h1 h2 h3
      have := (writes_void X hn t).call hx hr () ⟨hR.2.1 t ht, hR.2.2⟩ (fun e => h1 (e ▸ ht)) (fun e => h2 (e ▸ ht)) (fun e => h3 (e ▸ ht))
      refine wp_mono this ?_
      rintro _ st' ⟨w', k1, k2, k3⟩
      exact ⟨w', k1, k2, fun j j1 j2 j3 j4 => k3.heap j j1 j2 j3 fun e => j4 (e ▸ ht), k3.next, k3.world, k3.defers⟩
  · refine ⟨d + 2, fun n' hn => ?_⟩
    have := writes_named G hq X hX hv hn t own ht
    refine ⟨this.ref, fun st xs y hR => this.reader st xs y hR.2, fun st _ j h hj => h.2.1 j hj, fun st st' _ h hh hn => ⟨ht, this.stable st st' () h.2 hh hn⟩, ?_⟩
    exact fun st x a w xs hx hr u hR h1 h2 h3 => this.call hx hr u hR.2 h1 h2 h3

include G hq hX in
theorem receives_res {c : ProgCall} {r0 : GoVal} (hc : c.res.all (Named 𝓔) = true) (h : Target 𝓔 c.res r0) (t : Nat) :
    ∃ N, ∀ n, N ≤ n → Receives X n (addrOf q c.res t) (· = t) (fun st r => r = r0 ∧ ResVar c.res t r st)
      (fun st r => match c.res with | some (.ident _) => HasValue st t r | _ => True) (resObj g c) := by
  obtain ⟨name, arg, res, id⟩ := c
  dsimp only at h hc ⊢
  have hs := supported_of G.comp
  have hlt : ∀ (st : St ω) (y : GoVal) j, (y = r0 ∧ ResVar res t y st) → j = t → j < st.next := fun st y j h e => e ▸ h.2.1
  cases res with
  | none =>
    refine ⟨1, fun n hn => ⟨rfl, hlt, fun st st' y h hh hn => ⟨h.1, by have := h.2.1; omega, (hh t rfl).trans h.2.2⟩, ?_⟩⟩
    intro st x a w l hx _ y hR h1 h2 h3
    obtain ⟨m, rfl⟩ : ∃ m, n = m + 1 := ⟨n - 1, by omega⟩
    have hv : st.heap t = .struct "xdr.Void" [] := hR.2.2
    show wp (callMeth (sem X (m + 1)) (.ptr "" ⟨t, []⟩) "Xdr" [.ptr "" ⟨x, []⟩]) _ st
    rw [wp_meth_ptr0]
    dsimp only
    rw [at_nil, hv]
    dsimp only
    refine wp_mono (Void_codec X m hx "" t [] (.struct "xdr.Void" []) () (by rw [hv]; rfl) rfl hR.2.1 (fun e => h1 e.symm) (fun e => h2 e.symm) (fun e => h3 e.symm)) ?_
    rintro _ st' ⟨-, w', k1, k2, k3, -⟩
    exact ⟨w', k1, k2, ⟨fun j j1 j2 j3 j4 => k3.heap j j1 j2 j3 j4, k3.next, k3.world, k3.defers⟩, fun _ _ _ => trivial⟩
  | some ty =>
    cases ty with
    | ident n =>
      obtain ⟨⟨d, hv⟩, -⟩ := h
      refine ⟨d + 2 ^ 31 / 4 * g.depth + 2, fun N hN => ⟨rfl, hlt, fun st st' y h hh hn => ⟨h.1, by have := h.2.1; omega, ?_⟩, ?_⟩⟩
      · show Rep st' _ (st'.heap t) y
        rw [hh t rfl]
        exact Rep.mono h.2.2 (fun j hj => hj.elim) hn fun _ h _ => h
      · rintro st x a w l hx hl y ⟨rfl, hR⟩ h1 h2 h3
        obtain ⟨m, rfl⟩ : ∃ m, N = m + (d + 2 ^ 31 / 4 * g.depth) + 2 := ⟨N - (d + 2 ^ 31 / 4 * g.depth) - 2, by omega⟩
        have hle : d + l.length / 4 * g.depth ≤ d + 2 ^ 31 / 4 * g.depth :=
          Nat.add_le_add_left (Nat.mul_le_mul_right _ (Nat.div_le_div_right (Nat.le_of_lt hl))) _
        obtain ⟨xs', y', e1⟩ : ∃ xs' y', codecN g (defsOf fl s) (d + 2 ^ 31 / 4 * g.depth) (i n) (makeReader l) y = .ok (xs', y') := by
          rcases codecN_decode (link G.gen hs) hle hv with ⟨_, _, rest, v', _, _, _, e, _⟩ | ⟨xs', v', e, _⟩
          · exact ⟨_, _, e⟩
          · exact ⟨_, _, e⟩
        have e2 : resObj g ⟨name, arg, some (.ident n), id⟩ (makeReader l) y = (xs', y') := by
          simp only [resObj, callMethod_eq (runs_of_codecN G.gen hs e1)]
        rw [e2]
        show wp (callMeth (sem X _) (.ptr (goName q n) ⟨t, []⟩) "Xdr" [.ptr "" ⟨x, []⟩]) _ st
        rw [wp_meth_ptr (h := dot_ne q.name (i n))]
        have hc := callOK_text (q := typedPkg q) G.gen G.comp G.const G.text.typed hq G.noDot X hX m (d + 2 ^ 31 / 4 * g.depth) n
        have hR1 : t < st.next := hR.1
        have hR2 : Rep st (fun _ => False) (st.heap t) y := hR.2
        refine wp_mono (hc (rd := true) (ok := fun _ => False) ⟨hx, rfl, rfl, hR1, fun e => h1 e.symm, fun e => h2 e.symm, fun e => h3 e.symm, fun j hj => hj.elim⟩ hR2 e1) ?_
        rintro _ st' ⟨w', v', hD, hv'⟩
        refine ⟨w', hD.hw, hD.at'.hx, ⟨fun j k1 k2 k3 k4 => hD.keeps.heap j k1 k2 k3 k4, hD.keeps.next, hD.keeps.world, hD.keeps.defers⟩, ?_⟩
        intro st'' hh hn
        have hc' := hD.at'.cell
        rw [at_nil] at hc'
        cases hc'
        have hn1 := hD.keeps.next
        refine ⟨by omega, ?_⟩
        rw [hh t (by omega) (.inl rfl)]
        refine hv'.mono (fun j hj hl => hh j hl (.inr ?_)) hn fun j hj _ => ?_
        · rcases hj with h | ⟨-, h | h⟩
          · exact h.elim
          · exact .inl h.1
          · exact .inr h
        · rcases hj with h | ⟨-, h | h⟩
          · exact h.elim
          · rintro rfl; exact h2 h.1.symm
          · omega
    | _ => cases hc

include G hq hX in
/-- What the text of `Call` needs. -/
theorem Calling.site {W : Wire ω} {rw : V} (T : Transport X W rw) {c : ProgCall} {a : Option GoVal} {x : Option XVal} (ha : Stands 𝓔 c.arg a x) {r0 : GoVal}
    (hc : c.res.all (Named 𝓔) = true) (hr : Target 𝓔 c.res r0) (own : Nat → Prop) (ta tr : Nat) (hta : own ta) :
    ∃ N, ∀ k, N ≤ k → ∀ (st : St ω) cc cl cv fv cred verf, Calling rw c cc cl own ta a tr r0 cv fv cred verf st →
      CallSite X W k rw (addrOf q c.arg ta) (addrOf q c.res tr) cv fv own (· = tr) (fun st (_ : Unit) => ArgVar c.arg own ta a st)
        (fun st r => r = r0 ∧ ResVar c.res tr r st) (fun st r => match c.res with | some (.ident _) => HasValue st tr r | _ => True)
        (fun xs _ => argObj g c a xs) (resObj g c) cc cl cred verf () r0 st := by
  obtain ⟨N1, h1⟩ := writes_arg G hq X hX ha own ta hta
  obtain ⟨N2, h2⟩ := receives_res G hq X hX hc hr tr
  refine ⟨N1 + N2, fun k hk st cc cl cv fv cred verf h => ?_⟩
  exact ⟨T, h1 _ (by omega), h2 _ (by omega), fun j hj e => h.apart (e ▸ hj), h.arg, ⟨rfl, h.res⟩, h.client, h.lt, h.notA, h.notR, h.cred, h.verf⟩

variable (X' : Ext ω') (hX' : 2 ^ 32 ≤ X'.loops)

include G hq hX hX' in
/-- **C68** Any procedure of a generated program can be called. -/
theorem C68_call {W : Wire ω} {rw : V} (T : Transport X W rw) {W' : Wire ω'} {rw' : V} (T' : Transport X' W' rw') {I : (Nat → Prop) → St ω' → σ → Prop}
    (A : App X' rw' I) (B : Back X' W' I) (F : Front X' W' rw' I) {p : ProgDef} (hp : .program p ∈ s) {v : ProgVer} (hv : v ∈ p.vers)
    {d h : Nat} {hi : Impl σ} (O : Object X' W' I 𝓔 d v h hi) (hI : Implements 𝓔 hi v) (hids : (v.calls.map (·.id)).Nodup) {c : ProgCall} (hc : c ∈ v.calls) :
    Remote X W rw X' W' rw' I 𝓔 q hi p v c h := by
  intro cl hcp hcv cred verf h1 h2 a x ha hlen r0 hr0 own ta tr cc cv fv hta
  have hs := supported_of G.comp
  have hok := callable_of G hp
  obtain ⟨regs, hr, N1, hN1⟩ := C67_regs G hq X' hX' A hp hv O hI
  obtain ⟨henc, a', ha', harr⟩ := arg_encodes G.gen hs ha
  have hnm : c.res.all (Named 𝓔) = true := by
    simp only [callable, Bool.and_eq_true, decide_eq_true_eq, List.all_eq_true] at hok
    exact ((hok.2 v hv).2 c hc).2
  obtain ⟨N2, hN2⟩ := Calling.site G hq X hX T ha hnm hr0 own ta tr hta
  refine ⟨a', ha', N1 + N2 + 20, fun k hk y z hz hzl => ?_⟩
  obtain ⟨k0, hck⟩ := List.getElem?_of_mem hc
  have hrl : regs.length = v.calls.length := by
    have := congrArg List.length hr.numbers; simpa using this
  obtain ⟨r, hrk⟩ : ∃ r, regs[k0]? = some r := ⟨_, List.getElem?_eq_getElem (by
    have := (List.getElem?_eq_some_iff.mp hck).1; omega)⟩
  obtain ⟨dd, hrun, hret⟩ := (hr.serves k0 c r hck hrk (encO x) y).1 a' harr
  have hd : Encodes dd (encO z) := returns_encodes hret hz
  have hlast := lastReg_table (pre := []) hr.numbers hids hck hrk
  rw [← hcp, ← hcv, List.nil_append] at hlast
  obtain ⟨k, rfl⟩ : ∃ k', k = k' + 9 := ⟨k - 9, by omega⟩
  have hsite := fun st => hN2 (k + 1) (by omega) st cc cl cv fv cred verf
  obtain ⟨req, rep, q0, q1, q2, q3⟩ := C57_exchange (E := X) (W := W) (k := k + 1) (rw := rw) (av := addrOf q c.arg ta) (rv := addrOf q c.res tr)
    (cv := cv) (fv := fv) (ownA := own) (ownR := (· = tr)) (RA := fun st (_ : Unit) => ArgVar c.arg own ta a st)
    (RR := fun st r => r = r0 ∧ ResVar c.res tr r st) (RR' := fun st r => match c.res with | some (.ident _) => HasValue st tr r | _ => True)
    (fa := fun xs _ => argObj g c a xs) (fr := resObj g c) (c := cc) (cl := cl) (cred := cred) (verf := verf) (ya := ()) (yr := r0) (k' := k)
    T' (UInt32.ofNat c.id) h1 h2 henc hlen hlast hrun hd hzl
  refine ⟨req, rep, fun st hst => q1 st (hsite st hst), fun st app hI0 hin => ?_, fun st rest hst hwok hin => ?_⟩
  · obtain ⟨rv, o, st1, app1, e1, e2, e3, -, e5⟩ := hN1 (k + 7) (by omega) st app y hI0 (k + 8)
    obtain ⟨st', app', f1, ⟨app2, f2, -⟩, f3⟩ := q2 _ (Beside.app T' A o _) (Beside.back B o _) (Beside.front T' F o _) st1 app1 rv e3 e2 (by rw [e5]; exact hin) (by omega)
    exact ⟨rv, st1, st', app2, e1, f1, f2, by rw [f3, e5]⟩
  · refine (q3 st rest (hsite st hst) hwok hin).mono ?_
    rintro r st' ⟨e, rfl, g1, g2, g3⟩
    obtain ⟨f1, f2⟩ := res_decodes G.gen hs hz hr0
    refine ⟨by rw [g1.mpr f1], ?_, g3⟩
    generalize (resObj g c (makeReader (encO z)) r0).2 = w at g2 f2
    unfold Got at f2
    unfold GotIn
    split at f2
    · rename_i n z' hn
      rw [hn] at g2 ⊢
      refine ⟨w, ?_, f2⟩
      rcases g2 with g2 | ⟨⟨-, g2, g4⟩, rfl⟩
      · exact g2
      · exact ⟨g2, Rep.mono g4 (fun _ h => h.elim) (Nat.le_refl _) fun _ h => h.elim⟩
    · rename_i hn
      rw [hn]
      trivial
    · exact f2.elim
end

/-- **C68** So it is with the package that the text of the generator leaves. -/
theorem C68_files [Others] {A : Lr} {sys : Sys} {fl : ToolFlags} {fs : Tool.FS} {s : Gen.Spec} {grow : Nat → Nat → Nat} {loops k : Nat} {q : Pkg}
    (R : SpecFile A sys fl fs s) (hm : succeeds (runTool A sys fl grow loops (k + 2) fs))
    (ho : outPkg fl.args (endFiles (runTool A sys fl grow loops (k + 2) fs)) = some q) (hq : Has (rpcPkg :: Others.ps) (typedPkg q))
    (X : Ext ω) (hX : 2 ^ 32 ≤ X.loops) (X' : Ext ω') (hX' : 2 ^ 32 ≤ X'.loops)
    {W : Wire ω} {rw : V} (T : Transport X W rw) {W' : Wire ω'} {rw' : V} (T' : Transport X' W' rw') {I : (Nat → Prop) → St ω' → σ → Prop}
    (A : App X' rw' I) (B : Back X' W' I) (F : Front X' W' rw' I) {p : ProgDef} (hp : .program p ∈ s) {v : ProgVer} (hv : v ∈ p.vers)
    {d h : Nat} {hi : Impl σ} (O : Object X' W' I (envOf fl.gen.unsignedEnum s) d v h hi) (hI : Implements (envOf fl.gen.unsignedEnum s) hi v)
    (hids : (v.calls.map (·.id)).Nodup) {c : ProgCall} (hc : c ∈ v.calls) :
    Remote X W rw X' W' rw' I (envOf fl.gen.unsignedEnum s) q hi p v c h := by
  obtain ⟨g, vs, G⟩ := C66_files R hm ho
  exact C68_call G hq X hX X' hX' T T' A B F hp hv O hI hids hc

/-! ### A concrete case: the port mapper -/

attribute [local instance] withPmap

/-- The argument is in the cell 0, the result in the cell 1, the client in the cell 2. -/
def remoteSt (u : UInt32) (input : Chunks) : St Net :=
  { heap := fun j => match j with
      | 0 => .struct "pmap.Mapping" [("Prog", .u32 7), ("Vers", .u32 1), ("Prot", .u32 6), ("Port", .u32 u)]
      | 1 => .u32 0
      | _ => clientV (.obj 0) ⟨98, 100000, 2⟩
    next := 3, world := ⟨input, [], true, none, []⟩, defers := [] }

def getPort : ProgCall := ⟨"PMAPPROC_GETPORT", some (.ident "mapping"), some (.ident "uint32"), 3⟩

theorem remote_calling (u : UInt32) (input : Chunks) :
    Calling (.obj 0) getPort 2 ⟨98, 100000, 2⟩ (· = 0) 0 (some (mapping u)) 1 (.u32 0) noAuth noAuth .zero .zero (remoteSt u input) where
  client := rfl
  lt := by show 2 < 3; decide
  arg := ⟨rfl, fun j hj => by rw [hj]; show 0 < 3; decide, by
    show Rep _ _ (.struct _ _) (.struct _)
    refine .struct rfl (show ["Prog", "Vers", "Prot", "Port"].Nodup by decide) fun k f v g y h1 h2 => ?_
    match k with
    | 0 => cases h1; cases h2; exact .u32 _
    | 1 => cases h1; cases h2; exact .u32 _
    | 2 => cases h1; cases h2; exact .u32 _
    | 3 => cases h1; cases h2; exact .u32 _
    | k + 4 => cases h1⟩
  res := ⟨by show 1 < 3; decide, .u32 _⟩
  notA := by decide
  notR := by decide
  apart := by decide
  cred := ⟨.nil, rfl, .nil, fun s h => by cases h⟩
  verf := ⟨.nil, rfl, .nil, fun s h => by cases h⟩

/-- The hypotheses of C68 hold of it: the port is 37. -/
example (u : UInt32) : ∃ k req rep,
    (∀ input, Ends pmapNet k (.meth "rfc1057.Client" "Call") [.ptr "" ⟨2, []⟩, .u32 3, noAuth, noAuth, .ptr "pmap.Mapping" ⟨0, []⟩, .ptr "pmap.Uint32" ⟨1, []⟩]
      (remoteSt u input) fun _ st' => st'.world.sent = [req]) ∧
    (∃ rv st1 st' app', callN goProg pmapNet k (.fn "pmap" "PMAP_PROG_PMAP_VERS_regs") [.obj 7] (pmapSt [req]) = .ok ([rv], st1) ∧
      serverMain (atOnce pmapNet k) rv (.obj 0) st1 = .ok ([ioErr .eof], st') ∧ NetInv app' st' 37 ∧ st'.world.sent.flatten = rep) ∧
    Ends pmapNet k (.meth "rfc1057.Client" "Call") [.ptr "" ⟨2, []⟩, .u32 3, noAuth, noAuth, .ptr "pmap.Mapping" ⟨0, []⟩, .ptr "pmap.Uint32" ⟨1, []⟩]
      (remoteSt u [rep]) fun r st' => r = [.nil] ∧ GotIn (envOf true Inst.Rfc1057.spec) (some (.ident "uint32")) 1 (some (.uint 37)) st' := by
  have hz : Target (envOf true Inst.Rfc1057.spec) getPort.res (.u32 0) := by
    obtain ⟨z, h1, h2, h3⟩ := zero_fresh (n := "uint32") Inst.Rfc1057.gen Inst.Rfc1057.supp (by decide +kernel)
    have : z = .u32 0 := Option.some.inj (h1.symm.trans (by decide +kernel))
    rw [this] at h2 h3
    exact ⟨h2, h3⟩
  have hR : Remote pmapNet netWire (.obj 0) pmapNet netWire (.obj 0) NetInv (envOf true Inst.Rfc1057.spec) pmapPkg pmapImpl pmapProg pmapVers getPort 7 :=
    C68_call pmap_generated has_pmap pmapNet (Nat.le_refl _) pmapNet (Nat.le_refl _)
    pmap_transport pmap_transport pmap_app pmap_back pmap_front pmapProg_mem (v := pmapVers) (List.mem_singleton.mpr rfl) pmap_object pmapImpl_ok (by decide)
    (c := getPort) (by simp [pmapVers, getPort])
  obtain ⟨a', -, N, hN⟩ := hR ⟨98, 100000, 2⟩ rfl rfl .zero .zero (by decide) (by decide) (some (mapping u)) (some (mappingX u)) (mapping_stands u)
    (by simp [encO, mappingX, enc, encs]) (.u32 0) hz (· = 0) 0 1 2 noAuth noAuth rfl
  obtain ⟨req, rep, h1, h2, h3⟩ := hN N (Nat.le_refl _) (37 : UInt32) (some (.uint 37))
    ⟨⟨1, _, rfl, ⟨37, rfl⟩⟩, ⟨1, rfl⟩, ⟨1, _, rfl, by simp [memD, memT]⟩⟩ (by decide)
  refine ⟨N, req, rep, fun input => h1 _ (remote_calling u input), ?_, ?_⟩
  · obtain ⟨rv, st1, st', app', k1, k2, k3, k4⟩ := h2 (pmapSt [req]) _ (pmap_inv _) (by simp [pmapSt, netWire])
    exact ⟨rv, st1, st', app', k1, k2, k3, by simpa [pmapSt, netWire] using k4⟩
  · obtain ⟨r, st', k1, k2, k3, -⟩ := h3 (remoteSt u [rep]) [] (remote_calling u _) rfl (by simp [remoteSt, netWire])
    exact ⟨r, st', k1, k2, k3⟩

/-- And this is what the texts do, step by step: the client's request, the server's reply to it, and what the client has then. -/
example :
    let call := callN goProg pmapNet 30 (.meth "rfc1057.Client" "Call")
      [.ptr "" ⟨2, []⟩, .u32 3, noAuth, noAuth, .ptr "pmap.Mapping" ⟨0, []⟩, .ptr "pmap.Uint32" ⟨1, []⟩]
    (match call (remoteSt 0 []) with
      | .ok (_, st) =>
        match callN goProg pmapNet 30 (.fn "pmap" "PMAP_PROG_PMAP_VERS_regs") [.obj 7] (pmapSt st.world.sent) with
        | .ok ([rv], st1) =>
          match serverMain (atOnce pmapNet 30) rv (.obj 0) st1 with
          | .ok (_, st2) =>
            match call (remoteSt 0 st2.world.sent) with
            | .ok ([.nil], st3) => match st3.heap 1 with
              | .u32 u => some (u, st3.world.input)
              | _ => none
            | _ => none
          | _ => none
        | _ => none
      | _ => none) = some (37, []) := by
  decide +kernel

end Verif.Props
