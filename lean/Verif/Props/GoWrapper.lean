/-
PROPERTY C66: the wrapper methods of generated packages, as Go text.

`q` is a package with the declarations that the generator prints for the specification `s`: constants, types and methods
`Xdr` (`IsText`) and the wrapper methods of the procedures (`HasVers`); it may have others.  The program consists of package
xdr, as read from its files, of `q` with the conversions `(*T)(&x)` written out that Go makes from the types of variables
(`typedPkg`, Lang/Static.lean), and of any other packages, of which none before `q` has its name (`Has`, Lang/GenLink.lean).

The handler is an object outside of the program: what its methods do is `W.ext` (Lang/Sem.lean).
-/
import Verif.Lang.WrapText
import Verif.Props.GoEndToEnd

namespace Verif.Props
open Verif.Xdr Verif.Spec Verif.Gen Verif.Lang Verif.Lang.Text

variable {ω : Type}

attribute [local irreducible] wp callN

/-! ### Specification -/

/-- `args`: an `XdrState` in the cell `x` that reads the bytes `l`. -/
def ReaderAt (st : St ω) (x : Nat) (l : List UInt8) : Prop :=
  ∃ a b, st.heap x = .struct "xdr.XdrState" [("err", .nil), ("reader", .bool true), ("buf", b)] ∧ BytesAt st a b l ∧
    x < st.next ∧ a < st.next ∧ (a = x ↔ b = .nil)

/-- `w`: in the cell `o`, a structure whose only field is the handler `h`. -/
def WrapperAt (st : St ω) (o h : Nat) : Prop := o < st.next ∧ ∃ t, st.heap o = .struct t [("h", .obj h)]

/-- A list of no value, or of a Go value with no pointers into `L`. -/
def Passes (st : St ω) (L : Nat → Prop) : Option GoVal → List V → Prop
  | none, vs => vs = []
  | some y, vs => ∃ u, vs = [u] ∧ Rep st (fun j => ¬ L j) u y

/-- A result of the type that the procedure has. -/
def ResultOf (E : Spec.Env) (c : ProgCall) (r : Option GoVal) : Prop :=
  match c.res with
  | some (.ident n) => ∃ y, r = some y ∧ Typed E n y
  | _ => r = none

/-- The method `m` of the handler `h`, called with the argument `arg` in a state that differs from `st` only in the reader `x`
and in new memory, returns a result and gets to a state for which `R` holds.  `L` is memory that it has no pointers to: it does not
change it, and the result does not refer to it. -/
def Method (W : Ext ω) (E : Spec.Env) (c : ProgCall) (h x : Nat) (st : St ω) (arg : Option GoVal) (R : Option GoVal → St ω → Prop) : Prop :=
  ∀ (st1 : St ω) (vs : List V) (L : Nat → Prop), (∀ j, L j → st.next ≤ j) → Passes st1 L arg vs →
    (∀ j, j < st.next → j ≠ x → st1.heap j = st.heap j) → st.next ≤ st1.next → st1.world = st.world →
    ∃ rs st2, W.ext (i c.name) (.obj h :: vs) st1 = .ok (rs, st2) ∧ (∃ r, Passes st2 L r rs ∧ ResultOf E c r ∧ R r st2) ∧
      (∀ j, L j → st2.heap j = st1.heap j) ∧ st1.next ≤ st2.next ∧ st2.defers = st1.defers

/-- The pointer `v` to the cell `t`, as a value of interface type `xdr.Xdrable`; the cell has the result `r` of the procedure. -/
def Result (q : Pkg) (c : ProgCall) (st : St ω) (t : Nat) (v : V) (r : Option GoVal) : Prop :=
  match c.res with
  | some (.ident n) => v = .ptr (goName q n) ⟨t, []⟩ ∧ ∃ y, r = some y ∧ HasValue st t y
  | _ => v = .ptr "" ⟨t, []⟩ ∧ st.heap t = .struct "xdr.Void" []

/-- `return &out, nil`, where `out` is a new variable with the result of the method, which got to the state `st2` and for
which `R` holds. -/
def Answers (q : Pkg) (c : ProgCall) (st : St ω) (R : Option GoVal → St ω → Prop) (rs : List V) (st' : St ω) : Prop :=
  ∃ t v r st2, R r st2 ∧ rs = [v, .nil] ∧ st.next ≤ t ∧ t < st'.next ∧ Result q c st' t v r ∧
    (∀ j, j ≠ t → st'.heap j = st2.heap j) ∧ st'.next = st2.next ∧ st'.world = st2.world

/-- The key of the wrapper of procedure `c`. -/
abbrev wrapperKey (q : Pkg) (p : ProgDef) (v : ProgVer) (c : ProgCall) : FKey :=
  .meth (q.name ++ "." ++ versName p v "_handler_wrapper") (i c.name)

/-- `q` has the declarations that the generator prints for the specification `s`, which is one that Go accepts. -/
structure Generated (fl : Flags) (s : Gen.Spec) (g : GoProg) (vs : List GoVers) (q : Pkg) : Prop where
  gen : generate fl s = some g
  comp : compilable fl s = true
  const : fl.constType ∈ constTypes
  text : IsText g q
  vers : generateVers s = some vs
  wraps : HasVers vs q
  notXdr : q.name ≠ "xdr"
  noDot : '.' ∉ q.name.toList

/-- Procedure `c` of version `v` of program `p`. -/
structure Procedure (s : Gen.Spec) (p : ProgDef) (v : ProgVer) (c : ProgCall) : Prop where
  prog : .program p ∈ s
  vers : v ∈ p.vers
  call : c ∈ v.calls

/-! ### The wrappers -/

theorem wp_ok {α : Type} {m : M ω α} {Q : α → St ω → Prop} {st : St ω} {a : α} {s : St ω} (h : m st = .ok (a, s)) (hq : Q a s) : wp m Q st :=
  wp_iff.mpr ⟨a, s, h, hq⟩

theorem Method.calls {W : Ext ω} {E : Spec.Env} {c : ProgCall} {h x a : Nat} {st : St ω} {arg : Option GoVal} {R : Option GoVal → St ω → Prop}
    (hm : Method W E c h x st arg R) {y : GoVal} (ha : nameG c.arg = none ∧ arg = none ∨ nameG c.arg ≠ none ∧ arg = some y)
    (hr : nameG c.res = none → c.res = none) :
    Lang.Text.Calls W h (i c.name) (nameG c.arg) (nameG c.res) x a st y (fun r _ _ st2 => ResultOf E c r ∧ R r st2) := by
  intro st1 as L hL hA hh hn hw
  have hP : Passes st1 L arg as := by
    rcases ha with ⟨e, rfl⟩ | ⟨e, rfl⟩
    · rw [e] at hA; exact hA
    · cases e' : nameG c.arg with
      | none => exact absurd e' e
      | some t =>
        rw [e'] at hA
        obtain ⟨u, rfl, hu⟩ := hA
        exact ⟨u, rfl, hu.mono (fun _ _ _ => rfl) (Nat.le_refl _) fun j h _ => h.2⟩
  obtain ⟨rs, st2, h1, ⟨r, h2, h3, h4⟩, h5⟩ := hm st1 as L (fun j h => (hL j h).1) hP hh hn hw
  refine wp_ok h1 ⟨r, ?_, ⟨h3, h4⟩, h5⟩
  cases e : nameG c.res with
  | none =>
    have := hr e
    unfold ResultOf at h3
    rw [this] at h3
    exact h3
  | some u =>
    have : ∃ n, c.res = some (.ident n) := by
      unfold nameG at e
      split at e
      · exact ⟨_, by assumption⟩
      · cases e
    obtain ⟨n, hn⟩ := this
    unfold ResultOf at h3
    rw [hn] at h3
    obtain ⟨y', rfl, -⟩ := h3
    obtain ⟨u', rfl, hu⟩ := h2
    exact ⟨u', y', rfl, rfl, hu⟩

theorem answers_of {q : Pkg} {E : Spec.Env} {c : ProgCall} {st : St ω} {R : Option GoVal → St ω → Prop} {rs : List V} {st' : St ω}
    (hr : nameG c.res = none → c.res = none) (h : Gives q.name (nameG c.res) st (fun r _ _ st2 => ResultOf E c r ∧ R r st2) rs st') :
    Answers q c st R rs st' := by
  obtain ⟨t, r, st2, rfl, h1, h2, h3, ⟨_, _, ⟨-, h4⟩, -⟩, h5, h6, h7, -⟩ := h
  refine ⟨t, _, r, st2, h4, rfl, h1, h2, ?_, h5, h6, h7⟩
  cases e : nameG c.res with
  | none =>
    rw [e] at h3
    simp only [Result, hr e]
    exact ⟨rfl, h3⟩
  | some u =>
    rw [e] at h3
    unfold nameG at e
    split at e
    · rename_i n hn
      cases e
      obtain ⟨y, rfl, hy⟩ := h3
      simp only [Result, hn]
      exact ⟨rfl, y, rfl, h2, hy⟩
    · cases e

section
variable {fl : Flags} {s : Gen.Spec} {g : GoProg} {vs : List GoVers} {q : Pkg} {Ps : Prog} (hg : generate fl s = some g)
  (hc : compilable fl s = true) (hct : fl.constType ∈ constTypes) (T : IsText g q) (hv : generateVers s = some vs) (hws : HasVers vs q)
  (hq : Has Ps (typedPkg q)) (hd : '.' ∉ q.name.toList) (W : Ext ω) (hW : 2 ^ 32 ≤ W.loops)
  {p : ProgDef} {v : ProgVer} {c : ProgCall} (hp : .program p ∈ s) (hvp : v ∈ p.vers) (hcv : c ∈ v.calls)

local notation "E" => envOf fl.unsignedEnum s

theorem namedOpt_res {o : TypespecOpt} (h : namedOpt fl s o = true) : nameG o = none → o = none := by
  intro e
  unfold nameG at e
  split at e
  · cases e
  · rename_i hn
    cases o with
    | none => rfl
    | some t => cases t <;> first | exact absurd rfl (hn _) | exact absurd h Bool.false_ne_true

include hg hc T hq in
theorem zero_named {n : Ident} (hn : ((E).typeOf n).isSome) : ∃ z y, Prog.zero (xdrPkg :: Ps) q.name (.name (i n)) = some z ∧
    RepZ z y ∧ Typed E n y ∧ Clean E n y := by
  have hs := supported_of hc
  obtain ⟨y, h1, h2, h3⟩ := zero_fresh hg hs hn
  obtain ⟨z, hz, hr⟩ := zero_text (q := typedPkg q) (Ps := Ps) (compilable_comp hg hc).1 T.typed hq (t := .named (i n)) (by simp [plainT]) y
    (by rw [GoProg.zero, zeroGo]; exact h1)
  exact ⟨z, y, hz, hr, h2, h3⟩

include hg hc T hq in
theorem zero_res {o : TypespecOpt} (h : namedOpt fl s o = true) :
    ∃ z, ∀ u ∈ nameG o, Prog.zero (xdrPkg :: Ps) q.name (.name u) = some z := by
  cases o with
  | none => exact ⟨.nil, fun u hu => by cases hu⟩
  | some t =>
    cases t with
    | ident n =>
      obtain ⟨z, y, hz, -⟩ := zero_named hg hc T hq (n := n) h
      exact ⟨z, fun u hu => by cases hu; exact hz⟩
    | _ => exact absurd h Bool.false_ne_true

include hg hc hct T hq hd in
theorem pkgOK_typed : PkgOK (Ps) q.name :=
  (prints_text (q := typedPkg q) (Ps := Ps) (compilable_comp hg hc).1 T.typed hq hct (supported_of hc) hd).ok

include hg hc hct T hv hws hq hd hW hp hvp hcv in
theorem wrapper_arg {n : Ident} (ha : c.arg = some (.ident n)) {st : St ω} {o h x : Nat} {Tn : String} {l : List UInt8} (ho : WrapperAt st o h)
    (hx : ReaderAt st x l) (hox : o ≠ x) :
    (∃ y' x' p' rest, l = p' ++ rest ∧ IsValue E n x' ∧ Reads x' p' ∧ Typed E n y' ∧ Denotes E n y' x' ∧
      ∀ R, Method W E c h x st (some y') R →
        GivesBack (xdrPkg :: Ps) W (wrapperKey q p v c) [.ptr Tn ⟨o, []⟩, .ptr "" ⟨x, []⟩] st (Answers q c st R)) ∨
    ((∀ x' p' rest, IsValue E n x' → Reads x' p' → l ≠ p' ++ rest) ∧
      GivesBack (xdrPkg :: Ps) W (wrapperKey q p v c) [.ptr Tn ⟨o, []⟩, .ptr "" ⟨x, []⟩] st fun rs st' =>
        (∃ m vs, rs = [.nil, .err m vs]) ∧ (∀ j, j < st.next → j ≠ x → st'.heap j = st.heap j) ∧ st.next ≤ st'.next ∧ st'.world = st.world) := by
  have H := (compilable_comp hg hc).1
  have hs := supported_of hc
  obtain ⟨h1, h2, hf⟩ := find_wrap H T hv hws hq hd hp hvp hcv
  obtain ⟨z, hz⟩ := zero_res hg hc T hq h2
  have hn : ((E).typeOf n).isSome := by rw [ha] at h1; exact h1
  obtain ⟨z0, y0, hz0, hr0, ⟨k, hy0⟩, hcl⟩ := zero_named hg hc T hq hn
  obtain ⟨hlo, t, ho⟩ := ho
  obtain ⟨a, b, hxc, hbb, hxl, hal, hab⟩ := hx
  have hX : Xs st x a x (makeReader l) := ⟨⟨.nil, b, hxc, .none, hbb, hab⟩, hxl, hal, hxl, rfl⟩
  have hT : nameG c.arg = some (i n) := by rw [ha]; rfl
  have hres := namedOpt_res h2
  generalize hF : k + l.length / 4 * g.depth = F
  have hdec := codecN_decode (link hg hs) (F := F) (Nat.le_of_eq hF) hy0
  have key := fun m' xs' y R h3 => wrap_arg (k := m' + F + 2) (pkgOK_typed hg hc hct T hq hd) hf hT (k' := m' + F + 1) rfl
    (callOK_text (q := typedPkg q) hg hc hct T.typed hq hd W hW m' F n) (Tn := Tn) (xs' := xs') (y := y) (R := R) hz hz0 hr0 ho hlo hox hX rfl h3
  rcases hdec with ⟨x', p', rest, v', e1, e2, e3, e4, e5, e6⟩ | ⟨xs', v', e1, e2, e3, e4⟩
  · refine .inl ⟨v', x', p', rest, e1, e3, e2, e6, fills_denotes hg hs hcl e3 ⟨F, e5⟩, fun R hm => ⟨F + 3, fun m hmm => ?_⟩⟩
    obtain ⟨m', rfl⟩ : ∃ m', m = m' + F + 3 := ⟨m - F - 3, by omega⟩
    have := (key m' _ _ _ e4).1 rfl (hm.calls (.inr ⟨by rw [hT]; simp, rfl⟩) hres)
    obtain ⟨r, st', e, hG⟩ := wp_iff.mp this
    exact ⟨r, st', e, answers_of hres hG⟩
  · refine .inr ⟨e4, F + 3, fun m hmm => ?_⟩
    obtain ⟨m', rfl⟩ : ∃ m', m = m' + F + 3 := ⟨m - F - 3, by omega⟩
    have := (key m' _ _ (fun _ _ _ _ => True) e1).2 (by intro e; have := e2.1; rw [e] at this; exact absurd this Bool.false_ne_true)
    obtain ⟨r, st', e, hG, h3, h4, h5, -⟩ := wp_iff.mp this
    exact ⟨r, st', e, hG, h3, h4, h5⟩

end

section
variable {fl : Flags} {s : Gen.Spec} {g : GoProg} {vs : List GoVers} {q : Pkg} {Ps : Prog} (G : Generated fl s g vs q) (hq : Has Ps (typedPkg q))
  (W : Ext ω) (hW : 2 ^ 32 ≤ W.loops) {p : ProgDef} {v : ProgVer} {c : ProgCall} (hP : Procedure s p v c)

local notation "E" => envOf fl.unsignedEnum s

include G hq hP in
/-- **C66** The wrapper of a procedure without argument: the method of the handler is called, and a pointer to a new
variable with its result is returned (to an `xdr.Void` if the procedure has no result), and nil. -/
theorem C66_void (ha : c.arg = none) {st : St ω} {o h x : Nat} {Tn : String} {l : List UInt8} (ho : WrapperAt st o h)
    (hx : ReaderAt st x l) (hox : o ≠ x) {R : Option GoVal → St ω → Prop} (hm : Method W E c h x st none R) :
    GivesBack (xdrPkg :: Ps) W (wrapperKey q p v c) [.ptr Tn ⟨o, []⟩, .ptr "" ⟨x, []⟩] st (Answers q c st R) := by
  obtain ⟨hg, hc, hct, T, hv, hws, -, hd⟩ := G
  obtain ⟨hp, hvp, hcv⟩ := hP
  have H := (compilable_comp hg hc).1
  obtain ⟨h1, h2, hf⟩ := find_wrap H T hv hws hq hd hp hvp hcv
  obtain ⟨z, hz⟩ := zero_res hg hc T hq h2
  obtain ⟨hlo, t, ho⟩ := ho
  obtain ⟨a, b, -, -, hxl, hal, -⟩ := hx
  have hT : nameG c.arg = none := by rw [ha]; rfl
  refine ⟨1, fun n hn => ?_⟩
  obtain ⟨k, rfl⟩ : ∃ k, n = k + 1 := ⟨n - 1, by omega⟩
  have hres := namedOpt_res h2
  have := wrap_void (k := k) (y := .bool false) (pkgOK_typed hg hc hct T hq hd) hf hT hal (Tn := Tn) hz ho hlo hox hxl (hm.calls (.inl ⟨hT, rfl⟩) hres)
  obtain ⟨r, st', e, hG⟩ := wp_iff.mp this
  exact ⟨r, st', e, answers_of hres hG⟩

include G hq hP hW in
/-- **C66** The wrapper of a procedure with an argument, when the bytes begin with an image of a value `x'` of the argument's
type: the method of the handler is called with a Go value that stands for `x'`, and a pointer to a new variable with its
result is returned, and nil. -/
theorem C66_calls {n : Ident} (ha : c.arg = some (.ident n)) {st : St ω} {o h x : Nat} {Tn : String} {x' : XVal} {p' rest : List UInt8}
    (hx' : IsValue E n x') (hp' : Reads x' p') (ho : WrapperAt st o h) (hx : ReaderAt st x (p' ++ rest)) (hox : o ≠ x)
    {R : Option GoVal → St ω → Prop} (hm : ∀ y, Typed E n y → Denotes E n y x' → Method W E c h x st (some y) R) :
    GivesBack (xdrPkg :: Ps) W (wrapperKey q p v c) [.ptr Tn ⟨o, []⟩, .ptr "" ⟨x, []⟩] st (Answers q c st R) := by
  rcases wrapper_arg G.gen G.comp G.const G.text G.vers G.wraps hq G.noDot W hW hP.prog hP.vers hP.call ha (Tn := Tn) ho hx hox with ⟨y, x2, p2, rest2, h1, h2, h3, h4, h5, h6⟩ | ⟨h1, -⟩
  · obtain ⟨rfl, rfl⟩ := unique_named E n x' x2 p' p2 rest rest2 hx' h2 hp' h3 h1
    exact h6 R (hm y h4 h5)
  · exact absurd rfl (h1 x' p' rest hx' hp')

include G hq hP hW in
/-- **C66** When they do not, there is an error: nothing is called (whatever `W.ext` is), nothing outside of the program
changes, nor does any memory but the reader. -/
theorem C66_refuses {n : Ident} (ha : c.arg = some (.ident n)) {st : St ω} {o h x : Nat} {Tn : String} {l : List UInt8}
    (hl : ∀ x' p' rest, IsValue E n x' → Reads x' p' → l ≠ p' ++ rest) (ho : WrapperAt st o h) (hx : ReaderAt st x l) (hox : o ≠ x) :
    GivesBack (xdrPkg :: Ps) W (wrapperKey q p v c) [.ptr Tn ⟨o, []⟩, .ptr "" ⟨x, []⟩] st fun rs st' =>
      (∃ m vs, rs = [.nil, .err m vs]) ∧ (∀ j, j < st.next → j ≠ x → st'.heap j = st.heap j) ∧ st.next ≤ st'.next ∧ st'.world = st.world := by
  rcases wrapper_arg G.gen G.comp G.const G.text G.vers G.wraps hq G.noDot W hW hP.prog hP.vers hP.call ha (Tn := Tn) ho hx hox with ⟨y, x2, p2, rest2, h1, h2, h3, -⟩ | ⟨-, h⟩
  · exact absurd h1 (hl x2 p2 rest2 h2 h3)
  · exact h
end

/-! ### Packages -/

/-- **C66** The files that the generator leaves make up such a package. -/
theorem C66_files {A : Lr} {sys : Sys} {fl : ToolFlags} {fs : Tool.FS} {s : Gen.Spec} {grow : Nat → Nat → Nat} {loops k : Nat} {q : Pkg}
    (R : SpecFile A sys fl fs s) (hm : succeeds (runTool A sys fl grow loops (k + 2) fs))
    (hq : outPkg fl.args (endFiles (runTool A sys fl grow loops (k + 2) fs)) = some q) : ∃ g vs, Generated fl.gen s g vs q := by
  obtain ⟨g, hg, T, h1, h2, vs, hv, hw⟩ := outPkg_conds R hq hm
  exact ⟨g, vs, hg, R.compiles, R.const, T, hv, hw, h1, h2⟩

/-- **C66** So do the files of package rfc1813. -/
theorem C66_rfc1813 {q : Pkg} {s : Gen.Spec} (R : IsRfc1813 q s) : ∃ g vs, Generated Inst.fl s g vs q := by
  obtain ⟨rfl, T, h1, h2, hg, hc, hw⟩ := R.conds
  exact ⟨_, _, hg, hc, by decide, T, Inst.Rfc1813.genVers, hw, h1, h2⟩

theorem rfc1057_wraps : HasVers Inst.Rfc1057.goVers rpcPkg := by
  have h : (Inst.Rfc1057.goVers.flatMap (·.wrappers)).map (fun w => rpcPkg.meths.lookup (w.recv, w.name)) =
      (Inst.Rfc1057.goVers.flatMap (·.wrappers)).map fun w => some (wrapG w) := by kernel_rfl
  have h1 : Inst.Rfc1057.goVers.map (fun v => rpcPkg.types.lookup v.iface) = Inst.Rfc1057.goVers.map fun _ => some .iface := by kernel_rfl
  have h2 : Inst.Rfc1057.goVers.map (fun v => rpcPkg.types.lookup v.wrapperType) =
      Inst.Rfc1057.goVers.map fun v => some (.struct [("h", .name v.wrapperField)]) := by kernel_rfl
  have h3 : Inst.Rfc1057.goVers.map (fun v => rpcPkg.funcs.lookup v.regsName) = Inst.Rfc1057.goVers.map fun v => some (regsG v) := by kernel_rfl
  exact ⟨List.map_inj_left.mp h1, fun v hv _ => List.map_inj_left.mp h2 v hv,
    fun v hv w hw => List.map_inj_left.mp h w (List.mem_flatMap.mpr ⟨v, hv, hw⟩), List.map_inj_left.mp h3⟩

/-- **C66** So does package rfc1057. -/
theorem C66_rfc1057 : Generated Inst.fl Inst.Rfc1057.spec Inst.Rfc1057.prog Inst.Rfc1057.goVers rpcPkg := by
  obtain ⟨h1, h2, h3, h4, h5, h6, -⟩ := @C64_rfc1057 noOthers
  exact ⟨h1, h2, h3, h4, Inst.Rfc1057.genVers, rfc1057_wraps, h5, h6⟩

section Example
/-- A handler: `PMAPPROC_GETPORT` returns the field `Port` of its argument; calls are counted. -/
def portExt : Ext Nat where
  ext := fun _ vs st =>
    match vs with
    | [.obj _, .struct _ [_, _, _, (_, v)]] => .ok ([v], { st with world := st.world + 1 })
    | _ => .error (.panic, st)
  spawn := fun _ _ st => .ok ((), st)
  grow := fun _ n => n
  loops := 2 ^ 32

def portCall : ProgCall := ⟨"PMAPPROC_GETPORT", some (.ident "mapping"), some (.ident "uint32"), 3⟩

def portVers : ProgVer :=
  ⟨"PMAP_VERS", [⟨"PMAPPROC_NULL", none, none, 0⟩, ⟨"PMAPPROC_SET", some (.ident "mapping"), some (.ident "xbool"), 1⟩,
    ⟨"PMAPPROC_UNSET", some (.ident "mapping"), some (.ident "xbool"), 2⟩, portCall, ⟨"PMAPPROC_DUMP", none, some (.ident "pmaplist"), 4⟩,
    ⟨"PMAPPROC_CALLIT", some (.ident "call_args"), some (.ident "call_result"), 5⟩], 2⟩

theorem port_procedure : Procedure Inst.Rfc1057.spec ⟨"PMAP_PROG", [portVers], 100000⟩ portVers portCall :=
  ⟨by simp [Inst.Rfc1057.spec, portVers, portCall], List.mem_singleton.mpr rfl, by simp [portVers]⟩

/-- The wrapper in cell 0, the reader in cell 1, bytes in cell 2. -/
def portSt (b : List UInt8) : St Nat where
  heap := fun k => if k = 0 then .struct "rfc1057.PMAP_PROG_PMAP_VERS_handler_wrapper" [("h", .obj 7)] else
    if k = 1 then .struct "xdr.XdrState" [("err", .nil), ("reader", .bool true), ("buf", .slice ⟨⟨2, []⟩, 0, b.length, b.length⟩)] else .bytes b
  next := 3
  world := 0
  defers := []

theorem portSt_reader (b : List UInt8) : ReaderAt (portSt b) 1 b := by
  refine ⟨2, _, rfl, ?_, Nat.lt_of_sub_eq_succ rfl, Nat.lt_of_sub_eq_succ rfl, by simp⟩
  have hb : sub ⟨⟨2, []⟩, 0, b.length, b.length⟩ b = b := by simp [sub]
  conv => arg 4; rw [← hb]
  exact .slice _ _ ⟨rfl, by simp, Nat.le_refl _⟩ rfl

/-- The port that comes in goes out. -/
example : GivesBack (progWith (typedPkg rpcPkg) []) portExt (.meth "rfc1057.PMAP_PROG_PMAP_VERS_handler_wrapper" "PMAPPROC_GETPORT")
    [.ptr "" ⟨0, []⟩, .ptr "" ⟨1, []⟩] (portSt [0, 0, 0, 1, 0, 0, 0, 2, 0, 0, 0, 6, 0, 0, 8, 1, 42]) fun r st' =>
      ∃ t, r = [.ptr "rfc1057.Uint32" ⟨t, []⟩, .nil] ∧ HasValue st' t (.u32 2049) ∧ st'.world = 1 := by
  have hx : IsValue rpcEnv "mapping" (.struct [.uint 1, .uint 2, .uint 6, .uint 2049]) :=
    ⟨3, _, rfl, _, ⟨_, _, ⟨1, by decide, rfl⟩, ⟨_, _, ⟨2, by decide, rfl⟩, ⟨_, _, ⟨6, by decide, rfl⟩, ⟨_, _, ⟨2049, by decide, rfl⟩, rfl, rfl⟩, rfl⟩, rfl⟩, rfl⟩, rfl⟩
  refine (C66_calls C66_rfc1057 (.head (by decide)) portExt (Nat.le_refl _) port_procedure rfl hx (reads_enc _) (rest := [42]) (Tn := "") (o := 0) (h := 7) (x := 1)
    (st := portSt _) ⟨by decide, _, rfl⟩ (portSt_reader _) (by decide) (R := fun r st2 => r = some (.u32 2049) ∧ st2.world = 1) ?_).mono ?_
  · intro y hy hD st1 vs L hL hP hh hn hw
    obtain ⟨k, hy⟩ := hy
    cases k with
    | zero => exact hy.elim
    | succ k =>
      obtain ⟨t, ht, hy⟩ := hy
      cases ht
      obtain ⟨_, rfl, _, ⟨_, rfl, a, rfl⟩, _, ⟨_, rfl, b, rfl⟩, _, ⟨_, rfl, c, rfl⟩, _, ⟨_, rfl, d, rfl⟩, rfl⟩ := hy
      have hd : d = 2049 := by
        have h2 : Denotes rpcEnv "mapping" (.struct [("Prog", .u32 a), ("Vers", .u32 b), ("Prot", .u32 c), ("Port", .u32 d)])
            (.struct [.uint a.toNat, .uint b.toNat, .uint c.toNat, .uint d.toNat]) := ⟨2, rfl⟩
        have h3 := denotes_unique hD h2
        injection h3 with h3
        injection h3 with _ h3
        injection h3 with _ h3
        injection h3 with _ h3
        injection h3 with h3
        injection h3 with h3
        exact UInt32.toNat_inj.mp h3.symm
      subst hd
      obtain ⟨u, rfl, hu⟩ := hP
      cases hu with
      | struct h1 h2 h3 =>
        rename_i T fs
        have hl := congrArg List.length h1
        match fs, hl with
        | [f1, f2, f3, (n, w)], _ =>
          have hw4 := h3 3 _ _ _ _ rfl rfl
          cases hw4
          refine ⟨[.u32 2049], _, rfl, ⟨some (.u32 2049), ⟨.u32 2049, rfl, .u32 _⟩, ⟨_, rfl, 1, _, rfl, ⟨_, rfl⟩⟩, rfl, ?_⟩, fun _ _ => rfl, Nat.le_refl _, rfl⟩
          show st1.world + 1 = 1
          rw [hw]
          rfl
  · rintro _ st' ⟨t, v, r, st2, ⟨rfl, h1⟩, rfl, h2, h3, ⟨rfl, y, e, h4⟩, h5, h6, h7⟩
    cases e
    exact ⟨t, rfl, h4, h7.trans h1⟩

/-- Half of an argument is refused; the handler, which counts its calls, is not called. -/
example : GivesBack (progWith (typedPkg rpcPkg) []) portExt (.meth "rfc1057.PMAP_PROG_PMAP_VERS_handler_wrapper" "PMAPPROC_GETPORT")
    [.ptr "" ⟨0, []⟩, .ptr "" ⟨1, []⟩] (portSt [0, 0, 0, 1, 0, 0, 0, 2]) fun r st' => (∃ m vs, r = [.nil, .err m vs]) ∧ st'.world = 0 := by
  refine (C66_refuses C66_rfc1057 (.head (by decide)) portExt (Nat.le_refl _) port_procedure rfl (Tn := "") (o := 0) (h := 7) (x := 1) (l := [0, 0, 0, 1, 0, 0, 0, 2])
    ?_ (st := portSt _) ⟨by decide, _, rfl⟩ (portSt_reader _) (by decide)).mono ?_
  · rintro x p rest ⟨k, hx⟩ hp he
    cases k with
    | zero => exact hx.elim
    | succ k =>
      obtain ⟨t, ht, hx⟩ := hx
      cases ht
      obtain ⟨_, ⟨_, _, ⟨a, -, rfl⟩, ⟨_, _, ⟨b, -, rfl⟩, ⟨_, _, ⟨c, -, rfl⟩, ⟨_, _, ⟨d, -, rfl⟩, rfl, rfl⟩, rfl⟩, rfl⟩, rfl⟩, rfl⟩ := hx
      obtain ⟨_, _, rfl, ⟨_, _, rfl, ⟨_, _, rfl, ⟨_, _, rfl, rfl, rfl⟩, rfl⟩, rfl⟩, rfl⟩ := hp
      have := congrArg List.length he
      simp only [List.length_append, be_length, List.length_cons, List.length_nil] at this
      omega
  · rintro _ st' ⟨h1, -, -, h2⟩
    exact ⟨h1, h2⟩

/-- A handler whose methods have no arguments and results. -/
def nullExt : Ext Nat where
  ext := fun _ _ st => .ok ([], { st with world := st.world + 1 })
  spawn := fun _ _ st => .ok ((), st)
  grow := fun _ n => n
  loops := 0

/-- The null procedure: the handler is called once, and the answer is an `xdr.Void`. -/
example (b : List UInt8) : GivesBack (progWith (typedPkg rpcPkg) []) nullExt
    (.meth "rfc1057.PMAP_PROG_PMAP_VERS_handler_wrapper" "PMAPPROC_NULL") [.ptr "" ⟨0, []⟩, .ptr "" ⟨1, []⟩] (portSt b) fun r st' =>
      ∃ t, r = [.ptr "" ⟨t, []⟩, .nil] ∧ st'.heap t = .struct "xdr.Void" [] ∧ st'.world = 1 := by
  refine (C66_void C66_rfc1057 (.head (by decide)) nullExt (p := ⟨"PMAP_PROG", [portVers], 100000⟩) (v := portVers) (c := ⟨"PMAPPROC_NULL", none, none, 0⟩)
    ⟨port_procedure.prog, port_procedure.vers, by simp [portVers]⟩ rfl (Tn := "") (o := 0) (h := 7) (x := 1)
    (st := portSt b) ⟨Nat.lt_of_sub_eq_succ rfl, _, rfl⟩ (portSt_reader _) (by decide) (R := fun r st2 => st2.world = 1) ?_).mono ?_
  · intro st1 vs L hL hP hh hn hw
    refine ⟨[], _, rfl, ⟨none, rfl, rfl, ?_⟩, fun _ _ => rfl, Nat.le_refl _, rfl⟩
    show st1.world + 1 = 1
    rw [hw]
    rfl
  · rintro _ st' ⟨t, v, r, st2, h1, rfl, h2, h3, ⟨rfl, h4⟩, h5, h6, h7⟩
    exact ⟨t, rfl, h4, h7.trans h1⟩
end Example
end Verif.Props
