/-
PROPERTY C40: generated registration tables and wrapper methods, for every supported specification
that contains the program.

`h : Impl σ` is the user's object: for every method name and argument value, a computation on the
user's state `σ` (in several atomic steps, so that the theorems can be used under concurrency).
-/
import Verif.Rpc.WrapperLemmas
import Verif.Props.Server
import Verif.Props.Shipped

namespace Verif.Props
open Verif.Xdr Verif.Spec Verif.Gen Verif.Rpc

variable {σ : Type}

/-! ### Specification -/

/-- The argument the method of procedure `c` is to be called with when the argument bytes are `b`
(there may be more bytes behind it): the value on the wire put into a fresh variable.  `none` for
procedures without argument. -/
def Arrives (E : Env) (g : GoProg) (c : ProgCall) (b : List UInt8) (arg : Option GoVal) : Prop :=
  match c.arg with
  | none => arg = none
  | some (.ident n) => ∃ x p rest z v, b = p ++ rest ∧ Reads x p ∧ IsValue E n x ∧
      g.zeroNamed (i n) = some z ∧ Fills E (zeroOf g) n z x v ∧ Denotes E n v x ∧ Typed E n v ∧ arg = some v
  | some _ => False

/-- What is sent for the result `r` of the method of procedure `c`: the RFC image of the value it
stands for, an error if that violates a bound. -/
def Returns (E : Env) (c : ProgCall) (r : Option GoVal) (d : Xdrable) : Prop :=
  match c.res, r with
  | none, _ => Encodes d []
  | some (.ident n), some v => ∃ y, Denotes E n v y ∧ (IsValue E n y → Encodes d (enc y)) ∧
      (¬ IsValue E n y → Unencodable d)
  | _, _ => False

/-- The handler does what procedure `c` requires: on a decodable argument it calls the method of that
name once, on the decoded argument, and returns its result; otherwise it reports an error without
calling anything. -/
def Serves (E : Env) (g : GoProg) (h : Impl σ) (c : ProgCall) (hd : ProcHandler σ) : Prop :=
  ∀ b s,
    (∀ arg, Arrives E g c b arg →
      let r := (h (i c.name) arg).run () s
      ∃ d, hd.run (makeReader b) s = (r.1, some d, false) ∧ Returns E c r.2 d) ∧
    ((¬ ∃ arg, Arrives E g c b arg) → hd.run (makeReader b) s = (s, none, true))

/-- The user's object implements the interface of the version: its methods return values of the
declared type.  (The Go compiler guarantees this.) -/
def Implements (E : Env) (h : Impl σ) (v : ProgVer) : Prop :=
  ∀ c ∈ v.calls, ∀ arg,
    (match c.arg with
      | some (.ident n) => ∃ x, arg = some x ∧ Typed E n x
      | _ => arg = none) →
    (h (i c.name) arg).All fun r =>
      match c.res with
      | some (.ident n) => ∃ y, r = some y ∧ Typed E n y
      | _ => r = none

/-- Arguments and results of the procedures are declared types, and all numbers fit 32 bits.  (The
generated package does not compile otherwise: `C40_unnamed_arg`, `C40_unnamed_result`, and Go's
"constant overflows".) -/
def callable (E : Env) (p : ProgDef) : Bool :=
  decide (p.id < 2 ^ 32) && p.vers.all fun v => decide (v.id < 2 ^ 32) && v.calls.all fun c =>
    decide (c.id < 2 ^ 32) && c.arg.all (Named E) && c.res.all (Named E)

/-! ### Wrappers -/

section
variable {fl : Flags} {s : Gen.Spec} {g : GoProg} (hg : generate fl s = some g)
  (hs : supported fl s = true)

local notation "E" => envOf fl.unsignedEnum s

include hg hs in
/-- A wrapper returns normally, whatever the state of the argument reader. -/
theorem C40_returns (h : Impl σ) {p : ProgDef} {v : ProgVer} {c : ProgCall} {w : GoWrapper}
    (hw : emitWrapper p v c = some w) (hc : c ∈ v.calls) (harg : c.arg.all (Named E) = true)
    (hres : c.res.all (Named E) = true) (hi : Implements E h v) :
    (wrapperRun g h w).All fun r => ∃ o, r = .ok o ∧ (o.2 = true → o.1 = none) ∧
      ∀ d, o.1 = some d → WellBehaved d := by
  intro rd s0
  show (execW g h w.body { args := rd, err := false, inV := none, outV := none }).All _
  have hfin : ∀ arg, (match c.arg with
      | some (.ident n) => ∃ x, arg = some x ∧ Typed E n x
      | _ => arg = none) →
      (((h (i c.name) arg).comap fun _ => ()).bind fun r => (.ret (finish g c r) : Proc XdrState σ _)).All
        fun r => ∃ o, r = .ok o ∧ (o.2 = true → o.1 = none) ∧ ∀ d, o.1 = some d → WellBehaved d := by
    intro arg ha
    refine ((hi c hc arg ha).comap _).bind fun r hr => ?_
    cases hcr : c.res with
    | none =>
      refine ⟨(some voidXdrable, false), by simp [finish, hcr], by simp, fun d hd => ?_⟩
      cases hd
      exact .inr ⟨[], voidXdrable_encodes⟩
    | some t =>
      rw [hcr] at hres hr
      cases t with
      | ident n =>
        obtain ⟨y, rfl, hy⟩ := hr
        refine ⟨(some (methodXdrable g (i n) y), false), by simp [finish, hcr], by simp, fun d hd => ?_⟩
        cases hd
        obtain ⟨x, hx, h1, h2⟩ := methodXdrable_encodes hg hs hy
        by_cases hv : IsValue E n x
        · exact .inr ⟨_, h1 hv⟩
        · exact .inl (h2 hv)
      | _ => simp [Named] at hres
  cases hca : c.arg with
  | none =>
    rw [execW_void hg hs h hw hres hca]
    exact hfin none (by rw [hca])
  | some t =>
    rw [hca] at harg
    cases t with
    | ident n =>
      simp only [Option.all_some, Named] at harg
      obtain ⟨z, hz, hzt, _⟩ := zero_fresh hg hs harg
      obtain ⟨xs, x, hr, hx⟩ := C18_total hg hs hzt rd
      rw [execW_arg hg hs h hw hres hca harg hz hr]
      split
      · exact ⟨_, rfl, by simp, by simp⟩
      · exact hfin (some x) (by rw [hca]; exact ⟨x, rfl, hx⟩)
    | _ => simp [Named] at harg

include hg hs in
/-- The argument is determined by the bytes. -/
theorem C40_argument {c : ProgCall} {b : List UInt8} {arg arg' : Option GoVal}
    (h : Arrives E g c b arg) (h' : Arrives E g c b arg') : arg = arg' := by
  unfold Arrives at h h'
  cases hca : c.arg with
  | none => rw [hca] at h h'; rw [h, h']
  | some t =>
    rw [hca] at h h'
    cases t with
    | ident n =>
      obtain ⟨x, p, rest, z, v, hb, hp, hx, hz, hf, _, _, rfl⟩ := h
      obtain ⟨x', p', rest', z', v', hb', hp', hx', hz', hf', _, _, rfl⟩ := h'
      obtain ⟨rfl, rfl⟩ := unique_named E n x x' p p' rest rest' hx hx' hp hp' (hb ▸ hb')
      rw [hz] at hz'; cases hz'
      rw [fills_unique hf hf']
    | _ => exact h.elim

include hg hs in
theorem C40_wrapper (h : Impl σ) {p : ProgDef} {v : ProgVer} {c : ProgCall} {w : GoWrapper}
    (hw : emitWrapper p v c = some w) (hc : c ∈ v.calls) (harg : c.arg.all (Named E) = true)
    (hres : c.res.all (Named E) = true) (hi : Implements E h v) :
    Serves E g h c (wrapperHandler g h w) := by
  intro b s0
  have hfin : ∀ arg, (match c.arg with
      | some (.ident n) => ∃ x, arg = some x ∧ Typed E n x
      | _ => arg = none) →
      ∃ d, finish g c ((h (i c.name) arg).run () s0).2 = .ok (some d, false) ∧
        Returns E c ((h (i c.name) arg).run () s0).2 d := by
    intro arg ha
    have hr := (hi c hc arg ha).run () s0
    generalize ((h (i c.name) arg).run () s0).2 = r at hr
    cases hcr : c.res with
    | none => exact ⟨voidXdrable, by simp [finish, hcr], by simp only [Returns, hcr]; exact voidXdrable_encodes⟩
    | some t =>
      rw [hcr] at hres hr
      cases t with
      | ident n =>
        obtain ⟨y, rfl, hy⟩ := hr
        refine ⟨methodXdrable g (i n) y, by simp [finish, hcr], ?_⟩
        simp only [Returns, hcr]
        exact methodXdrable_encodes hg hs hy
      | _ => simp [Named] at hres
  have hrun : ∀ P, execW g h w.body { args := makeReader b, err := false, inV := none, outV := none } = P →
      (wrapperHandler g h w).run (makeReader b) s0 =
      ((P.run (makeReader b) s0).1, match (P.run (makeReader b) s0).2 with
        | .ok r => r | .error _ => (none, true)) := by
    intro P hP
    simp only [wrapperHandler, Proc.run_map, wrapperRun, Proc.run, hP]
    rfl
  cases hca : c.arg with
  | none =>
    refine ⟨fun arg ha => ?_, fun hn => absurd ⟨none, by simp [Arrives, hca]⟩ hn⟩
    simp only [Arrives, hca] at ha
    subst ha
    obtain ⟨d, h1, h2⟩ := hfin none (by rw [hca])
    refine ⟨d, ?_, h2⟩
    rw [hrun _ (execW_void hg hs h hw hres hca _)]
    simp only [Proc.run_bind, Proc.run_comap, Proc.run, h1]
  | some t =>
    rw [hca] at harg
    cases t with
    | ident n =>
      simp only [Option.all_some, Named] at harg
      obtain ⟨z, hz, hzt, hzc⟩ := zero_fresh hg hs harg
      rcases runs_decode hg hs hzt b with ⟨x, q, rest, x', h1, h2, h3, h4, h5, h6⟩ | ⟨xs', x', h1, h2, _, _, h5⟩
      · have harr : Arrives E g c b (some x') := by
          simp only [Arrives, hca]
          exact ⟨x, q, rest, z, x', h1, h2, h3, hz, h5, fills_denotes hg hs hzc h3 h5, h6, rfl⟩
        refine ⟨fun arg ha => ?_, fun hn => absurd ⟨_, harr⟩ hn⟩
        cases C40_argument hg hs ha harr
        obtain ⟨d, g1, g2⟩ := hfin (some x') (by rw [hca]; exact ⟨x', rfl, h6⟩)
        refine ⟨d, ?_, g2⟩
        rw [hrun _ (execW_arg hg hs h hw hres hca harg hz h4), if_neg (by simp [makeReader])]
        simp only [Proc.run_bind, Proc.run_comap, Proc.run, g1]
      · refine ⟨fun arg ha => ?_, fun _ => ?_⟩
        · simp only [Arrives, hca] at ha
          obtain ⟨x, q, rest, _, _, hb, hq, hx, _⟩ := ha
          exact absurd hb (h5 x q rest hx hq)
        · rw [hrun _ (execW_arg hg hs h hw hres hca harg hz h1), if_pos h2]
          rfl
    | _ => simp [Named] at harg

/-! ### Registration tables -/

private theorem const_value {c : GoConst} (hnd : (constNames g).Nodup) (hc : c ∈ g.consts) {n : Nat}
    (hv : c.val = .lit n) (hn : n < 2 ^ 32) : constU32 g c.name = some (UInt32.ofNat n) := by
  have h1 := find_nodup hnd hc
  have h2 : g.const (.ident c.name) = some n := by
    simp only [GoProg.const, constVal, h1, hv]
  simp [constU32, h2, hn]

private theorem sublist_names {α : Type} {f : α → GoConst} {l : List α} {cs : List GoConst}
    (h : (l.map f).Sublist cs) (hnd : (cs.map (·.name)).Nodup) : (l.map fun a => (f a).name).Nodup := by
  have := (h.map (·.name)).nodup hnd
  rwa [List.map_map] at this

include hg hs in
/-- The table of a version has one entry per procedure, in order, with the declared numbers, and each
entry's handler serves that procedure. -/
theorem C40_table {p : ProgDef} (hp : Defn.program p ∈ s) {v : ProgVer} (hv : v ∈ p.vers)
    (hok : callable E p = true) (h : Impl σ) (hi : Implements E h v) :
    ∃ gv regs, emitVers p v = some gv ∧ regsOf g h gv = some regs ∧
      regs.map (fun r => (r.prog.toNat, r.vers.toNat, r.proc.toNat)) =
        v.calls.map (fun c => (p.id, v.id, c.id)) ∧
      (∀ (k : Nat) c r, v.calls[k]? = some c → regs[k]? = some r → Serves E g h c r.handler) ∧
      Orderly regs := by
  simp only [callable, Bool.and_eq_true, decide_eq_true_eq, List.all_eq_true] at hok
  obtain ⟨hpid, hok⟩ := hok
  obtain ⟨hvid, hcalls⟩ := hok v hv
  have hnd := (supported_facts hg hs).consts
  have hmem : ∀ c ∈ (emitProgConsts p).consts, c ∈ g.consts := by
    intro c hc
    rw [generate_consts hg, List.mem_flatMap]
    exact ⟨_, hp, hc⟩
  have hsub : ((emitProgConsts p).consts).Sublist g.consts := by
    rw [generate_consts hg]
    obtain ⟨a, b, rfl⟩ := List.append_of_mem hp
    simp only [List.flatMap_append, List.flatMap_cons, defnConsts]
    exact (List.sublist_append_left _ _).trans (List.sublist_append_right _ _)
  have hcsub : (v.calls.map (fun c => (⟨i c.name, "uint32", .lit c.id⟩ : GoConst))).Sublist g.consts := by
    refine List.Sublist.trans ?_ hsub
    simp only [emitProgConsts]
    refine List.Sublist.trans ?_ (List.sublist_cons_self _ _)
    obtain ⟨a, b, hab⟩ := List.append_of_mem hv
    rw [hab]
    simp only [List.flatMap_append, List.flatMap_cons]
    exact ((List.sublist_cons_self _ _).trans (List.sublist_append_left _ _)).trans
      (List.sublist_append_right _ _)
  have hnames : (v.calls.map fun c => i c.name).Nodup := sublist_names hcsub hnd
  have cprog : constU32 g (i p.name) = some (UInt32.ofNat p.id) :=
    const_value (c := ⟨i p.name, "uint32", .lit p.id⟩) hnd (hmem _ (by simp [emitProgConsts])) rfl hpid
  have cvers : constU32 g (i v.name) = some (UInt32.ofNat v.id) :=
    const_value (c := ⟨i v.name, "uint32", .lit v.id⟩) hnd (hmem _ (by
      simp only [emitProgConsts, List.mem_cons, List.mem_flatMap]
      exact .inr ⟨v, hv, .inl rfl⟩)) rfl hvid
  have cproc : ∀ c ∈ v.calls, constU32 g (i c.name) = some (UInt32.ofNat c.id) := fun c hc =>
    const_value (c := ⟨i c.name, "uint32", .lit c.id⟩) hnd (hcsub.subset (List.mem_map.mpr ⟨c, hc, rfl⟩)) rfl
      (hcalls c hc).1.1
  have hgt : ∀ t : Typespec, Named E t = true → ∃ gt, t.goType = some gt := by
    intro t ht
    cases t <;> simp [Named] at ht
    exact ⟨_, rfl⟩
  obtain ⟨sigs, hsigs⟩ : ∃ sigs, mapM' (fun c : ProgCall => do
      let a ← maybeGoType c.arg
      let r ← maybeGoType c.res
      pure (⟨i c.name, a, r⟩ : GoSig)) v.calls = some sigs := by
    refine mapM'_total fun c hc => ?_
    obtain ⟨⟨_, ha⟩, hr⟩ := hcalls c hc
    obtain ⟨n, arg, res, cid⟩ := c
    cases arg with
    | none =>
      cases res with
      | none => rfl
      | some t => obtain ⟨gt, h1⟩ := hgt t hr; simp [maybeGoType, h1]
    | some t =>
      obtain ⟨gt, h1⟩ := hgt t ha
      cases res with
      | none => simp [maybeGoType, h1]
      | some t' => obtain ⟨gt', h2⟩ := hgt t' hr; simp [maybeGoType, h1, h2]
  have hwr : ∀ c ∈ v.calls, ∃ w, emitWrapper p v c = some w ∧
      w.recv = versName p v "_handler_wrapper" ∧ w.name = i c.name := by
    intro c hc
    obtain ⟨⟨_, ha⟩, hr⟩ := hcalls c hc
    obtain ⟨n, arg, res, cid⟩ := c
    cases arg with
    | none =>
      cases res with
      | none => exact ⟨_, rfl, rfl, rfl⟩
      | some t => obtain ⟨gt, h1⟩ := hgt t hr; simp [emitWrapper, h1]
    | some t =>
      obtain ⟨gt, h1⟩ := hgt t ha
      cases res with
      | none => simp [emitWrapper, h1]
      | some t' => obtain ⟨gt', h2⟩ := hgt t' hr; simp [emitWrapper, h1, h2]
  obtain ⟨ws, hws⟩ : ∃ ws, mapM' (emitWrapper p v) v.calls = some ws :=
    mapM'_total fun c hc => by obtain ⟨w, hw, _⟩ := hwr c hc; simp [hw]
  -- looking a wrapper up by its name
  have hfind : ∀ c ∈ v.calls, ∃ w, emitWrapper p v c = some w ∧
      ws.find? (fun w => w.recv == versName p v "_handler_wrapper" && w.name == i c.name) = some w := by
    intro c hc
    obtain ⟨w, hw, hw1, hw2⟩ := hwr c hc
    refine ⟨w, hw, ?_⟩
    clear hsigs hcalls cproc hcsub hi hv
    generalize v.calls = cl at *
    induction cl generalizing ws with
    | nil => simp at hc
    | cons c' cl ih =>
      simp only [mapM'] at hws
      obtain ⟨w', hw', hws⟩ := bind_some hws
      obtain ⟨ws', hws', hws⟩ := bind_some hws
      cases hws
      obtain ⟨w'', hw'', hr'', hn''⟩ := hwr c' (by simp)
      rw [hw'] at hw''; cases hw''
      simp only [List.map_cons, List.nodup_cons, List.mem_map, not_exists, not_and] at hnames
      rcases List.mem_cons.mp hc with rfl | hc'
      · rw [hw] at hw'; cases hw'
        simp [hw1, hw2]
      · have hne : (w'.name == i c.name) = false := by
          rw [hn'', beq_eq_false_iff_ne]
          exact fun he => hnames.1 c hc' he.symm
        rw [List.find?_cons, hne, Bool.and_false]
        exact ih ws' hnames.2 (fun c h => hwr c (List.mem_cons_of_mem _ h)) hws' hc'
  let gv : GoVers := {
    iface := versName p v "_handler"
    sigs := sigs
    wrapperType := versName p v "_handler_wrapper"
    wrapperField := versName p v "_handler"
    wrappers := ws
    regsName := versName p v "_regs"
    regsParam := versName p v "_handler"
    regsWrapper := versName p v "_handler_wrapper"
    regs := v.calls.map fun c => ⟨i p.name, i v.name, i c.name, i c.name⟩ }
  have hgv : emitVers p v = some gv := by
    rw [emitVers, hsigs, hws]
    rfl
  have hreg : ∀ c ∈ v.calls, ∃ w, emitWrapper p v c = some w ∧
      evalReg g h gv ⟨i p.name, i v.name, i c.name, i c.name⟩ =
        some ⟨UInt32.ofNat p.id, UInt32.ofNat v.id, UInt32.ofNat c.id, wrapperHandler g h w⟩ := by
    intro c hc
    obtain ⟨w, hw, hf⟩ := hfind c hc
    refine ⟨w, hw, ?_⟩
    have hf' : gv.wrappers.find? (fun w => w.recv == gv.regsWrapper && w.name == i c.name) = some w := hf
    rw [evalReg, cprog, cvers, cproc c hc, hf']
    rfl
  obtain ⟨regs, hregs⟩ : ∃ regs, regsOf g h gv = some regs := by
    refine mapM'_total fun r hr => ?_
    obtain ⟨c, hc, rfl⟩ := List.mem_map.mp hr
    obtain ⟨w, _, he⟩ := hreg c hc
    rw [he]; rfl
  have hent : ∀ (k : Nat) c r, v.calls[k]? = some c → regs[k]? = some r → ∃ w, emitWrapper p v c = some w ∧
      r = ⟨UInt32.ofNat p.id, UInt32.ofNat v.id, UInt32.ofNat c.id, wrapperHandler g h w⟩ := by
    intro k c r hc hr
    obtain ⟨w, hw, he⟩ := hreg c (List.mem_of_getElem? hc)
    obtain ⟨r', h1, h2⟩ := mapM'_some hregs k ⟨i p.name, i v.name, i c.name, i c.name⟩ (by
      show (v.calls.map _)[k]? = _
      rw [List.getElem?_map, hc]; rfl)
    rw [he] at h1; cases h1
    rw [hr] at h2; cases h2
    exact ⟨w, hw, rfl⟩
  have hlen : regs.length = v.calls.length := by
    rw [mapM'_length hregs]; exact List.length_map _
  refine ⟨gv, regs, hgv, hregs, ?_, fun k c r hc hr => ?_, ?_⟩
  · apply List.ext_getElem?
    intro k
    rw [List.getElem?_map, List.getElem?_map]
    cases hc : v.calls[k]? with
    | none =>
      have : regs[k]? = none := by
        rw [List.getElem?_eq_none_iff] at hc ⊢; omega
      simp [this]
    | some c =>
      cases hr : regs[k]? with
      | none =>
        rw [List.getElem?_eq_none_iff] at hr
        have := List.getElem?_eq_none_iff.mpr (show v.calls.length ≤ k by omega)
        rw [hc] at this; cases this
      | some r =>
        obtain ⟨w, _, rfl⟩ := hent k c r hc hr
        have hcid := (hcalls c (List.mem_of_getElem? hc)).1.1
        simp only [Option.map_some, UInt32.toNat_ofNat', Nat.mod_eq_of_lt hpid, Nat.mod_eq_of_lt hvid,
          Nat.mod_eq_of_lt hcid]
  · obtain ⟨w, hw, rfl⟩ := hent k c r hc hr
    have hcm := List.mem_of_getElem? hc
    exact C40_wrapper hg hs h hw hcm (hcalls c hcm).1.2 (hcalls c hcm).2 hi
  · intro r hr rd s0
    obtain ⟨k, hk, hrk⟩ := List.getElem_of_mem hr
    have hr' : regs[k]? = some r := by rw [List.getElem?_eq_getElem hk, hrk]
    obtain ⟨c, hc⟩ : ∃ c, v.calls[k]? = some c :=
      ⟨_, List.getElem?_eq_getElem (by omega)⟩
    obtain ⟨w, hw, rfl⟩ := hent k c r hc hr'
    have hcm := List.mem_of_getElem? hc
    obtain ⟨o, ho, h1, h2⟩ :=
      (C40_returns hg hs h hw hcm (hcalls c hcm).1.2 (hcalls c hcm).2 hi).run rd s0
    simp only [wrapperHandler, Proc.run_map, ho]
    exact ⟨h1, h2⟩

end

/-! ### The condition is needed -/

private theorem mapM'_none {α β : Type} {f : α → Option β} : ∀ {l : List α} {a : α}, a ∈ l → f a = none →
    mapM' f l = none
  | b :: l, a, ha, h => by
    simp only [mapM']
    rcases List.mem_cons.mp ha with rfl | ha
    · rw [h]; rfl
    · rw [mapM'_none ha h]; cases f b <;> rfl

/-- **C40, the other direction** A program, version or procedure number of 2^32 or more cannot be
registered: the table does not compile. -/
theorem C40_large {fl : Flags} {s : Spec} {g : GoProg} (hg : generate fl s = some g)
    (hs : supported fl s = true) {p : ProgDef} (hp : Defn.program p ∈ s) {v : ProgVer} (hv : v ∈ p.vers)
    {c : ProgCall} (hc : c ∈ v.calls) (hl : 2 ^ 32 ≤ p.id ∨ 2 ^ 32 ≤ v.id ∨ 2 ^ 32 ≤ c.id)
    (h : Impl σ) {gv : GoVers} (hgv : emitVers p v = some gv) : regsOf g h gv = none := by
  have hnd := (supported_facts hg hs).consts
  have hbig : ∀ (n : Ident) (k : Nat), (⟨n, "uint32", .lit k⟩ : GoConst) ∈ (emitProgConsts p).consts →
      2 ^ 32 ≤ k → constU32 g n = none := by
    intro n k hm hk
    have hc : (⟨n, "uint32", .lit k⟩ : GoConst) ∈ g.consts := by
      rw [generate_consts hg, List.mem_flatMap]
      exact ⟨_, hp, hm⟩
    have h1 := find_nodup hnd hc
    have h2 : g.const (.ident n) = some k := by
      simp only [GoProg.const, constVal, h1]
    simp only [constU32, h2]
    rw [if_neg (by omega)]
  unfold emitVers at hgv
  obtain ⟨sigs, _, hgv⟩ := bind_some hgv
  obtain ⟨ws, _, hgv⟩ := bind_some hgv
  cases hgv
  refine mapM'_none (a := ⟨i p.name, i v.name, i c.name, i c.name⟩) (List.mem_map.mpr ⟨c, hc, rfl⟩) ?_
  simp only [evalReg]
  rcases hl with hl | hl | hl
  · rw [hbig (i p.name) p.id (by simp [emitProgConsts]) hl]; rfl
  · rw [hbig (i v.name) v.id (by
      simp only [emitProgConsts, List.mem_cons, List.mem_flatMap]
      exact .inr ⟨v, hv, .inl rfl⟩) hl]
    cases constU32 g (i p.name) <;> rfl
  · rw [hbig (i c.name) c.id (by
      simp only [emitProgConsts, List.mem_cons, List.mem_flatMap, List.mem_map]
      exact .inr ⟨v, hv, .inr ⟨c, hc, rfl⟩⟩) hl]
    cases constU32 g (i p.name) <;> cases constU32 g (i v.name) <;> rfl

/-- A program that meets the hypotheses. -/
example : let p : ProgDef := ⟨"P", [⟨"V", [⟨"nop", none, none, 2 ^ 32⟩], 1⟩], 100000⟩
    (∃ g, generate ⟨true, "uint32"⟩ [.program p] = some g) ∧
      supported ⟨true, "uint32"⟩ [.program p] = true ∧ (∃ gv, emitVers p ⟨"V", [⟨"nop", none, none, 2 ^ 32⟩], 1⟩ = some gv) :=
  ⟨⟨_, rfl⟩, by decide +kernel, ⟨_, rfl⟩⟩


private theorem not_named {t : Typespec} {gt : GoType} (ht : ∀ n, t ≠ .ident n) (hgt : t.goType = some gt)
    (m : Ident) : gt ≠ .named m := by
  intro hm
  subst hm
  cases t with
  | ident n => exact ht n rfl
  | int u => cases u <;> simp [Typespec.goType] at hgt
  | hyper u => cases u <;> simp [Typespec.goType] at hgt
  | struct ds =>
    simp only [Typespec.goType] at hgt
    obtain ⟨_, _, hgt⟩ := bind_some hgt
    cases hgt
  | union sw cs =>
    simp only [Typespec.goType] at hgt
    obtain ⟨_, _, hgt⟩ := bind_some hgt
    obtain ⟨_, _, hgt⟩ := bind_some hgt
    cases hgt
  | _ => simp [Typespec.goType] at hgt

/-- An argument whose type is not a declared type, as in `f(int)`: the wrapper contains `in.Xdr(args)`
for a variable of a type without methods, which is not Go. -/
theorem C40_unnamed_arg (g : GoProg) (h : Impl σ) {p : ProgDef} {v : ProgVer} {c : ProgCall} {w : GoWrapper}
    (hw : emitWrapper p v c = some w) {t : Typespec} (ha : c.arg = some t) (ht : ∀ n, t ≠ .ident n)
    (rd : XdrState) (s : σ) : (wrapperRun g h w).run rd s = (s, .error .stuck) := by
  obtain ⟨name, arg, res, id⟩ := c
  cases ha
  cases hgt : t.goType with
  | none => simp [emitWrapper, hgt] at hw
  | some gt =>
    obtain ⟨rest, hrest⟩ : ∃ rest, w.body = .varIn gt :: .inXdr :: rest := by
      cases res with
      | none => simp [emitWrapper, hgt] at hw; subst hw; exact ⟨_, rfl⟩
      | some t' =>
        cases hgt' : t'.goType with
        | none => simp [emitWrapper, hgt, hgt'] at hw
        | some gt' => simp [emitWrapper, hgt, hgt'] at hw; subst hw; exact ⟨_, rfl⟩
    simp only [wrapperRun, Proc.run, hrest, execW]
    cases hz : g.zero gt with
    | none => rfl
    | some z =>
      cases gt with
      | named m => exact absurd rfl (not_named ht hgt m)
      | _ => rfl

/-- The same for results: `&out` is not an `xdr.Xdrable`. -/
theorem C40_unnamed_result (g : GoProg) (h : Impl σ) {p : ProgDef} {v : ProgVer} {c : ProgCall}
    {w : GoWrapper} (hw : emitWrapper p v c = some w) {t : Typespec} (ha : c.arg = none)
    (hr : c.res = some t) (ht : ∀ n, t ≠ .ident n) (rd : XdrState) (s : σ) :
    ((wrapperRun g h w).run rd s).2 = .error .stuck := by
  obtain ⟨name, arg, res, id⟩ := c
  cases ha
  cases hr
  cases hgt : t.goType with
  | none => simp [emitWrapper, hgt] at hw
  | some gt =>
    simp [emitWrapper, hgt] at hw
    subst hw
    simp only [wrapperRun, Proc.run, execW]
    cases hz : g.zero gt with
    | none => rfl
    | some z =>
      simp only [Bool.false_eq_true, false_and, if_false, Proc.run_bind, Proc.run_comap]
      cases ((h (i name) none).run () s).2 with
      | none => rfl
      | some r =>
        cases gt with
        | named m => exact absurd rfl (not_named ht hgt m)
        | _ => rfl

/-- A procedure `void f(int) = 1` and one `int f(void) = 1`. -/
example : ∃ w, emitWrapper ⟨"P", [], 1⟩ ⟨"V", [], 1⟩ ⟨"f", some (.int false), none, 1⟩ = some w := ⟨_, rfl⟩
example : ∃ w, emitWrapper ⟨"P", [], 1⟩ ⟨"V", [], 1⟩ ⟨"f", none, some (.int false), 1⟩ = some w := ⟨_, rfl⟩

/-! ### The shipped programs -/

open Verif.Inst in
/-- The three programs of the shipped specifications satisfy the conditions. -/
theorem C40_shipped :
    (∀ p, Defn.program p ∈ Rfc1057.spec → callable (envOf true Rfc1057.spec) p = true) ∧
    (∀ p, Defn.program p ∈ Rfc1813.spec → callable (envOf true Rfc1813.spec) p = true) := by
  have h1 : (Rfc1057.spec.all fun d => match d with
    | .program p => callable (envOf true Rfc1057.spec) p | _ => true) = true := by decide +kernel
  have h2 : (Rfc1813.spec.all fun d => match d with
    | .program p => callable (envOf true Rfc1813.spec) p | _ => true) = true := by decide +kernel
  rw [List.all_eq_true] at h1 h2
  exact ⟨fun p hp => h1 _ hp, fun p hp => h2 _ hp⟩

/-! An implementation of the portmapper interface that remembers one port: `PMAPPROC_SET` stores the
port of the mapping, `PMAPPROC_GETPORT` returns it. -/

open Verif.Inst

/-- The port in a `Mapping`. -/
def portOf : Option GoVal → UInt32
  | some (.struct [_, _, _, (_, .u32 p)]) => p
  | _ => 0

def pmapImpl : Impl UInt32 := fun m arg =>
  if m = "PMAPPROC_SET" then .act (fun _ _ => portOf arg) fun _ _ => .ret (some (.bool true))
  else if m = "PMAPPROC_UNSET" then .ret (some (.bool false))
  else if m = "PMAPPROC_GETPORT" then .atom fun _ s => (s, some (.u32 s))
  else if m = "PMAPPROC_DUMP" then .ret (some (.struct [("P", .ptr none)]))
  else if m = "PMAPPROC_CALLIT" then .ret (some (.struct [("Port", .u32 0), ("Res", .bytes none)]))
  else .ret none

/-- The version of rfc1057/prot.x. -/
def pmapVers : ProgVer := ⟨"PMAP_VERS", [⟨"PMAPPROC_NULL", none, none, 0⟩,
      ⟨"PMAPPROC_SET", (some (.ident "mapping")), (some (.ident "xbool")), 1⟩,
      ⟨"PMAPPROC_UNSET", (some (.ident "mapping")), (some (.ident "xbool")), 2⟩,
      ⟨"PMAPPROC_GETPORT", (some (.ident "mapping")), (some (.ident "uint32")), 3⟩,
      ⟨"PMAPPROC_DUMP", none, (some (.ident "pmaplist")), 4⟩,
      ⟨"PMAPPROC_CALLIT", (some (.ident "call_args")), (some (.ident "call_result")), 5⟩], 2⟩

def pmapProg : ProgDef := ⟨"PMAP_PROG", [pmapVers], 100000⟩

theorem pmapProg_mem : Defn.program pmapProg ∈ Rfc1057.spec := by decide +kernel

theorem pmapImpl_ok : Implements (envOf true Rfc1057.spec) pmapImpl pmapVers := by
  have hb : ∀ b, Typed (envOf true Rfc1057.spec) "xbool" (.bool b) := fun b => ⟨1, _, rfl, by
    simp only [hasTop, hasD, hasT]; exact ⟨b, rfl⟩⟩
  have hu : ∀ x, Typed (envOf true Rfc1057.spec) "uint32" (.u32 x) := fun x => ⟨1, _, rfl, by
    simp only [hasTop, hasD, hasT]; exact ⟨x, rfl⟩⟩
  have hz : ∀ n z, ((envOf true Rfc1057.spec).typeOf n).isSome = true → Rfc1057.prog.zeroNamed (i n) = some z →
      Typed (envOf true Rfc1057.spec) n z := by
    intro n z hn hz
    obtain ⟨z', h1, h2, _⟩ := zero_fresh (n := n) Rfc1057.gen Rfc1057.supp hn
    rw [hz] at h1; cases h1; exact h2
  intro c hc arg ha
  simp only [pmapVers, List.mem_cons, List.not_mem_nil, or_false] at hc
  rcases hc with rfl | rfl | rfl | rfl | rfl | rfl
  · rfl
  · exact fun _ _ => ⟨_, rfl, hb true⟩
  · exact ⟨_, rfl, hb false⟩
  · exact fun _ s => ⟨_, rfl, hu s⟩
  · exact ⟨_, rfl, hz "pmaplist" _ (by decide +kernel) (by decide +kernel)⟩
  · exact ⟨_, rfl, hz "call_result" _ (by decide +kernel) (by decide +kernel)⟩

/-- The table of the checked-in portmapper package, for this implementation. -/
example : ∃ gv regs, gv ∈ Rfc1057.goVers ∧ regsOf Rfc1057.prog pmapImpl gv = some regs ∧
    regs.map (fun r => (r.prog.toNat, r.vers.toNat, r.proc.toNat)) =
      [(100000, 2, 0), (100000, 2, 1), (100000, 2, 2), (100000, 2, 3), (100000, 2, 4), (100000, 2, 5)] := by
  obtain ⟨gv, regs, h1, h2, h3, _⟩ := C40_table Rfc1057.gen Rfc1057.supp pmapProg_mem (v := pmapVers)
    (by simp [pmapProg]) (C40_shipped.1 _ pmapProg_mem) pmapImpl pmapImpl_ok
  refine ⟨gv, regs, ?_, h2, h3⟩
  have h4 : (emitVers pmapProg pmapVers).all (fun gv => decide (gv ∈ Rfc1057.goVers)) = true := by
    decide +kernel
  simpa [h1] using h4

end Verif.Props
