/-
What out.go prints for programs, read as Go; and whole specifications.
-/
import Verif.Text.EmitDefn
import Verif.Text.GoFile

namespace Verif.Text
open Verif.Gen

/-! ### Names -/

theorem keywords_no_underscore : ∀ k ∈ keywords, (95 : Nat) ∉ k := by decide

theorem Word.under {w r : Text} (h : Word w) (hr : r.all alnum = true) : Word (w ++ t!"_" ++ r) := by
  obtain ⟨c, l, rfl, h1, h2⟩ := h.ex
  refine ⟨⟨c, l ++ t!"_" ++ r, by simp, h1, ?_⟩, ?_⟩
  · simp only [List.all_append, h2, hr]; rfl
  · cases hk : keywords.contains (c :: l ++ t!"_" ++ r) with
    | false => rfl
    | true => exact absurd (by simp) (keywords_no_underscore _ (List.contains_iff_mem.mp hk))

theorem Word.all {w : Text} (h : Word w) : w.all alnum = true := by
  obtain ⟨c, l, rfl, h1, h2⟩ := h.ex
  simp only [List.all_cons, h2, alnum, h1]; rfl

theorem word_vn {p : ProgDef} {v : ProgVer} (hp : isName p.name = true) (hv : isName v.name = true) {sfx : Text}
    (hs : sfx.all alnum = true) : Word (vnTxt p v sfx) := by
  unfold vnTxt
  rw [List.append_assoc]
  refine (word_i hp).under ?_
  simp only [List.all_append, (word_i hv).all, hs]; rfl

theorem name_vn (p : ProgDef) (v : ProgVer) (sfx : String) : name (vnTxt p v (codes sfx)) = versName p v sfx := by
  have : vnTxt p v (codes sfx) = codes (versName p v sfx) := by
    simp only [vnTxt, versName, codes_append, iTxt]; rfl
  rw [this, name_codes]

theorem name_i (n : Ident) : name (iTxt n) = i n := by simp only [iTxt, name_codes]

/-! ### Interfaces -/

/-- The text of an optional type. -/
def ROpt (X : Text) (g : Option GoType) : Prop :=
  match g with
  | none => X = []
  | some g => RTS X g

theorem ropt (t : TypespecOpt) (h : t.all nTypespec = true) : OptRel ROpt (tOpt t) (maybeGoType t) := by
  cases t with
  | none => rfl
  | some t =>
    have := ty_typespec t h
    simp only [tOpt, maybeGoType]
    cases ha : tTypespec t <;> cases hb : t.goType <;> rw [ha, hb] at this <;>
      first | exact this.elim | trivial | exact this

/-- One line of an interface. -/
def RSig (ws : Writes) (s : GoSig) : Prop :=
  (∀ w ∈ ws, w.1 = false) ∧ ∃ m : GMeth, (wOpt m.arg && wOpt m.res) = true ∧ lowSig m = some s ∧
    Scans ⟨.idle, false⟩ (writtenAll ws) (gMeth m) ⟨.idle, false⟩

theorem rsig (c : ProgCall) (h : nCall c = true) : OptRel RSig (wSig c) (do
    let a ← maybeGoType c.arg
    let r ← maybeGoType c.res
    pure (⟨i c.name, a, r⟩ : GoSig)) := by
  simp only [nCall, Bool.and_eq_true] at h
  obtain ⟨⟨hn, ha⟩, hr⟩ := h
  have ha := ropt c.arg ha
  have hr := ropt c.res hr
  unfold wSig
  cases ea : tOpt c.arg <;> cases ea' : maybeGoType c.arg <;> rw [ea, ea'] at ha <;> first | exact ha.elim | trivial | skip
  rename_i A a
  simp only [Option.bind_eq_bind, Option.bind_some]
  cases er : tOpt c.res <;> cases er' : maybeGoType c.res <;> rw [er, er'] at hr <;> first | exact hr.elim | trivial | skip
  rename_i R r
  have hw := word_i hn
  refine ⟨by simp [toOut], ?_⟩
  simp only [toOut, writtenAll, List.append_nil]
  cases a with
  | none =>
    have hA : A = [] := ha
    subst hA
    cases r with
    | none =>
      have hR : R = [] := hr
      subst hR
      refine ⟨⟨iTxt c.name, none, none⟩, rfl, by simp only [lowSig, lowOptTy, name_i], ?_⟩
      have := (hw.frag.to (scT% "() \n") rfl false)
      simp only [List.append_nil, List.append_assoc]
      exact this.cast (by flatD)
    | some r =>
      obtain ⟨e, he⟩ := hr
      refine ⟨⟨iTxt c.name, none, some e⟩, by simp [wOpt, he.w], by simp only [lowSig, lowOptTy, he.low, name_i], ?_⟩
      have := ((hw.frag.mid he.frag (scT% "() ") rfl).to (scT% "\n") rfl false)
      simp only [List.append_nil, List.append_assoc] at this ⊢
      exact this.cast (by flatD)
  | some a =>
    obtain ⟨e, he⟩ := ha
    cases r with
    | none =>
      have hR : R = [] := hr
      subst hR
      refine ⟨⟨iTxt c.name, some e, none⟩, by simp [wOpt, he.w], by simp only [lowSig, lowOptTy, he.low, name_i], ?_⟩
      have := ((hw.frag.mid he.frag (scT% "(") rfl).to (scT% ") \n") rfl false)
      simp only [List.append_nil, List.append_assoc] at this ⊢
      exact this.cast (by flatD)
    | some r =>
      obtain ⟨e', he'⟩ := hr
      refine ⟨⟨iTxt c.name, some e, some e'⟩, by simp [wOpt, he.w, he'.w],
        by simp only [lowSig, lowOptTy, he.low, he'.low, name_i], ?_⟩
      have := (((hw.frag.mid he.frag (scT% "(") rfl).mid he'.frag (scT% ") ") rfl).to (scT% "\n") rfl false)
      simp only [List.append_assoc] at this ⊢
      exact this.cast (by flatD)

/-- Mapping a relation over two lists of calls. -/
theorem optRel_all {α β} {f : α → Option Writes} {g : α → Option β} {R : Writes → β → Prop}
    {R' : Writes → List β → Prop} (h0 : R' [] []) (hc : ∀ a b ws bs, R a b → R' ws bs → R' (a ++ ws) (b :: bs)) :
    ∀ l : List α, (∀ a ∈ l, OptRel R (f a) (g a)) → OptRel R' (wAll f l) (mapM' g l)
  | [], _ => h0
  | a :: l, h => by
    have h1 := h a (by simp)
    have h2 := optRel_all h0 hc l fun a ha => h a (by simp [ha])
    simp only [wAll, mapM']
    cases e1 : f a <;> cases e2 : g a <;> rw [e1, e2] at h1 <;> first | exact h1.elim | trivial | skip
    simp only [Option.bind_eq_bind, Option.bind_some]
    cases e3 : wAll f l <;> cases e4 : mapM' g l <;> rw [e3, e4] at h2 <;> first | exact h2.elim | trivial | skip
    exact hc _ _ _ _ h1 h2

def RSigs (ws : Writes) (s : List GoSig) : Prop :=
  (∀ w ∈ ws, w.1 = false) ∧ ∃ ms : List GMeth, (ms.all fun m => wOpt m.arg && wOpt m.res) = true ∧
    lowSigs ms = some s ∧ Scans ⟨.idle, false⟩ (writtenAll ws) (ms.flatMap gMeth) ⟨.idle, false⟩

theorem RSigs.cons (a : Writes) (b : GoSig) (ws : Writes) (bs : List GoSig) (h : RSig a b) (h' : RSigs ws bs) :
    RSigs (a ++ ws) (b :: bs) := by
  obtain ⟨h1, m, h2, h3, h4⟩ := h
  obtain ⟨g1, ms, g2, g3, g4⟩ := h'
  refine ⟨?_, m :: ms, ?_, ?_, ?_⟩
  · intro w hw
    rcases List.mem_append.mp hw with hw | hw
    · exact h1 w hw
    · exact g1 w hw
  · simp only [List.all_cons, h2, g2]; rfl
  · simp only [lowSigs, h3, g3]
  · rw [writtenAll_append, List.flatMap_cons]; exact h4.append g4

/-! ### Wrappers -/

theorem lowWs_append : ∀ {a b : GSs} {x y : List WStmt}, lowWs a = some x → lowWs b = some y →
    lowWs (a.append b) = some (x ++ y)
  | .nil, b, x, y, h, h' => by
    cases h; exact h'
  | .last s, b, x, y, h, h' => by
    simp only [lowWs] at h
    cases hs : lowW s with
    | none => rw [hs] at h; cases h
    | some z =>
      rw [hs] at h; cases h
      simp only [GSs.append, lowWs, hs, h']; rfl
  | .cons s a, b, x, y, h, h' => by
    simp only [lowWs] at h
    cases hs : lowW s with
    | none => rw [hs] at h; cases h
    | some z =>
      rw [hs] at h
      cases ha : lowWs a with
      | none => rw [ha] at h; cases h
      | some l =>
        rw [ha] at h; cases h
        simp only [GSs.append, lowWs, hs, lowWs_append ha h']; rfl

/-- Statements of a wrapper. -/
def RW (ws : Writes) (x : List WStmt) : Prop :=
  (∀ w ∈ ws, w.1 = false) ∧ ∃ b : GSs, b.closed = true ∧ wSs b = true ∧
    Scans ⟨.idle, false⟩ (writtenAll ws) (gSs b) ⟨.idle, false⟩ ∧ lowWs b = some x

theorem RW.nil : RW [] [] := ⟨by simp, .nil, rfl, rfl, .nil _, rfl⟩

theorem RW.append {a b x y} (h : RW a x) (h' : RW b y) : RW (a ++ b) (x ++ y) := by
  obtain ⟨h0, c, h1, h2, h3, h4⟩ := h
  obtain ⟨g0, d, g1, g2, g3, g4⟩ := h'
  refine ⟨?_, c.append d, closed_append h1 g1, ?_, ?_, lowWs_append h4 g4⟩
  · intro w hw
    rcases List.mem_append.mp hw with hw | hw
    · exact h0 w hw
    · exact g0 w hw
  · rw [wSs_append, h2, g2]; rfl
  · rw [writtenAll_append, gSs_append h1]; exact h3.append g3

theorem RW.one {ws : Writes} {s : GS} {x : WStmt} (h0 : ∀ w ∈ ws, w.1 = false)
    (hs : Scans ⟨.idle, false⟩ (writtenAll ws) (gS s ++ [.semi]) ⟨.idle, false⟩)
    (hw : wS s = true) (hl : lowW s = some x) : RW ws [x] := by
  refine ⟨h0, .cons s .nil, rfl, ?_, hs, ?_⟩
  · simp only [wSs, hw]; rfl
  · simp only [lowWs, hl]

theorem rw_in {X g} (h : RTS X g) : RW (toOut (t!"var in " ++ X ++ t!"\n") ++ toOut t!"in.Xdr(args)\n" ++
    toOut t!"err = args.Error()\n" ++ toOut t!"if err != nil { return }\n") [.varIn g, .inXdr, .setErr, .retIfErr] := by
  obtain ⟨e, h⟩ := h
  have h1 : RW (toOut (t!"var in " ++ X ++ t!"\n")) [.varIn g] := by
    refine RW.one (s := .var t!"in" e) (by simp [toOut]) ?_ ?_ ?_
    · simp only [toOut, writtenAll, List.append_nil]
      exact ((h.frag.pre (scA% "var in ")).to (scT% "\n") rfl false).cast (by flat)
    · simp only [wS, h.w]
    · simp [lowW, h.low]
  have h2 : RW (toOut t!"in.Xdr(args)\n") [.inXdr] :=
    RW.one (s := .expr (.call (.sel (.id t!"in") t!"Xdr") (.last (.id t!"args")))) (by simp [toOut])
      (scF% "in.Xdr(args)\n") rfl rfl
  have h3 : RW (toOut t!"err = args.Error()\n") [.setErr] :=
    RW.one (s := .assign (.id t!"err") (.call (.sel (.id t!"args") t!"Error") .nil)) (by simp [toOut])
      (scF% "err = args.Error()\n") rfl rfl
  have h4 : RW (toOut t!"if err != nil { return }\n") [.retIfErr] :=
    RW.one (s := .ifThen (.bin .neq (.id t!"err") (.id t!"nil")) (.last .ret0)) (by simp [toOut])
      (scF% "if err != nil { return }\n") rfl rfl
  exact ((h1.append h2).append h3).append h4

theorem isXdr_of {e : GE} {g : GoType} (h : lowTy e = some g) (f : List Nat) : isXdr e f = false := by
  cases e <;> first | rfl | cases h

theorem rw_out {X g} (h : RTS X g) : RW (toOut (t!"var out " ++ X ++ t!"\n")) [.varOut g] := by
  obtain ⟨e, h⟩ := h
  refine RW.one (s := .var t!"out" e) (by simp [toOut]) ?_ ?_ ?_
  · simp only [toOut, writtenAll, List.append_nil]
    exact ((h.frag.pre (scA% "var out ")).to (scT% "\n") rfl false).cast (by flat)
  · simp only [wS, h.w]
  · simp [lowW, h.low, isXdr_of h.low]

theorem rw_outVoid : RW (toOut t!"var out xdr.Void\n") [.varOutVoid] :=
  RW.one (s := .var t!"out" (.sel (.id t!"xdr") t!"Void")) (by simp [toOut]) (scF% "var out xdr.Void\n") rfl rfl

theorem rw_call {n : Ident} (hn : isName n = true) (res arg : Bool) :
    RW ((if res then toOut t!"out = " else []) ++ toOut (t!"w.h." ++ iTxt n ++ t!"(") ++
      (if arg then toOut t!"in" else []) ++ toOut t!")\n") [.callH (i n) res arg] := by
  have hw := word_i hn
  have hd := hw.hd (o := 46) (by simp)
  cases res <;> cases arg
  · refine RW.one (s := .expr (.call (.sel (.sel (.id t!"w") t!"h") (iTxt n)) .nil)) (by simp [toOut]) ?_ rfl ?_
    · simp only [Bool.false_eq_true, if_false, toOut, List.nil_append, List.append_nil, List.cons_append, writtenAll]
      have := ((hw.frag.preOp hd (scA% "w.h.")).to (scT% "()\n") rfl false)
      simp only [List.append_assoc] at this ⊢
      exact this.cast (by flat)
    · simp [lowW, lowW.lowH, isId, name_i]
  · refine RW.one (s := .expr (.call (.sel (.sel (.id t!"w") t!"h") (iTxt n)) (.last (.id t!"in")))) (by simp [toOut]) ?_ rfl ?_
    · simp only [Bool.false_eq_true, if_false, if_true, toOut, List.nil_append, List.append_nil, List.cons_append, writtenAll]
      have := ((hw.frag.preOp hd (scA% "w.h.")).to (scT% "(in)\n") rfl false)
      simp only [List.append_assoc] at this ⊢
      exact this.cast (by flat)
    · simp [lowW, lowW.lowH, isId, name_i]
  · refine RW.one (s := .assign (.id t!"out") (.call (.sel (.sel (.id t!"w") t!"h") (iTxt n)) .nil)) (by simp [toOut]) ?_ rfl ?_
    · simp only [Bool.false_eq_true, if_false, if_true, toOut, List.nil_append, List.append_nil, List.cons_append, writtenAll]
      have := ((hw.frag.preOp hd (scA% "out = w.h.")).to (scT% "()\n") rfl false)
      simp only [List.append_assoc] at this ⊢
      exact this.cast (by flat)
    · simp [lowW, lowW.lowH, isId, name_i]
  · refine RW.one (s := .assign (.id t!"out") (.call (.sel (.sel (.id t!"w") t!"h") (iTxt n)) (.last (.id t!"in")))) (by simp [toOut]) ?_ rfl ?_
    · simp only [if_true, toOut, List.nil_append, List.append_nil, List.cons_append, writtenAll]
      have := ((hw.frag.preOp hd (scA% "out = w.h.")).to (scT% "(in)\n") rfl false)
      simp only [List.append_assoc] at this ⊢
      exact this.cast (by flat)
    · simp [lowW, lowW.lowH, isId, name_i]

/-- Declarations on `out`. -/
def onOut (ds : List GD) : List (Bool × GD) := ds.map fun d => (false, d)

theorem sel_onOut (ds : List GD) : sel false (onOut ds) = ds ∧ sel true (onOut ds) = [] ∧ selAll (onOut ds) = ds := by
  induction ds with
  | nil => exact ⟨rfl, rfl, rfl⟩
  | cons d ds ih => simp [onOut, sel, selAll] at ih ⊢; exact ih

/-- Some wrappers. -/
def RWraps (ws : Writes) (l : List GoWrapper) : Prop :=
  ∃ ds : List GD, WD ws (onOut ds) ∧
    ∀ p vs c, lowDs ⟨p, vs, some c⟩ ds = some ⟨p, vs, some { c with wrappers := c.wrappers ++ l }⟩

theorem RWraps.nil : RWraps [] [] := ⟨[], .nil, fun p vs c => by simp [lowDs]⟩

def RWrap (ws : Writes) (w : GoWrapper) : Prop := RWraps ws [w]

theorem RWraps.cons (a : Writes) (b : GoWrapper) (ws : Writes) (bs : List GoWrapper) (h : RWrap a b)
    (h' : RWraps ws bs) : RWraps (a ++ ws) (b :: bs) := by
  obtain ⟨k, h1, h2⟩ := h
  obtain ⟨l, g1, g2⟩ := h'
  refine ⟨k ++ l, ?_, fun p vs c => ?_⟩
  · have := h1.append g1
    simpa [onOut] using this
  · rw [lowDs_append, h2]; simp only [g2]; simp

theorem rwrap_core {p : ProgDef} {v : ProgVer} (hp : isName p.name = true) (hv : isName v.name = true) (c : ProgCall)
    (hn : isName c.name = true) {a b a' b'} (hin : RW a a') (hout : RW b b') :
    RWrap (toOut (t!"func (w *" ++ vnTxt p v t!"_handler_wrapper" ++ t!") " ++ iTxt c.name ++
      t!"(args *xdr.XdrState) (res xdr.Xdrable, err error) {\n") ++ a ++ b ++
    (if c.res.isSome then toOut t!"out = " else []) ++
    toOut (t!"w.h." ++ iTxt c.name ++ t!"(") ++
    (if c.arg.isSome then toOut t!"in" else []) ++
    toOut t!")\n" ++ toOut t!"return &out, nil" ++ toOut t!"}\n")
    ⟨versName p v "_handler_wrapper", i c.name,
      a' ++ b' ++ [.callH (i c.name) c.res.isSome c.arg.isSome, .retOut]⟩ := by
  obtain ⟨h0, d, h1, h2, h3, h4⟩ := (RW.append hin hout).append (rw_call hn c.res.isSome c.arg.isSome)
  have hw := word_vn hp hv (sfx := t!"_handler_wrapper") rfl
  refine ⟨[.func (some (t!"w", .star (.id (vnTxt p v t!"_handler_wrapper")))) (iTxt c.name)
    [(t!"args", .star (.sel (.id t!"xdr") t!"XdrState"))]
    (.named [(t!"res", .sel (.id t!"xdr") t!"Xdrable"), (t!"err", .id t!"error")])
    (d.append (.last (.ret2 (.addr (.id t!"out")) (.id t!"nil"))))], WD.one ?_ ?_ ?_, fun q vs k => ?_⟩
  · intro w hw
    simp only [List.mem_append, toOut, List.mem_singleton] at hw h0
    rcases hw with ((((((((rfl | hw) | hw) | hw) | rfl) | hw) | rfl) | rfl) | rfl) <;>
      first | rfl | exact h0 w (by simp [hw])
  · have h5 := ((((hw.frag.preOp (hw.hd (by simp)) (scA% "func (w *")).mid (word_i hn).frag (scT% ") ") rfl).to
      (scT% "(args *xdr.XdrState) (res xdr.Xdrable, err error) {\n") rfl false).append h3).append
      ((scF% "return &out, nil}\n"))
    have e : t!"return &out, nil}\n" = t!"return &out, nil" ++ t!"}\n" := rfl
    rw [e] at h5
    simp only [writtenAll_append, toOut, writtenAll, List.append_nil, List.append_assoc] at h5 ⊢
    exact h5.cast (by simp only [gD, gSs_append h1]; flatD)
  · simp [wD, wE, wRes, wSs_append, h2, wSs, wS]
  · have h6 : lowWs (d.append (.last (.ret2 (.addr (.id t!"out")) (.id t!"nil")))) =
        some ((a' ++ b') ++ [.callH (i c.name) c.res.isSome c.arg.isSome] ++ [.retOut]) :=
      lowWs_append h4 rfl
    have h7 : name (vnTxt p v t!"_handler_wrapper") = versName p v "_handler_wrapper" :=
      name_vn p v "_handler_wrapper"
    simp only [lowDs, lowD]
    simp [isState, isXdr, isId, h6, h7, name_i]

theorem rwrap {p : ProgDef} {v : ProgVer} (hp : isName p.name = true) (hv : isName v.name = true) (c : ProgCall)
    (h : nCall c = true) : OptRel RWrap (wWrapper p v c) (emitWrapper p v c) := by
  simp only [nCall, Bool.and_eq_true] at h
  obtain ⟨⟨hn, ha⟩, hr⟩ := h
  obtain ⟨n, arg, res, id⟩ := c
  cases arg with
  | none =>
    cases res with
    | none => exact rwrap_core hp hv ⟨n, none, none, id⟩ hn RW.nil rw_outVoid
    | some t =>
      have ht := ty_typespec t hr
      simp only [wWrapper, emitWrapper]
      cases e1 : tTypespec t <;> cases e2 : t.goType <;> rw [e1, e2] at ht <;> first | exact ht.elim | trivial | skip
      exact rwrap_core hp hv ⟨n, none, some t, id⟩ hn RW.nil (rw_out ht)
  | some u =>
    have hu := ty_typespec u ha
    cases res with
    | none =>
      simp only [wWrapper, emitWrapper]
      cases e1 : tTypespec u <;> cases e2 : u.goType <;> rw [e1, e2] at hu <;> first | exact hu.elim | trivial | skip
      exact rwrap_core hp hv ⟨n, some u, none, id⟩ hn (rw_in hu) rw_outVoid
    | some t =>
      have ht := ty_typespec t hr
      simp only [wWrapper, emitWrapper]
      cases e1 : tTypespec u <;> cases e2 : u.goType <;> rw [e1, e2] at hu <;> first | exact hu.elim | trivial | skip
      simp only [Option.bind_eq_bind, Option.bind_some]
      cases e3 : tTypespec t <;> cases e4 : t.goType <;> rw [e3, e4] at ht <;> first | exact ht.elim | trivial | skip
      exact rwrap_core hp hv ⟨n, some u, some t, id⟩ hn (rw_in hu) (rw_out ht)

/-- Registrations. -/
theorem rregs (p : ProgDef) (v : ProgVer) (hp : isName p.name = true) (hv : isName v.name = true) :
    ∀ l : List ProgCall, l.all nCall = true → (∀ w ∈ l.flatMap (wReg p v), w.1 = false) ∧ ∃ es : GElts, wElts es = true ∧
      lowRegs es = some (l.map fun c => ⟨i p.name, i v.name, i c.name, i c.name⟩) ∧
      Scans ⟨.idle, false⟩ (writtenAll (l.flatMap (wReg p v)) ++ t!"}") (gElts es) ⟨.idle, true⟩
  | [], _ => ⟨by simp, .nil, rfl, rfl, scF% "}"⟩
  | c :: l, h => by
    simp only [List.all_cons, Bool.and_eq_true] at h
    obtain ⟨h0, es, h1, h2, h3⟩ := rregs p v hp hv l h.2
    have hn : isName c.name = true := by
      have := h.1; simp only [nCall, Bool.and_eq_true] at this; exact this.1.1
    refine ⟨?_, .cons (.lit (.sel (.id t!"xdr") t!"ProcRegistration") (.consKey t!"Prog" (.id (iTxt p.name))
      (.consKey t!"Vers" (.id (iTxt v.name)) (.consKey t!"Proc" (.id (iTxt c.name)) (.consKey t!"Handler"
      (.sel (.id t!"w") (iTxt c.name)) .nil))))) es, ?_, ?_, ?_⟩
    · intro w hw
      rw [List.flatMap_cons] at hw
      rcases List.mem_append.mp hw with hw | hw
      · simp only [wReg, List.mem_append, toOut, List.mem_singleton] at hw
        rcases hw with ((((rfl | rfl) | rfl) | rfl) | rfl) | rfl <;> rfl
      · exact h0 w hw
    · simp [wElts, wE, litType, h1]
    · simp [lowRegs, lowReg, isXdr, isId, h2, name_i]
    · have a1 := scF% "xdr.ProcRegistration{\n"
      have a2 := ((word_i hp).frag.pre (scA% "Prog: ")).to (scT% ",\n") rfl false
      have a3 := ((word_i hv).frag.pre (scA% "Vers: ")).to (scT% ",\n") rfl false
      have a4 := ((word_i hn).frag.pre (scA% "Proc: ")).to (scT% ",\n") rfl false
      have a5 := ((word_i hn).frag.preOp ((word_i hn).hd (by simp)) (scA% "Handler: w.")).to (scT% ",\n") rfl false
      have a6 := scF% "},\n"
      have := a1.append (a2.append (a3.append (a4.append (a5.append (a6.append h3)))))
      simp only [List.flatMap_cons, wReg, writtenAll_append, toOut, writtenAll, List.append_nil,
        List.append_assoc] at this ⊢
      exact this.cast (by flat)

/-- The constants of the procedures. -/
theorem rd_procs : ∀ l : List ProgCall, l.all nCall = true →
    RD (l.flatMap fun c => toTypes (t!"const " ++ iTxt c.name ++ t!" uint32 = " ++ [lit0 + c.id] ++ t!"\n"))
      ⟨l.map (fun c => ⟨i c.name, "uint32", .lit c.id⟩), [], []⟩ []
  | [], _ => RD.nil
  | c :: l, h => by
    simp only [List.all_cons, Bool.and_eq_true] at h
    have hn : isName c.name = true := by
      have := h.1; simp only [nCall, Bool.and_eq_true] at this; exact this.1.1
    exact RD.append (rd_const32 hn c.id) (rd_procs l h.2)
where
  rd_const32 {n : Ident} (hn : isName n = true) (v : Nat) :
      RD (toTypes (t!"const " ++ iTxt n ++ t!" uint32 = " ++ [lit0 + v] ++ t!"\n")) ⟨[⟨i n, "uint32", .lit v⟩], [], []⟩ [] := by
    have hu : Word t!"uint32" := ⟨⟨_, _, rfl, rfl, rfl⟩, rfl⟩
    have := rd_const (word_i hn) hu.frag (frag_lit v) (t := .id t!"uint32") (v := .int v) rfl rfl rfl
    rw [name_i] at this
    simp only [List.append_assoc] at this ⊢
    exact this

/-- One version, without its constants. -/
theorem rd_vers {p : ProgDef} {v : ProgVer} (hp : isName p.name = true) (hv : isName v.name = true)
    (hc : v.calls.all nCall = true) {S W : Writes} {ss : List GoSig} {wl : List GoWrapper} (hS : RSigs S ss)
    (hW : RWraps W wl) :
    RD (toOut (t!"type " ++ vnTxt p v t!"_handler" ++ t!" interface {\n") ++ S ++ toOut t!"}\n" ++
      toOut (t!"type " ++ vnTxt p v t!"_handler_wrapper" ++ t!" struct {\n") ++
      toOut (t!"h " ++ vnTxt p v t!"_handler" ++ t!"\n") ++ toOut t!"}\n" ++ W ++
      toOut (t!"func " ++ vnTxt p v t!"_regs" ++ t!"(h " ++ vnTxt p v t!"_handler" ++ t!") []xdr.ProcRegistration {\n") ++
      toOut (t!"w := &" ++ vnTxt p v t!"_handler_wrapper" ++ t!"{h}\n") ++
      toOut t!"return []xdr.ProcRegistration{\n" ++ v.calls.flatMap (wReg p v) ++ toOut t!"}\n" ++ toOut t!"}\n")
      ⟨[], [], []⟩ [{
        iface := versName p v "_handler"
        sigs := ss
        wrapperType := versName p v "_handler_wrapper"
        wrapperField := versName p v "_handler"
        wrappers := wl
        regsName := versName p v "_regs"
        regsParam := versName p v "_handler"
        regsWrapper := versName p v "_handler_wrapper"
        regs := v.calls.map fun c => ⟨i p.name, i v.name, i c.name, i c.name⟩ }] := by
  have hh := word_vn hp hv (sfx := t!"_handler") rfl
  have hw := word_vn hp hv (sfx := t!"_handler_wrapper") rfl
  have hr := word_vn hp hv (sfx := t!"_regs") rfl
  have nh : name (vnTxt p v t!"_handler") = versName p v "_handler" := name_vn p v "_handler"
  have nw : name (vnTxt p v t!"_handler_wrapper") = versName p v "_handler_wrapper" := name_vn p v "_handler_wrapper"
  have nr : name (vnTxt p v t!"_regs") = versName p v "_regs" := name_vn p v "_regs"
  obtain ⟨s0, ms, s1, s2, s3⟩ := hS
  obtain ⟨ds, w1, w2⟩ := hW
  obtain ⟨r0, es, r1, r2, r3⟩ := rregs p v hp hv v.calls hc
  -- the four groups of declarations
  have c1 : WD (toOut (t!"type " ++ vnTxt p v t!"_handler" ++ t!" interface {\n") ++ S ++ toOut t!"}\n")
      (onOut [.iface (vnTxt p v t!"_handler") ms]) := by
    refine WD.one ?_ ?_ ?_
    · intro w hw
      simp only [List.mem_append, toOut, List.mem_singleton] at hw
      rcases hw with (rfl | hw) | rfl <;> first | rfl | exact s0 w hw
    · have := (((hh.frag.pre (scA% "type ")).to (scT% " interface {\n") rfl false).append s3).append (scF% "}\n")
      simp only [writtenAll_append, toOut, writtenAll, List.append_nil, List.append_assoc] at this ⊢
      exact this.cast (by
        simp only [gD, kwType, kwInterface, List.append_assoc, List.cons_append, List.nil_append])
    · exact s1
  have c2 : WD (toOut (t!"type " ++ vnTxt p v t!"_handler_wrapper" ++ t!" struct {\n") ++
      toOut (t!"h " ++ vnTxt p v t!"_handler" ++ t!"\n") ++ toOut t!"}\n")
      (onOut [.type (vnTxt p v t!"_handler_wrapper") (.struct (.cons t!"h" (.id (vnTxt p v t!"_handler")) .nil))]) := by
    refine WD.one (by simp [toOut]) ?_ rfl
    have := (((hw.frag.pre (scA% "type ")).to (scT% " struct {\n") rfl false).append
      ((hh.frag.pre (scA% "h ")).to (scT% "\n") rfl false)).append (scF% "}\n")
    simp only [writtenAll_append, toOut, writtenAll, List.append_nil, List.append_assoc] at this ⊢
    exact this.cast (by flatD)
  have c4 : WD (toOut (t!"func " ++ vnTxt p v t!"_regs" ++ t!"(h " ++ vnTxt p v t!"_handler" ++
        t!") []xdr.ProcRegistration {\n") ++
      toOut (t!"w := &" ++ vnTxt p v t!"_handler_wrapper" ++ t!"{h}\n") ++
      toOut t!"return []xdr.ProcRegistration{\n" ++ v.calls.flatMap (wReg p v) ++ toOut t!"}\n" ++ toOut t!"}\n")
      (onOut [.func none (vnTxt p v t!"_regs") [(t!"h", .id (vnTxt p v t!"_handler"))]
        (.type (.slice (.sel (.id t!"xdr") t!"ProcRegistration")))
        (.cons (.define t!"w" (.addr (.lit (.id (vnTxt p v t!"_handler_wrapper")) (.last (.id t!"h")))))
        (.cons (.ret1 (.lit (.slice (.sel (.id t!"xdr") t!"ProcRegistration")) es)) .nil))]) := by
    refine WD.one ?_ ?_ ?_
    · intro w hw
      simp only [List.mem_append, toOut, List.mem_singleton] at hw
      rcases hw with ((((rfl | rfl) | rfl) | hw) | rfl) | rfl <;> first | rfl | exact r0 w hw
    · have a1 := ((hr.frag.pre (scA% "func ")).mid hh.frag (scT% "(h ") rfl).to
        (scT% ") []xdr.ProcRegistration {\n") rfl false
      have a2 := (hw.frag.preOp (hw.hd (by simp)) (scA% "w := &")).to (scT% "{h}\n") rfl false
      have a3 := scF% "return []xdr.ProcRegistration{\n"
      have a4 := scT% "\n"
      have a5 := scF% "}\n"
      have := a1.append (a2.append (a3.append (r3.append (a4.append a5))))
      have e : t!"}\n" = t!"}" ++ t!"\n" := rfl
      simp only [writtenAll_append, toOut, writtenAll, List.append_nil]
      rw [e] at this ⊢
      simp only [List.append_assoc] at this ⊢
      exact this.cast (by flatD)
    · simp [wD, wE, wRes, wSs, wS, litType, wElts, r1]
  have call := ((c1.append c2).append w1).append c4
  have hsel := sel_onOut ([GD.iface (vnTxt p v t!"_handler") ms] ++
    [.type (vnTxt p v t!"_handler_wrapper") (.struct (.cons t!"h" (.id (vnTxt p v t!"_handler")) .nil))] ++ ds ++
    [.func none (vnTxt p v t!"_regs") [(t!"h", .id (vnTxt p v t!"_handler"))]
        (.type (.slice (.sel (.id t!"xdr") t!"ProcRegistration")))
        (.cons (.define t!"w" (.addr (.lit (.id (vnTxt p v t!"_handler_wrapper")) (.last (.id t!"h")))))
        (.cons (.ret1 (.lit (.slice (.sel (.id t!"xdr") t!"ProcRegistration")) es)) .nil))])
  have hlow : ∀ q vs, lowDs ⟨q, vs, none⟩ ([GD.iface (vnTxt p v t!"_handler") ms] ++
    [.type (vnTxt p v t!"_handler_wrapper") (.struct (.cons t!"h" (.id (vnTxt p v t!"_handler")) .nil))] ++ ds ++
    [.func none (vnTxt p v t!"_regs") [(t!"h", .id (vnTxt p v t!"_handler"))]
        (.type (.slice (.sel (.id t!"xdr") t!"ProcRegistration")))
        (.cons (.define t!"w" (.addr (.lit (.id (vnTxt p v t!"_handler_wrapper")) (.last (.id t!"h")))))
        (.cons (.ret1 (.lit (.slice (.sel (.id t!"xdr") t!"ProcRegistration")) es)) .nil))]) =
      some ⟨q, vs ++ [{
        iface := versName p v "_handler"
        sigs := ss
        wrapperType := versName p v "_handler_wrapper"
        wrapperField := versName p v "_handler"
        wrappers := wl
        regsName := versName p v "_regs"
        regsParam := versName p v "_handler"
        regsWrapper := versName p v "_handler_wrapper"
        regs := v.calls.map fun c => ⟨i p.name, i v.name, i c.name, i c.name⟩ }], none⟩ := by
    intro q vs
    rw [lowDs_append, lowDs_append, lowDs_append]
    have hne : vnTxt p v t!"_handler_wrapper" ≠ [] := by
      obtain ⟨c, l, e, -⟩ := hw.ex
      rw [e]; exact List.cons_ne_nil c l
    simp only [lowDs, lowD, s2, nh, nw, ne_eq, hne, not_false_eq_true, and_self, if_true, w2]
    simp [isXdr, isId, r2, nr]
  refine ⟨onOut ([GD.iface (vnTxt p v t!"_handler") ms] ++
    [.type (vnTxt p v t!"_handler_wrapper") (.struct (.cons t!"h" (.id (vnTxt p v t!"_handler")) .nil))] ++ ds ++
    [.func none (vnTxt p v t!"_regs") [(t!"h", .id (vnTxt p v t!"_handler"))]
        (.type (.slice (.sel (.id t!"xdr") t!"ProcRegistration")))
        (.cons (.define t!"w" (.addr (.lit (.id (vnTxt p v t!"_handler_wrapper")) (.last (.id t!"h")))))
        (.cons (.ret1 (.lit (.slice (.sel (.id t!"xdr") t!"ProcRegistration")) es)) .nil))]), ?_, ?_, ?_, ?_⟩
  · simp only [onOut, List.map_append] at call ⊢
    simp only [List.append_assoc] at call ⊢
    exact call
  · intro q vs; rw [hsel.2.2, GoProg.append_empty]; exact hlow q vs
  · intro q vs; rw [hsel.2.1]; simp only [lowDs, GoProg.append_empty]
  · intro q vs; rw [hsel.1, GoProg.append_empty]; exact hlow q vs

end Verif.Text
