/-
The parser does what the model says: what it writes to the files, and whether it returns.
-/
import Verif.Lang.YaccParse
import Verif.Lang.MainSpec
import Verif.Props.Parsing

namespace Verif.Lang
open Verif.Text Verif.Gen Verif.Tool Verif.Props

/-- If these tokens are those of a specification that can be generated, the parser returns and has written what the model
says; and it returns in no other case. -/
structure ParseOutcome (fl : Flags) (w : List Tk) (p : Parse) : Prop where
  spec : ∀ xs s, YToks xs w → DSpec xs s →
    match wSpec fl s with
    | some ws => p.returns = true ∧ PrintsW ws p.writes
    | none => p.returns = false
  back : p.returns = true → (∃ xs, YToks xs w) ∧ ∀ xs, YToks xs w → ∃ s, DSpec xs s ∧ (wSpec fl s).isSome = true

theorem badTk_not : ∀ {w : List Tk} {xs : List XTok}, YToks xs w → badTk ∉ w
  | _, _, .nil, h => nomatch h
  | _, _, .cons (a := x) ⟨h1, _⟩ ht, h => by
    rcases List.mem_cons.mp h with rfl | h
    · exact (by decide : "" ∉ tokSyms) ((show "" = tokSym x from h1) ▸ tokSym_mem x)
    · exact badTk_not ht h

theorem tokText_lex {ω : Type} {E : Ext ω} {scan : ω → Scanned × ω} {debug : Bool} {printf : List V → List V} (h : LexExt E scan debug printf)
    {st : St ω} (hl : (st.heap 0).at ([] ++ ["s"]) = some (.struct "scanner.Scanner" [])) (hl' : 0 < st.next)
    {t : Verif.Text.Tok} {x : XTok} {sc : Scanned} (hsc : (scan st.world).1 = sc) (ht : IsTok t sc) (hx : lexTok t = some x) :
    TokText x (textOf x sc) := by
  subst hsc
  have := lex_one h 0 (l := 0) (lp := []) hl hl' ht
  rw [hx] at this
  obtain ⟨r, _, _, rfl, h2, _⟩ := wp_iff.mp this
  exact h2

/-- The text that `Lex` leaves is one for the token. -/
theorem tokText_of (sys : Sys) (fl : ToolFlags) {t : Verif.Text.Tok} {x : XTok} {sc : Scanned} (h : IsTok t sc) (hx : lexTok t = some x) :
    TokText x (textOf x sc) :=
  tokText_lex (toolExt_lex sys fl (fun _ => stop .stuck) (fun _ _ => 0) 0)
    (st := ⟨fun _ => .struct "main.lexer" [("s", .struct "scanner.Scanner" [])], 1, { TW.start (fun _ => none) with toks := [sc] }, []⟩)
    rfl Nat.zero_lt_one rfl h hx

/-- What `Lex` makes of the tokens of Go. -/
theorem feed_toks (sys : Sys) (fl : ToolFlags) : ∀ {ts : List Verif.Text.Tok} {scs : List Scanned}, All2 IsTok ts scs → ∃ w, Feed scs w ∧
    match lexAll ts with
    | some xs => YToks xs w
    | none => badTk ∈ w
  | _, _, .nil => ⟨[], .nil, .nil⟩
  | _, _, .cons (a := t) (b := sc) h hs => by
    rw [lexAll]
    cases hx : lexTok t with
    | none => exact ⟨_, .bad h hx, List.mem_singleton.mpr rfl⟩
    | some x =>
      obtain ⟨w, h1, h2⟩ := feed_toks sys fl hs
      refine ⟨_, .cons h hx h1, ?_⟩
      cases hs : lexAll _ with
      | none => rw [hs] at h2; exact List.mem_cons_of_mem _ h2
      | some xs => rw [hs] at h2; exact .cons ⟨rfl, tokText_of sys fl h hx⟩ h2

/-- A token without a case for it, after others. -/
theorem feed_unknown {ts : List Verif.Text.Tok} {scs scs' : List Scanned} {sc : Scanned} (h : All2 IsTok ts scs) (hu : Unknown sc) :
    ∃ w, Feed (scs ++ sc :: scs') w ∧ badTk ∈ w := by
  induction h with
  | nil => exact ⟨_, .other hu, List.mem_singleton.mpr rfl⟩
  | cons h _ ih =>
    rename_i t sc' _ _ _
    cases hx : lexTok t with
    | none => exact ⟨_, .bad h hx, List.mem_singleton.mpr rfl⟩
    | some x =>
      obtain ⟨w, h1, h2⟩ := ih
      exact ⟨_, .cons h hx h1, List.mem_cons_of_mem _ h2⟩

theorem parseOutcome_bad {fl : Flags} {w : List Tk} {p : Parse} (h : ParseOutcome fl w p) (hb : badTk ∈ w) : p.returns = false := by
  cases hr : p.returns with
  | false => rfl
  | true =>
    obtain ⟨⟨xs, h1⟩, _⟩ := h.back hr
    exact absurd hb (badTk_not h1)

section
variable {sys : Sys} {fl : ToolFlags} {grow : Nat → Nat → Nat} {loops : Nat} {A : Lr}

theorem prun_derives (hv : A.valid = true) (hr : A.rules = xdrRules) {w : List Tk} {n : Nat} {t : Tree}
    (h : A.prun ycode n ⟨[], w⟩ = some (some t)) : Derives xdrGrammar "spec" t ∧ t.yield = w := by
  obtain ⟨m, r, h1, h2⟩ := xdr_correct hv hr w
  have := h1 (max m n) (Nat.le_max_left _ _)
  rw [Lr.prun_mono h (Nat.le_max_right _ _)] at this
  cases this
  exact (h2 t).mp rfl

theorem derives_prun (hv : A.valid = true) (hr : A.rules = xdrRules) {w : List Tk} {t : Tree}
    (h : Derives xdrGrammar "spec" t) (hy : t.yield = w) : ∃ n, A.prun ycode n ⟨[], w⟩ = some (some t) := by
  obtain ⟨m, r, h1, h2⟩ := xdr_correct hv hr w
  exact ⟨m, by rw [h1 m (Nat.le_refl _), (h2 t).mpr ⟨h, hy⟩]⟩

theorem parser_does (hv : A.valid = true) (hr : A.rules = xdrRules) (hfl : ∀ c ∈ fl.gen.constType.toList, c.toNat < 128)
    {src : Content} {w : List Tk} (hF : Feed (sys.scan src) w) :
    DoesAt sys fl.args (yyParser A xdrGrammar ycode (innerExt sys fl grow loops)) src (ParseOutcome fl.gen w) where
  does := by
    intro st l i j po pt htk ho ht hi hj hl hlex
    have h0 : YSim sys fl grow loops (fun _ => ⟨[], false⟩) st.world po pt A ⟨st.heap, st.next, [], st.defers⟩ ⟨[], w⟩ ⟨[], none⟩
        ⟨st.heap, st.next, [], st.defers⟩ st :=
      ⟨⟨_, .nil, .refl _⟩, ⟨rfl, rfl, rfl, rfl⟩, trivial, (fun _ h => nomatch h), (by rw [htk]; exact hF), .refl _⟩
    obtain ⟨k, n, he⟩ := parse_sim hlex hl hv hr hfl ho ht hi hj _ _ _ _ h0
    have e1 := (yyLoop_le (A := A) (G := xdrGrammar) (code := ycode) (E := innerExt sys fl grow loops) (l := .ptr "" ⟨l, []⟩)
      (Nat.le_max_left k n) (Nat.le_max_right k n) ⟨[], none⟩ st).resolve_left fun ⟨s, e⟩ => he.noFuel s e
    rw [← e1] at he
    have e2 : yyParse A xdrGrammar ycode (innerExt sys fl grow loops) (max k n) [.ptr "" ⟨l, []⟩] st =
        match yyLoop A xdrGrammar ycode (innerExt sys fl grow loops) (max k n) (.ptr "" ⟨l, []⟩) (max k n) ⟨[], none⟩ st with
        | .ok (a, s) => .ok (a, s.deferring st.defers)
        | .error (.panic, s) => .error (.panic, s.deferring st.defers)
        | .error e => .error e := by
      unfold yyParse
      refine (ok_bind (show getDefers st = .ok (st.defers, st) from rfl) rfl).trans ?_
      unfold finally'
      generalize yyLoop A xdrGrammar ycode (innerExt sys fl grow loops) (max k n) (.ptr "" ⟨l, []⟩) (max k n) ⟨[], none⟩ st = r
      rcases r with ⟨e, s⟩ | ⟨a, s⟩
      · cases e <;> rfl
      · rfl
    generalize yyLoop A xdrGrammar ycode (innerExt sys fl grow loops) (max k n) (.ptr "" ⟨l, []⟩) (max k n) ⟨[], none⟩ st = r at he e2
    have e3 := yyParser_of (A := A) (G := xdrGrammar) (code := ycode) (E := innerExt sys fl grow loops) (args := [.ptr "" ⟨l, []⟩]) (st := st)
      (K := max k n) (by
        intro s e
        rw [e2] at e
        rcases r with ⟨e', s'⟩ | ⟨a, s'⟩
        · obtain ⟨rfl, _⟩ := he
          cases e
        · cases e)
    unfold ends
    rw [e3, e2]
    rcases r with ⟨e', s'⟩ | ⟨a, s'⟩
    · obtain ⟨rfl, ⟨ts, log, hw⟩, hp⟩ := he
      refine ⟨⟨log, false⟩, ⟨fun xs s hx hs => ?_, fun h => nomatch h⟩, rfl, rfl, ⟨st.world.prints + log.length, ts, hw.trans ?_⟩, fun h => nomatch h⟩
      · obtain ⟨t, d, hy⟩ := hasSpec hs w hx
        obtain ⟨m, hm⟩ := derives_prun hv hr d hy
        rcases hp m t hm with hb | ⟨s1, hrun⟩
        · exact absurd hb (badTk_not hx)
        obtain ⟨s', hs', hem⟩ := derives_means (fl := fl.gen) (grow := grow) (loops := loops) hfl d xs (by rw [hy]; exact hx)
        obtain rfl := C45_unambiguous hs' hs
        have := hem _ _ hrun
        cases hws : wSpec fl.gen s' with
        | none => rfl
        | some ws =>
          rw [hws] at this
          obtain ⟨_, _, e, _⟩ := this
          cases e
      · unfold TW.after
        rw [parseWrites_short (w := sys.world fl.args fun _ => ⟨[], false⟩) (w' := sys.world fl.args fun _ => ⟨log, false⟩) rfl]
    · obtain ⟨rfl, t, v, s, g, m, hrun, hcalm, hov, hm, ⟨xs, hx⟩, ts, hal⟩ := he
      obtain ⟨d, hy⟩ := prun_derives hv hr hm
      rw [hy] at hx
      refine ⟨⟨g.world, true⟩, ⟨fun xs' s' hx' hs' => ?_, fun _ => ⟨⟨xs, hx⟩, fun xs' hx' => ?_⟩⟩, rfl, rfl, ⟨st.world.prints + g.world.length, ts, hal.world.trans ?_⟩, fun _ => ?_⟩
      · obtain ⟨s2, hs2, hem2⟩ := derives_means (fl := fl.gen) (grow := grow) (loops := loops) hfl d xs' (by rw [hy]; exact hx')
        obtain rfl := C45_unambiguous hs2 hs'
        have h2 := hem2 _ _ hrun
        cases hws : wSpec fl.gen s2 with
        | none => rw [hws] at h2; obtain ⟨_, e⟩ := h2; cases e
        | some ws =>
          rw [hws] at h2
          obtain ⟨lg, s3, e, hw3, hpr, _⟩ := h2
          cases e
          refine ⟨rfl, ?_⟩
          rw [hcalm.world, hw3]
          exact hpr
      · obtain ⟨s0, hs0, hem⟩ := derives_means (fl := fl.gen) (grow := grow) (loops := loops) hfl d xs' (by rw [hy]; exact hx')
        refine ⟨s0, hs0, ?_⟩
        have h1 := hem _ _ hrun
        cases hws : wSpec fl.gen s0 with
        | none => rw [hws] at h1; obtain ⟨_, e⟩ := h1; cases e
        | some _ => rfl
      · unfold TW.after
        rw [parseWrites_short (w := sys.world fl.args fun _ => ⟨[], false⟩) (w' := sys.world fl.args fun _ => ⟨g.world, true⟩) rfl]
      · refine ⟨?_, fun j hj => ?_⟩
        · show st.next ≤ s'.next
          rw [hal.next]
          exact hov.next
        · show s'.heap j = st.heap j
          rw [hal.heap]
          exact hov.heap j hj
end

end Verif.Lang
