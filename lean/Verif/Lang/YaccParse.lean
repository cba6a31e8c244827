/-
The parser follows the automaton over the tokens of the file, and writes what running the actions in the order of the
derivation writes.
-/
import Verif.Lang.YaccSim

namespace Verif.Lang
open Verif.Text Verif.Gen Verif.Tool
set_option linter.unusedSimpArgs false

theorem stops_bind {ω α β : Type} {m : M ω α} {f : α → M ω β} {st : St ω} {e : Stop × St ω} (h : m st = .error e) :
    (m >>= f) st = .error e := by
  show M.bind m f st = _
  unfold M.bind
  rw [h]

/-! ### `Error` -/

theorem find_Error : genProg.find (.meth "main.lexer" "Error") = some ("main", scan_lexer_Error) := by kernel_rfl

set_option maxRecDepth 4000 in
/-- `Error` panics (scan.go:152-154). -/
theorem error_spec {ω : Type} {E : Ext ω} {l : V} {b : List UInt8} (k : Nat) (st : St ω) :
    dies (callN genProg E (k + 2) (.meth "main.lexer" "Error") [l, .str b]) .panic (Leaves st.world st) st := by
  refine dies_callN find_Error (dies_callFunc (dies_body ?_))
  rw [scan_lexer_Error]
  go_run
  refine dies_head ?_
  refine ⟨_, rfl, ?_⟩
  go_run
  refine ⟨rfl, by go_run; omega, rfl, fun j hj => by go_run; rw [if_neg (by omega)]⟩

/-! ### The tokens -/

/-- Stands for a token that `Lex` panics about. -/
def badTk : Tk := ("", [])

/-- What `Lex` makes of the tokens that the scanner will return. -/
inductive Feed : List Scanned → List Tk → Prop where
  | nil : Feed [] []
  | bad {t sc scs} (h : IsTok t sc) (hx : lexTok t = none) : Feed (sc :: scs) [badTk]
  | other {sc scs} (h : Unknown sc) : Feed (sc :: scs) [badTk]
  | cons {t x sc scs w} (h : IsTok t sc) (hx : lexTok t = some x) (hw : Feed scs w) : Feed (sc :: scs) ((tokSym x, textOf x sc) :: w)

/-- The token that was read, and what will be. -/
def Pending (look : Option (Int × List UInt8)) (toks : List Scanned) (w : List Tk) : Prop :=
  match look with
  | none => Feed toks w
  | some t => (t.1 = 0 ∧ w = []) ∨ ∃ x b w', w = (tokSym x, b) :: w' ∧ t = (symCode (tokSym x), b) ∧ TokText x b ∧ Feed toks w'

theorem Pending.code {t : Int × List UInt8} {toks : List Scanned} {w : List Tk} (h : Pending (some t) toks w) :
    codeOf (some t) = lookOf ycode w := by
  rcases h with ⟨h, rfl⟩ | ⟨x, b, w', rfl, rfl, _, _⟩
  · show t.1.toNat = 0
    rw [h]
    rfl
  · show (symCode (tokSym x)).toNat = ycode (tokSym x)
    rw [← tok_code]
    rfl

theorem tagged_code : ∀ s ∈ tokSyms, (xdrGrammar.tagged.any fun u => ycode u == ycode s) = xdrGrammar.tagged.contains s := by
  decide +kernel

theorem valOf_tok (x : XTok) (b : List UInt8) : valOf xdrGrammar ycode (symCode (tokSym x), b) = tokVals xdrGrammar (tokSym x) b := by
  unfold valOf tokVals
  rw [← tagged_code _ (tokSym_mem x), ← tok_code]
  rfl

/-! ### The parser and the automaton -/

section
variable (sys : Sys) (fl : ToolFlags) (grow : Nat → Nat → Nat) (loops : Nat) (P : Content → Parse) (w₀ : TW) (po pt : Path)
variable (A : Lr) (g₀ : St Log) (l : Nat)

/-- A configuration of the parser and one of the automaton. -/
structure YSim (c : PCfg) (y : YCfg) (g : St Log) (st : St TW) : Prop where
  run : ∃ s, SRun xdrGrammar (genExt fl.gen grow loops) g₀ c.stack y.stack s ∧ Calm s g
  alike : Alike (After sys fl P w₀ po pt st.world.toks) g st
  wf : A.WF ycode c.stack
  good : ∀ p ∈ c.stack, ∃ xs, YToks xs p.2.yield
  pending : Pending y.look st.world.toks c.input
  over : Over g₀ g

/-- How the parser ends: with the derivation that the automaton finds, its actions having run; or it panics, and if the
automaton finds a derivation all the same, then running its actions panics, or there is a token that `Lex` panics about. -/
def YEnd (c : PCfg) : Except (Stop × St TW) (List V × St TW) → Prop
  | .ok (vs, st) => vs = [] ∧ ∃ t v s g n, TRun xdrGrammar (genExt fl.gen grow loops) t g₀ (.ok (v, s)) ∧ Calm s g ∧ Over g₀ g ∧
      A.prun ycode n c = some (some t) ∧ (∃ xs, YToks xs t.yield) ∧ ∃ ts, Alike (After sys fl P w₀ po pt ts) g st
  | .error (e, st) => e = .panic ∧ (∃ ts log, After sys fl P w₀ po pt ts log st.world) ∧
      ∀ n t, A.prun ycode n c = some (some t) → badTk ∈ c.input ∨ ∃ s, TRun xdrGrammar (genExt fl.gen grow loops) t g₀ (.error (.panic, s))

variable {sys fl grow loops P w₀ po pt A g₀ l}

theorem YEnd.step {c c' : PCfg} (h : A.pstep ycode c = .next c') (hb : badTk ∈ c'.input → badTk ∈ c.input) {r}
    (he : YEnd sys fl grow loops P w₀ po pt A g₀ c' r) : YEnd sys fl grow loops P w₀ po pt A g₀ c r := by
  rcases r with ⟨e, st⟩ | ⟨vs, st⟩
  · obtain ⟨h1, h2, h3⟩ := he
    refine ⟨h1, h2, fun n t hn => ?_⟩
    cases n with
    | zero => cases hn
    | succ n =>
      rw [Lr.prun, h] at hn
      rcases h3 n t hn with h | h
      · exact .inl (hb h)
      · exact .inr h
  · obtain ⟨h1, t, v, s, g, n, h2, h3, h4, h5, h6⟩ := he
    refine ⟨h1, t, v, s, g, n + 1, h2, h3, h4, ?_, h6⟩
    rw [Lr.prun, h]
    exact h5

theorem YEnd.noFuel {c : PCfg} {r} (he : YEnd sys fl grow loops P w₀ po pt A g₀ c r) : ∀ s, r ≠ .error (.fuel, s) := by
  rintro s rfl
  exact nomatch he.1

/-- The scanner is read; the ghost sees new variables. -/
theorem alike_lex {ts : List Scanned} {g : St Log} {st st' : St TW} (h : Alike (After sys fl P w₀ po pt st.world.toks) g st)
    (hl : Leaves { st.world with toks := ts } st st') :
    ∃ g', Calm g g' ∧ Alike (After sys fl P w₀ po pt st'.world.toks) g' st' := by
  refine ⟨⟨st'.heap, st'.next, g.world, g.defers⟩, ⟨rfl, ?_, fun j hj => ?_, rfl⟩, rfl, rfl, ?_, ?_⟩
  · rw [← h.next]; exact hl.next
  · rw [← h.heap]; exact hl.frame j (by rw [h.next]; exact hj)
  · rw [hl.defers]; exact h.defers
  · have := h.world
    unfold After TW.after at *
    rw [hl.world]
    generalize hw : st.world = w at *
    rw [this]

variable (hlex : g₀.heap l = .struct "main.lexer" [("s", .struct "scanner.Scanner" [])]) (hl : l < g₀.next)
include hlex hl

/-- A token is read if the state needs one. -/
theorem look_spec {c : PCfg} {y : YCfg} {g : St Log} {st : St TW} (h : YSim sys fl grow loops P w₀ po pt A g₀ c y g st) (s : LrState) :
    (∃ look g' st', yyLook (innerExt sys fl grow loops) 2 (.ptr "" ⟨l, []⟩) s y.look st = .ok (look, st') ∧
      YSim sys fl grow loops P w₀ po pt A g₀ c ⟨y.stack, look⟩ g' st' ∧ (s.looks = true → look ≠ none)) ∨
    (badTk ∈ c.input ∧ ∃ st', yyLook (innerExt sys fl grow loops) 2 (.ptr "" ⟨l, []⟩) s y.look st = .error (.panic, st') ∧
      ∃ ts log, After sys fl P w₀ po pt ts log st'.world) := by
  obtain ⟨stack, look⟩ := y
  cases look with
  | some t => exact .inl ⟨some t, g, st, rfl, h, fun _ h => nomatch h⟩
  | none =>
  cases hs : s.looks with
  | false =>
    refine .inl ⟨none, g, st, ?_, h, fun h => nomatch h⟩
    unfold yyLook
    rw [hs]
    rfl
  | true =>
    have hext : LexExt (innerExt sys fl grow loops) TW.scan fl.debug fun _ => [.int 0, .nil] := toolExt_lex _ _ _ _ _
    have e1 : (st.heap l).at ([] ++ ["s"]) = some (.struct "scanner.Scanner" []) := by
      rw [h.alike.heap, h.over.heap l hl, hlex]
      rfl
    have e2 : l < st.next := by rw [h.alike.next]; exact Nat.lt_of_lt_of_le hl h.over.next
    have hp : Feed st.world.toks c.input := h.pending
    have hy : ∀ {a}, yyLook (innerExt sys fl grow loops) 2 (.ptr "" ⟨l, []⟩) s none = a ↔
        (lexOne (innerExt sys fl grow loops) 2 (.ptr "" ⟨l, []⟩) >>= fun t => pure (some t)) = a := by
      intro a
      unfold yyLook
      rw [hs]
      rfl
    have hy := hy.mpr rfl
    rw [hy]
    generalize hT : st.world.toks = T at hp
    generalize hI : c.input = I at hp
    cases hp with
    | nil =>
      have hsc : st.world.scan = (⟨0, "token.EOF", []⟩, st.world) := by unfold TW.scan; rw [hT]
      obtain ⟨r, st', e, h1, h2⟩ := wp_iff.mp (lex_one_eof hext 0 e1 e2 (by rw [hsc]))
      rw [hsc] at h2
      obtain ⟨g', c1, c2⟩ := alike_lex (ts := st.world.toks) h.alike h2
      obtain ⟨s0, r1, r2⟩ := h.run
      refine .inl ⟨some r, g', st', ok_bind e rfl, ⟨⟨s0, r1, r2.trans c1⟩, c2, h.wf, h.good, ?_, h.over.trans c1.over⟩, fun _ h => nomatch h⟩
      exact .inl ⟨h1, hI⟩
    | bad ht hx =>
      rename_i t sc scs
      have hsc : st.world.scan = (sc, st.world.init scs) := by unfold TW.scan; rw [hT]
      have := lex_one hext 0 e1 e2 (t := t) (by rw [hsc]; exact ht)
      rw [hx] at this
      obtain ⟨st', e, h2⟩ := this
      rw [hsc] at h2
      obtain ⟨g', c1, c2⟩ := alike_lex (ts := scs) h.alike h2
      exact .inr ⟨List.mem_singleton.mpr rfl, st', stops_bind e, _, _, c2.world⟩
    | other hu =>
      rename_i sc scs
      have hsc : st.world.scan = (sc, st.world.init scs) := by unfold TW.scan; rw [hT]
      obtain ⟨st', e, h2⟩ := lex_one_other hext 0 e1 e2 (by rw [hsc]; exact hu)
      rw [hsc] at h2
      obtain ⟨g', c1, c2⟩ := alike_lex (ts := scs) h.alike h2
      exact .inr ⟨List.mem_singleton.mpr rfl, st', stops_bind e, _, _, c2.world⟩
    | cons ht hx hw =>
      rename_i t x sc scs w
      have hsc : st.world.scan = (sc, st.world.init scs) := by unfold TW.scan; rw [hT]
      have := lex_one hext 0 e1 e2 (t := t) (by rw [hsc]; exact ht)
      rw [hx] at this
      obtain ⟨r, st', e, h1, h3, h2⟩ := wp_iff.mp this
      rw [hsc] at h2 h1
      obtain ⟨g', c1, c2⟩ := alike_lex (ts := scs) h.alike h2
      obtain ⟨s0, r1, r2⟩ := h.run
      refine .inl ⟨some r, g', st', ok_bind e rfl, ⟨⟨s0, r1, r2.trans c1⟩, c2, h.wf, h.good, ?_, h.over.trans c1.over⟩, fun _ h => nomatch h⟩
      refine .inr ⟨x, textOf x sc, w, hI, h1, by rw [h1] at h3; exact h3, ?_⟩
      rw [h2.world]
      exact hw

omit hlex hl in
theorem step_of {y : YCfg} {look : Option (Int × List UInt8)} {st st' : St TW} {E : Ext TW} {lv : V} {r}
    (h1 : yyLook E 2 lv (A.state (topOf y.stack)) y.look st = .ok (look, st')) {k : Nat}
    (h2 : yyAct A xdrGrammar ycode E k lv y.stack look st' = r) (hf : ∀ s, r ≠ .error (.fuel, s)) :
    yyStep A xdrGrammar ycode E (max 2 k) lv y st = r := by
  have e1 := (yyLook_le (E := E) (l := lv) (Nat.le_max_left 2 k) (A.state (topOf y.stack)) y.look st).resolve_left
    fun ⟨s, e⟩ => by rw [h1] at e; cases e
  have e2 := (yyAct_le (A := A) (G := xdrGrammar) (code := ycode) (E := E) (l := lv) (Nat.le_max_right 2 k) y.stack look st').resolve_left
    fun ⟨s, e⟩ => hf s (h2.symm.trans e)
  exact ok_bind (e1.trans h1) (e2.trans h2)

omit hlex hl in
theorem loop_next {y y' : YCfg} {st st' : St TW} {E : Ext TW} {lv : V} {k k' n : Nat}
    (h1 : yyStep A xdrGrammar ycode E k lv y st = .ok (some y', st'))
    (h2 : ∀ s, yyLoop A xdrGrammar ycode E k' lv n y' st' ≠ .error (.fuel, s)) :
    yyLoop A xdrGrammar ycode E (max k k') lv (n + 1) y st = yyLoop A xdrGrammar ycode E k' lv n y' st' := by
  have e1 := (yyStep_le (A := A) (G := xdrGrammar) (code := ycode) (E := E) (l := lv) (Nat.le_max_left k k') y st).resolve_left
    fun ⟨s, e⟩ => by rw [h1] at e; cases e
  have e2 := (yyLoop_le (A := A) (G := xdrGrammar) (code := ycode) (E := E) (l := lv) (Nat.le_max_right k k') (Nat.le_refl n) y' st').resolve_left
    fun ⟨s, e⟩ => h2 s e
  rw [yyLoop]
  exact ok_bind (e1.trans h1) e2

omit hlex hl in
theorem pop_good {n : Nat} : ∀ {ts ts' : List (Nat × Tree)} {acc us : Trees}, popTrees n ts acc = some (ts', us) →
    (∀ p ∈ ts, ∃ xs, YToks xs p.2.yield) → (∃ xs, YToks xs acc.yield) →
    (∀ p ∈ ts', p ∈ ts) ∧ ∃ xs, YToks xs us.yield := by
  induction n with
  | zero =>
    intro ts ts' acc us h hg ha
    cases h
    exact ⟨fun p h => h, ha⟩
  | succ n ih =>
    intro ts ts' acc us h hg ha
    cases ts with
    | nil => cases h
    | cons a ts =>
      obtain ⟨q, t⟩ := a
      obtain ⟨xs, hx⟩ := hg (q, t) List.mem_cons_self
      obtain ⟨ys, hy⟩ := ha
      obtain ⟨h1, h2⟩ := ih (acc := .cons t acc) h (fun p h => hg p (List.mem_cons_of_mem _ h)) ⟨xs ++ ys, by
        rw [Trees.yield]; exact hx.append hy⟩
      exact ⟨fun p h => List.mem_cons_of_mem _ (h1 p h), h2⟩

omit hlex hl in
theorem srun_over {E : Ext Log} {ts : List (Nat × Tree)} {vs : List (Nat × List V)} {s : St Log} (h : SRun xdrGrammar E g₀ ts vs s)
    (ht : ∀ p ∈ ts, Tame E p.2) : Over g₀ s := by
  induction h with
  | nil => exact Over.refl _
  | push h r ih =>
    rename_i q t v ts vs s s'
    refine (ih fun p hp => ht p (List.mem_cons_of_mem _ hp)).trans ?_
    rcases ht (q, t) List.mem_cons_self _ _ r with ⟨v', s'', e, ho⟩ | ⟨_, e⟩
    · cases e; exact ho
    · cases e

omit hlex hl in
theorem wf_tame (hr : A.rules = xdrRules) (hfl : ∀ c ∈ fl.gen.constType.toList, c.toNat < 128) : ∀ {ts : List (Nat × Tree)}, A.WF ycode ts →
    (∀ p ∈ ts, ∃ xs, YToks xs p.2.yield) → ∀ p ∈ ts, Tame (genExt fl.gen grow loops) p.2
  | (q, t) :: ts, ⟨hw, x, _, hx⟩, hg, p, hp => by
    rcases List.mem_cons.mp hp with rfl | hp
    · obtain ⟨xs, hy⟩ := hg _ List.mem_cons_self
      rw [hr] at hx
      cases t with
      | tok s b => exact tok_tame s b
      | node k us => exact node_tame hfl hx hy
    · exact wf_tame hr hfl hw (fun p h => hg p (List.mem_cons_of_mem _ h)) p hp

theorem parse_sim (hv : A.valid = true) (hr : A.rules = xdrRules) (hfl : ∀ c ∈ fl.gen.constType.toList, c.toNat < 128) {i j : Nat}
    (ho : w₀.out = .obj i) (ht : w₀.tout = .obj j) (hi : w₀.opened[i]? = some po) (hj : w₀.opened[j]? = some pt)
    (c : PCfg) (y : YCfg) (g : St Log) (st : St TW) (h : YSim sys fl grow loops P w₀ po pt A g₀ c y g st) :
    ∃ k n, YEnd sys fl grow loops P w₀ po pt A g₀ c
      (yyLoop A xdrGrammar ycode (innerExt sys fl grow loops) k (.ptr "" ⟨l, []⟩) n y st) := by
  have key : ∀ c', Prod.Lex (· < ·) (· < ·) (A.meas c') (A.meas c) → ∀ y g st, YSim sys fl grow loops P w₀ po pt A g₀ c' y g st →
      ∃ k n, YEnd sys fl grow loops P w₀ po pt A g₀ c'
        (yyLoop A xdrGrammar ycode (innerExt sys fl grow loops) k (.ptr "" ⟨l, []⟩) n y st) :=
    fun c' hlt y g st h => parse_sim hv hr hfl ho ht hi hj c' y g st h
  rcases look_spec hlex hl h (A.state (topOf y.stack)) with ⟨look, g1, st1, hlook, h1, hne⟩ | ⟨hb, st1, hlook, hw⟩
  rotate_left
  · refine ⟨2, 1, ?_⟩
    rw [yyLoop, stops_bind (show yyStep _ _ _ _ _ _ _ _ = _ from stops_bind hlook)]
    exact ⟨rfl, hw, fun _ _ _ => .inl hb⟩
  obtain ⟨s0, hrun, hcalm⟩ := h1.run
  have hrun : SRun xdrGrammar (genExt fl.gen grow loops) g₀ c.stack y.stack s0 := hrun
  have htop := hrun.top
  have hact : (A.state (topOf y.stack)).act (codeOf look) = (A.state (topOf c.stack)).act (lookOf ycode c.input) := by
    rw [htop]
    cases look with
    | none =>
      refine LrState.act_lazy ?_ _ _
      rw [← htop]
      cases hs : (A.state (topOf y.stack)).looks with
      | false => rfl
      | true => exact absurd rfl (hne hs)
    | some t => rw [Pending.code h1.pending]
  have hinv := Lr.pstep_inv hv (code := ycode) (w := stackYield c.stack ++ c.input) (fun x _ => ycode_ne x.1) ⟨h1.wf, rfl⟩
  cases ha : (A.state (topOf c.stack)).act (lookOf ycode c.input) with
  | error =>
    have hps : A.pstep ycode c = .error := by unfold Lr.pstep; rw [ha]
    obtain ⟨st2, e, hl2⟩ := error_spec (E := innerExt sys fl grow loops) (l := .ptr "" ⟨l, []⟩) (b := strBytes "syntax error") 0 st1
    have e2 : yyAct A xdrGrammar ycode (innerExt sys fl grow loops) 2 (.ptr "" ⟨l, []⟩) y.stack look st1 = .error (.panic, st2) := by
      unfold yyAct
      rw [hact, ha]
      exact stops_bind e
    have e3 := step_of hlook e2 (fun s => nofun)
    refine ⟨max 2 2, 1, ?_⟩
    rw [yyLoop, stops_bind e3]
    refine ⟨rfl, ⟨_, _, by rw [hl2.world]; exact h1.alike.world⟩, fun n t hn => ?_⟩
    cases n with
    | zero => cases hn
    | succ n => rw [Lr.prun, hps] at hn; cases hn
  | accept =>
    have hz := LrState.act_accept ha
    cases hps : A.pstep ycode c with
    | next c' => unfold Lr.pstep at hps; rw [ha] at hps; dsimp only at hps; split at hps <;> cases hps
    | error => unfold Lr.pstep at hps; rw [ha] at hps; dsimp only at hps; split at hps <;> cases hps
    | stuck => rw [hps] at hinv; exact hinv.elim
    | accept t =>
      have hstack : ∃ q, c.stack = [(q, t)] := by
        unfold Lr.pstep at hps
        rw [ha] at hps
        dsimp only at hps
        split at hps
        · rename_i q t' e; cases hps; exact ⟨q, e⟩
        · cases hps
      obtain ⟨q, hq⟩ := hstack
      have e2 : yyAct A xdrGrammar ycode (innerExt sys fl grow loops) 0 (.ptr "" ⟨l, []⟩) y.stack look st1 = .ok (none, st1) := by
        unfold yyAct
        rw [hact, ha]
        rfl
      have e3 := step_of hlook e2 (fun s => nofun)
      refine ⟨max 2 0, 1, ?_⟩
      rw [yyLoop, ok_bind e3 rfl]
      have hgood := h1.good (q, t) (by rw [hq]; exact List.mem_singleton.mpr rfl)
      rw [hq] at hrun
      generalize y.stack = ys at hrun
      cases hrun with
      | push hn r =>
        cases hn
        refine ⟨rfl, t, _, s0, g1, 1, r, hcalm, h1.over, by rw [Lr.prun, hps], hgood, _, h1.alike⟩
  | shift q =>
    obtain ⟨stack, input⟩ := c
    have hnil : (A.state (topOf y.stack)).looks = true := by
      rw [htop]
      have := lookup_pair (LrState.act_shift ha)
      unfold LrState.looks
      cases hs : (A.state (topOf stack)).shifts with
      | nil => rw [hs] at this; cases this
      | cons => rfl
    cases look with
    | none => exact absurd rfl (hne hnil)
    | some t =>
      rcases h1.pending with ⟨_, rfl⟩ | ⟨x, b, w', rfl, rfl, htx, hfeed⟩
      · have hps : A.pstep ycode ⟨stack, []⟩ = .stuck := by unfold Lr.pstep; rw [ha]
        rw [hps] at hinv
        exact hinv.elim
      · have hps : A.pstep ycode ⟨stack, (tokSym x, b) :: w'⟩ = .next ⟨(q, .tok (tokSym x) b) :: stack, w'⟩ := by
          unfold Lr.pstep
          rw [ha]
        rw [hps] at hinv
        have e2 : yyAct A xdrGrammar ycode (innerExt sys fl grow loops) 0 (.ptr "" ⟨l, []⟩) y.stack (some (symCode (tokSym x), b)) st1 =
            .ok (some ⟨(q, tokVals xdrGrammar (tokSym x) b) :: y.stack, none⟩, st1) := by
          unfold yyAct
          rw [hact, ha, ← valOf_tok]
          rfl
        have e3 := step_of hlook e2 (fun s => nofun)
        have hn : YSim sys fl grow loops P w₀ po pt A g₀ ⟨(q, .tok (tokSym x) b) :: stack, w'⟩
            ⟨(q, tokVals xdrGrammar (tokSym x) b) :: y.stack, none⟩ g1 st1 := by
          refine ⟨⟨g1, .push hrun (.tok hcalm), .refl _⟩, h1.alike, hinv.1.wf, fun p hp => ?_, hfeed, h1.over⟩
          rcases List.mem_cons.mp hp with rfl | hp
          · exact ⟨[x], .cons ⟨rfl, htx⟩ .nil⟩
          · exact h1.good p hp
        obtain ⟨k, n, he⟩ := key _ hinv.2 _ _ _ hn
        refine ⟨max (max 2 0) k, n + 1, ?_⟩
        rw [loop_next e3 he.noFuel]
        exact he.step hps fun h => List.mem_cons_of_mem _ h
  | reduce m =>
    obtain ⟨stack, input⟩ := c
    cases hp : popTrees (A.rhs m).length stack .nil with
    | none =>
      have hps : A.pstep ycode ⟨stack, input⟩ = .stuck := by unfold Lr.pstep; rw [ha]; dsimp only; rw [hp]
      rw [hps] at hinv
      exact hinv.elim
    | some r =>
    obtain ⟨ts', us⟩ := r
    cases hg : (A.state (topOf ts')).gotos.lookup (A.lhs m) with
    | none =>
      have hps : A.pstep ycode ⟨stack, input⟩ = .stuck := by unfold Lr.pstep; rw [ha]; dsimp only; rw [hp]; dsimp only; rw [hg]
      rw [hps] at hinv
      exact hinv.elim
    | some q =>
    have hps : A.pstep ycode ⟨stack, input⟩ = .next ⟨(q, .node m us) :: ts', input⟩ := by
      unfold Lr.pstep; rw [ha]; dsimp only; rw [hp]; dsimp only; rw [hg]
    rw [hps] at hinv
    obtain ⟨vs', b, s1, hpv, hs1, hus⟩ := hrun.pop hp (.nil (st := s0))
    obtain ⟨hg1, hg2⟩ := pop_good hp h1.good ⟨[], .nil⟩
    have hgood : ∀ p ∈ (q, Tree.node m us) :: ts', ∃ xs, YToks xs p.2.yield := fun p hp => by
      rcases List.mem_cons.mp hp with rfl | hp
      · exact hg2
      · exact h1.good p (hg1 p hp)
    have htm := wf_tame (grow := grow) (loops := loops) hr hfl hinv.1.wf hgood
    have hov : Over g₀ s1 := srun_over hs1 fun p hp => htm p (List.mem_cons_of_mem _ hp)
    have hgo : (A.state (topOf vs')).gotos.lookup (A.lhs m) = some q := by rw [hs1.top]; exact hg
    have hb : badTk ∈ input → badTk ∈ input := fun h => h
    cases hacts : xdrGrammar.acts m with
    | false =>
      have e2 : yyAct A xdrGrammar ycode (innerExt sys fl grow loops) 0 (.ptr "" ⟨l, []⟩) y.stack look st1 =
          .ok (some ⟨(q, []) :: vs', look⟩, st1) := by
        unfold yyAct
        rw [hact, ha]
        dsimp only
        rw [hpv]
        dsimp only
        rw [hgo, hacts]
        rfl
      have e3 := step_of hlook e2 (fun s => nofun)
      have hn : YSim sys fl grow loops P w₀ po pt A g₀ ⟨(q, .node m us) :: ts', input⟩ ⟨(q, []) :: vs', look⟩ g1 st1 :=
        ⟨⟨g1, .push hs1 (.pass hus hcalm hacts), .refl _⟩, h1.alike, hinv.1.wf, hgood, h1.pending, h1.over⟩
      obtain ⟨k, n, he⟩ := key _ hinv.2 _ _ _ hn
      refine ⟨max (max 2 0) k, n + 1, ?_⟩
      rw [loop_next e3 he.noFuel]
      exact he.step hps hb
    | true =>
      obtain ⟨r, hlim⟩ : ∃ r, Lim (fun n => callN genProg (genExt fl.gen grow loops) n (.fn "main" ("xdrAct" ++ toString m)) b g1) r := by
        by_cases hc : ∃ r K, ∀ k, K ≤ k → callN genProg (genExt fl.gen grow loops) k (.fn "main" ("xdrAct" ++ toString m)) b g1 = r
        · obtain ⟨r, hc⟩ := hc; exact ⟨r, .inl hc⟩
        · exact ⟨.error (.fuel, g1), .inr ⟨hc, g1, rfl⟩⟩
      have tr := TRun.act hus hcalm hacts hlim
      have hK : ∃ K, callN genProg (genExt fl.gen grow loops) K (.fn "main" ("xdrAct" ++ toString m)) b g1 = r := by
        rcases hlim with ⟨K, hK⟩ | ⟨_, s, e⟩
        · exact ⟨K, hK K (Nat.le_refl K)⟩
        · rcases htm _ List.mem_cons_self _ _ tr with ⟨v, g2, e', _⟩ | ⟨s, e'⟩ <;> rw [e] at e' <;> cases e'
      obtain ⟨K, hK⟩ := hK
      have hrel := callN_rel genProg (relE_tool (grow := grow) (loops := loops) ho ht hi hj st1.world.toks) K (.fn "main" ("xdrAct" ++ toString m)) b g1 st1 h1.alike
      rw [hK] at hrel
      have hy : ∀ {x}, callN genProg (innerExt sys fl grow loops) K (.fn "main" ("xdrAct" ++ toString m)) b st1 = x →
          yyAct A xdrGrammar ycode (innerExt sys fl grow loops) K (.ptr "" ⟨l, []⟩) y.stack look st1 =
            (do let v ← (fun _ => x); pure (some ⟨(q, v) :: vs', look⟩) : M TW (Option YCfg)) st1 := fun {x} hx => by
        unfold yyAct
        rw [hact, ha]
        dsimp only
        rw [hpv]
        dsimp only
        rw [hgo, hacts, ← hx]
        rfl
      rcases htm _ List.mem_cons_self _ _ tr with ⟨v, g2, rfl, hov2⟩ | ⟨s, rfl⟩
      · obtain ⟨st2, e, ha2⟩ := hrel
        have e3 := step_of hlook (hy e) (fun s => nofun)
        have htk : st2.world.toks = st1.world.toks := by rw [ha2.world]; rfl
        have hn : YSim sys fl grow loops P w₀ po pt A g₀ ⟨(q, .node m us) :: ts', input⟩ ⟨(q, v) :: vs', look⟩ g2 st2 :=
          ⟨⟨g2, .push hs1 tr, .refl _⟩, by rw [htk]; exact ha2, hinv.1.wf, hgood, by rw [htk]; exact h1.pending, hov.trans hov2⟩
        obtain ⟨k, n, he⟩ := key _ hinv.2 _ _ _ hn
        refine ⟨max (max 2 K) k, n + 1, ?_⟩
        rw [loop_next e3 he.noFuel]
        exact he.step hps hb
      · rcases hrel with h | h | ⟨st2, e, ha2⟩
        · cases h
        · cases h
        have e3 := step_of hlook (hy e) (fun s => nofun)
        refine ⟨max 2 K, 1, ?_⟩
        rw [yyLoop, stops_bind e3]
        refine ⟨rfl, ⟨_, _, ha2.world⟩, fun n t hn => ?_⟩
        cases n with
        | zero => cases hn
        | succ n =>
          rw [Lr.prun, hps] at hn
          exact .inr ⟨_, SErr.run (SErr.here hs1 tr) hn⟩
termination_by A.meas c
decreasing_by
  exact hlt
end

end Verif.Lang
