/-
Verif.Lang.Parse on the tokens of statements of Verif.Text.GoSyn.
-/
import Verif.Lang.GoRead

namespace Verif.Lang.Rd
open Verif.Text (Text GE GArgs GElts GFs GS GSs GCs GRes GMeth GD GFile gE gArgs gElts gFs gS gSs gCs gPs gRes gOpt gMeth gRecv gD gFile
  wE wArgs wElts wFs wS wSs wCs wOpt wRes wD wFile)
set_option linter.unusedSimpArgs false

/-- Only `fallthrough`. -/
def isFall : GSs → Bool
  | .cons .fall .nil => true
  | _ => false

mutual
def trS : GS → Stmt
  | .expr e => .expr (trE e)
  | .assign a b => .assign [trE a] [trE b]
  | .define x e => .define [name x] [trE e]
  | .var x t => .var [name x] (trT t)
  | .block b => .block (trSs b)
  | .ifThen c b => .ite (trE c) (trSs b) []
  | .ifElse c b b' => .ite (trE c) (trSs b) (trSs b')
  | .forInc x a c y b => .loop (.define [name x] [trE a]) (trE c) (.inc (.id (name y))) (trSs b)
  | .switch e cs => .switch (trE e) ((trCs cs).map (·.1)) ((trCs cs).map (·.2))
  | .ret0 => .ret []
  | .ret1 a => .ret [trE a]
  | .ret2 a b => .ret [trE a, trE b]
  | .fall => .ret []
def trSs : GSs → List Stmt
  | .nil => []
  | .last s => [trS s]
  | .cons s b => trS s :: trSs b
/-- A clause that only falls through is one with the next. -/
def trCs : GCs → List (List Expr × List Stmt)
  | .nil => []
  | .case e b cs =>
    if isFall b then
      match trCs cs with
      | (es, b) :: r => (trE e :: es, b) :: r
      | r => r
    else ([trE e], trSs b) :: trCs cs
  | .default b cs => ([], trSs b) :: trCs cs
end

/-- Does not begin with a keyword. -/
def spine : GE → Bool
  | .sel e _ => spine e
  | .idx e _ => spine e
  | .slc e => spine e
  | .call e _ => spine e
  | .lit t _ => spine t
  | .bin _ a _ => spine a
  | .struct _ => false
  | _ => true

/-- Begins a loop as out.go prints it. -/
def isInit : GE → Bool
  | .int _ => true
  | .call (.id _) (.last (.int _)) => true
  | _ => false

def isCase : GCs → Bool
  | .case _ _ _ => true
  | _ => false

mutual
/-- The part that is read. -/
def okS : GS → Bool
  | .expr e => okE e && spine e
  | .assign a b => okE a && okE b && spine a
  | .define _ e => okE e
  | .var _ t => okE t
  | .block b => okSs b
  | .ifThen c b => okE c && okSs b
  | .ifElse c b b' => okE c && okSs b && okSs b'
  | .forInc _ a c _ b => okE a && isInit a && okE c && okSs b
  | .switch e cs => okE e && okCs cs
  | .ret0 => true
  | .ret1 a => okE a
  | .ret2 a b => okE a && okE b
  | .fall => false
def okSs : GSs → Bool
  | .nil => true
  | .last s => okS s
  | .cons s b => okS s && okSs b
def okCs : GCs → Bool
  | .nil => true
  | .case e b cs => okE e && (if isFall b then isCase cs else okSs b) && okCs cs
  | .default b cs => okSs b && okCs cs
end

/-! ### Beginnings -/

def anyKw : Toks → Bool
  | .kw _ :: _ => true
  | _ => false

theorem spine_kw : ∀ (e : GE) (rest : Toks), spine e = true → anyKw (toks (gE e) ++ rest) = false
  | .id s, _, _ => rfl
  | .int n, _, _ => rfl
  | .str n, _, _ => rfl
  | .paren e, _, _ => rfl
  | .sel e f, rest, h => by
    simp only [gE, toks, List.map_append, List.append_assoc]
    exact spine_kw e _ h
  | .idx e i, rest, h => by
    simp only [gE, toks, List.map_append, List.append_assoc]
    exact spine_kw e _ h
  | .slc e, rest, h => by
    simp only [gE, toks, List.map_append, List.append_assoc]
    exact spine_kw e _ h
  | .call e as, rest, h => by
    simp only [gE, toks, List.map_append, List.append_assoc]
    exact spine_kw e _ h
  | .lit e es, rest, h => by
    simp only [gE, toks, List.map_append, List.append_assoc]
    exact spine_kw e _ h
  | .star e, _, _ => rfl
  | .addr e, _, _ => rfl
  | .neg e, _, _ => rfl
  | .bin o a b, rest, h => by
    simp only [gE, toks, List.map_append, List.append_assoc]
    exact spine_kw a _ h
  | .slice e, _, _ => rfl
  | .array n e, _, _ => rfl
  | .struct fs, _, h => by cases h

theorem pStmt_simple {n : Nat} {ts : Toks} (h1 : anyKw ts = false) (h2 : isKey ts = false) (h3 : isOp t!"{" ts = false) :
    pStmt (n + 1) ts = pSimple n true ts := by
  rw [pStmt.eq_def]
  simp only
  split
  · cases h1
  · simp only [isKey] at h2
    simp only [h2, Bool.false_eq_true, if_false]
  · simp only [isOp] at h3
    simp only [h3, Bool.false_eq_true, if_false]
  · rfl

/-- Statements do not begin with one of these. -/
def noStmt (ts : Toks) : Bool := !isOp t!"}" ts && !isKw t!"case" ts && !isKw t!"default" ts && !isKw t!"fallthrough" ts && !isOp t!";" ts

theorem gE_noStmt (e : GE) (rest : Toks) : noStmt (toks (gE e) ++ rest) = true := by
  have h1 := isOp_head e rest (o := t!"}") rfl
  have h2 := isOp_head e rest (o := t!";") rfl
  obtain ⟨t, r, h, h'⟩ := gE_head e
  simp only [noStmt, h1, h2]
  simp only [toks, h, List.map_cons, List.cons_append]
  cases t <;> first | (cases h'; done) | rfl | skip
  simp only [startTok, beq_iff_eq] at h'
  subst h'
  rfl

theorem gS_noStmt : ∀ (s : GS) (rest : Toks), okS s = true → noStmt (toks (gS s) ++ rest) = true
  | .expr e, rest, _ => by rw [gS]; exact gE_noStmt e rest
  | .assign a b, rest, _ => by
    simp only [gS, toks, List.map_append, List.append_assoc]
    exact gE_noStmt a _
  | .define x e, _, _ => rfl
  | .var x t, _, _ => by rw [gS]; rfl
  | .block b, _, _ => by rw [gS]; rfl
  | .ifThen c b, _, _ => by rw [gS]; rfl
  | .ifElse c b b', _, _ => by rw [gS]; rfl
  | .forInc x a c y b, _, _ => by rw [gS]; rfl
  | .switch e cs, _, _ => by rw [gS]; rfl
  | .ret0, _, _ => by rw [gS]; rfl
  | .ret1 a, _, _ => by rw [gS]; rfl
  | .ret2 a b, _, _ => by rw [gS]; rfl
  | .fall, _, h => by rw [okS] at h; cases h

def notLabel : Stmt → Bool
  | .label _ => false
  | _ => true

theorem trS_notLabel (s : GS) : notLabel (trS s) = true := by cases s <;> rfl

theorem pStmts_end {n : Nat} {ts : Toks} (hn : 0 < n) (h : isOp t!"}" ts = true ∨ isKw t!"case" ts = true ∨ isKw t!"default" ts = true) :
    pStmts n ts = some ([], ts) := by
  obtain ⟨n, rfl⟩ : ∃ m, n = m + 1 := ⟨n - 1, by omega⟩
  rw [pStmts]
  rcases h with h | h | h <;> simp [h]

theorem pStmts_last {n : Nat} {ts r : Toks} {s : Stmt} (h : noStmt ts = true) (hs : notLabel s = true) (h1 : pStmt n ts = some (s, r))
    (hr : isOp t!"}" r = true) : pStmts (n + 1) ts = some ([s], r) := by
  simp only [noStmt, Bool.and_eq_true, Bool.not_eq_true'] at h
  rw [pStmts]
  cases s <;> first | (cases hs; done) | simp [h, h1, hr]

theorem pStmts_cons {n : Nat} {ts r r' : Toks} {s : Stmt} {b : List Stmt} (h : noStmt ts = true) (hs : notLabel s = true)
    (h1 : pStmt n ts = some (s, .op t!";" :: r)) (h2 : pStmts n r = some (b, r')) : pStmts (n + 1) ts = some (s :: b, r') := by
  simp only [noStmt, Bool.and_eq_true, Bool.not_eq_true'] at h
  rw [pStmts]
  cases s <;> first | (cases hs; done) | simp [h, h1, isOp_cons, op_cons, h2]

theorem pBlock_of {n : Nat} {ts r : Toks} {b : List Stmt} (h : pStmts n ts = some (b, .op t!"}" :: r)) :
    pBlock (n + 1) (.op t!"{" :: ts) = some (b, r) := by
  simp [pBlock, op_cons, h]

/-- A simple statement that is an expression. -/
theorem pSimple_expr {n : Nat} {l : Bool} {e : Expr} {ts r : Toks} (hn : 0 < n) (h : pExpr n l 0 ts = some (e, r))
    (hr : isOp t!";" r = true ∨ isOp t!"}" r = true) : pSimple n l ts = some (.expr e, r) := by
  have key : ∀ o, (o = t!";" ∨ o = t!"}") → ∀ r', r = .op o :: r' → pSimple n l ts = some (.expr e, r) := by
    rintro o ho r' rfl
    have h1 := sep_one hn h (by rcases ho with rfl | rfl <;> rfl)
    rcases ho with rfl | rfl <;> simp [pSimple, h1, isOp_cons]
  cases r with
  | nil => simp [isOp] at hr
  | cons a r =>
    cases a <;> try (simp [isOp] at hr; done)
    simp only [isOp, beq_iff_eq] at hr
    exact key _ hr _ rfl

theorem pSimple_assign {n : Nat} {l : Bool} {a b : Expr} {ts ts' r : Toks} (hn : 0 < n) (h : pExpr n l 0 ts = some (a, .op t!"=" :: ts'))
    (h' : pExpr n l 0 ts' = some (b, r)) (hr : isOp t!"," r = false) : pSimple n l ts = some (.assign [a] [b], r) := by
  have h1 := sep_one hn h rfl
  have h2 := sep_one hn h' hr
  simp [pSimple, h1, h2, isOp_cons]

theorem pSimple_define {n : Nat} {l : Bool} {x : String} {b : Expr} {ts ts' r : Toks} (hn : 0 < n) (h : pExpr n l 0 ts = some (.id x, .op t!":=" :: ts'))
    (h' : pExpr n l 0 ts' = some (b, r)) (hr : isOp t!"," r = false) : pSimple n l ts = some (.define [x] [b], r) := by
  have h1 := sep_one hn h rfl
  have h2 := sep_one hn h' hr
  simp [pSimple, h1, h2, isOp_cons]

theorem pSimple_inc {n : Nat} {l : Bool} {a : Expr} {ts r : Toks} (hn : 0 < n) (h : pExpr n l 0 ts = some (a, .op t!"++" :: r)) :
    pSimple n l ts = some (.inc a, r) := by
  have h1 := sep_one hn h rfl
  simp [pSimple, h1, isOp_cons]

/-- After a statement. -/
def after (r : Toks) : Bool := isOp t!";" r || isOp t!"}" r

theorem after_or {r : Toks} (h : after r = true) : isOp t!";" r = true ∨ isOp t!"}" r = true := by
  simpa [after] using h

theorem after_cons {r : Toks} (h : after r = true) : ∃ o r', r = .op o :: r' ∧ (o = t!";" ∨ o = t!"}") := by
  cases r with
  | nil => simp [after, isOp] at h
  | cons a r =>
    cases a <;> try (simp [after, isOp] at h; done)
    simp only [after, isOp, Bool.or_eq_true, beq_iff_eq] at h
    exact ⟨_, _, rfl, h⟩

theorem after_ends {r : Toks} (h : after r = true) : ends true r = true := by
  obtain ⟨o, r', rfl, rfl | rfl⟩ := after_cons h <;> rfl

theorem after_comma {r : Toks} (h : after r = true) : isOp t!"," r = false := by
  obtain ⟨o, r', rfl, rfl | rfl⟩ := after_cons h <;> rfl

theorem after_dot {r : Toks} (h : after r = true) : isOp t!"." r = false := by
  obtain ⟨o, r', rfl, rfl | rfl⟩ := after_cons h <;> rfl

theorem after_else {r : Toks} (h : after r = true) : isKw t!"else" r = false := by
  obtain ⟨o, r', rfl, rfl | rfl⟩ := after_cons h <;> rfl

local macro "arith" : tactic => `(tactic| (try simp only [gE, gArgs, gElts, gFs, gS, gSs, gCs, List.length_append, List.length_cons, List.length_nil] at *) <;> omega)
local macro "flat" "[" ls:Lean.Parser.Tactic.simpLemma,* "]" : tactic =>
  `(tactic| (simp only [toks, List.map_cons, List.map_append, List.map_nil, tokL, opL, List.cons_append, List.append_assoc, List.nil_append, Bool.not_false,
    Bool.not_true, $ls,*] at *))

/-- A statement list may end here. -/
def closes (b : GSs) (rest : Toks) : Prop :=
  isOp t!"}" rest = true ∨ (b.closed = true ∧ (isKw t!"case" rest = true ∨ isKw t!"default" rest = true))

theorem gCs_start : ∀ (cs : GCs) (r : Toks), ∃ t r', toks (gCs cs) ++ .op t!"}" :: r = t :: r' ∧
    (t = .op t!"}" ∨ t = .kw t!"case" ∨ t = .kw t!"default")
  | .nil, r => ⟨_, _, rfl, .inl rfl⟩
  | .case e b cs, r => ⟨_, _, by simp only [gCs, toks, List.map_cons, List.cons_append]; rfl, .inr (.inl rfl)⟩
  | .default b cs, r => ⟨_, _, by simp only [gCs, toks, List.map_cons, List.cons_append]; rfl, .inr (.inr rfl)⟩

theorem gCs_closes {b : GSs} {cs : GCs} (h : b.closed = true ∨ cs.isNil = true) (r : Toks) : closes b (toks (gCs cs) ++ .op t!"}" :: r) := by
  rcases h with h | h
  · obtain ⟨t, r', e, h'⟩ := gCs_start cs r
    rw [e]
    rcases h' with rfl | rfl | rfl
    · exact .inl rfl
    · exact .inr ⟨h, .inl rfl⟩
    · exact .inr ⟨h, .inr rfl⟩
  · cases cs <;> first | (cases h; done) | exact .inl rfl

theorem gCs_fall {cs : GCs} (r : Toks) : isKw t!"fallthrough" (toks (gCs cs) ++ .op t!"}" :: r) = false := by
  obtain ⟨t, r', e, h'⟩ := gCs_start cs r
  rw [e]
  rcases h' with rfl | rfl | rfl <;> rfl

theorem gSs_fall {b : GSs} (h : okSs b = true) {cs : GCs} (r : Toks) :
    isKw t!"fallthrough" (toks (gSs b) ++ (toks (gCs cs) ++ .op t!"}" :: r)) = false := by
  cases b with
  | nil => exact gCs_fall r
  | last s =>
    have := gS_noStmt s (toks (gCs cs) ++ .op t!"}" :: r) h
    simp only [noStmt, Bool.and_eq_true, Bool.not_eq_true'] at this
    exact this.1.2
  | cons s b =>
    simp only [okSs, Bool.and_eq_true] at h
    have := gS_noStmt s (.op t!";" :: (toks (gSs b) ++ (toks (gCs cs) ++ .op t!"}" :: r))) h.1
    simp only [noStmt, Bool.and_eq_true, Bool.not_eq_true'] at this
    flat [gSs]
    exact this.1.2

theorem trCs_case : ∀ {cs : GCs}, isCase cs = true → okCs cs = true → ∃ e es b r, trCs cs = (e :: es, b) :: r
  | .nil, h, _ => by cases h
  | .default _ _, h, _ => by cases h
  | .case e b cs, _, k => by
    simp only [okCs, Bool.and_eq_true] at k
    rw [trCs]
    split
    · rename_i hf
      rw [if_pos hf] at k
      obtain ⟨e', es, b', r, h⟩ := trCs_case k.1.2 k.2
      rw [h]
      exact ⟨_, _, _, _, rfl⟩
    · exact ⟨_, _, _, _, rfl⟩

theorem switchVar_none {ts : Toks} (h : isDef ts = false) : switchVar ts = ("", ts) := by
  unfold switchVar
  split
  · simp only [isDef] at h
    simp only [h, Bool.false_eq_true, if_false]
  · rfl

theorem isFall_eq {b : GSs} (h : isFall b = true) : b = .cons .fall .nil := by
  unfold isFall at h
  split at h
  · rfl
  · cases h

theorem pFor_init {n : Nat} {x : Text} {ts : Toks} (h : ∀ v d w r, ts ≠ .id v :: .op d :: .kw w :: r) :
    pFor (n + 1) (.id x :: .op t!":=" :: ts) = (do
        let (i, r) ← pSimple n false (.id x :: .op t!":=" :: ts)
        let (_, r) ← op t!";" r
        let (c, r) ← pExpr n false 0 r
        let (_, r) ← op t!";" r
        let (p, r) ← pSimple n false r
        let (b, r) ← pBlock n r
        pure (.loop i c p b, r)) := by
  rw [pFor.eq_def]
  simp only [isOp, Bool.false_eq_true, if_false]
  split
  · rename_i he
    cases he
    exact absurd rfl (h _ _ _ _)
  · rfl

mutual
theorem rS (s : GS) (w : wS s = true) (k : okS s = true) {rest : Toks} (hr : after rest = true) {n : Nat}
    (hn : 4 * (gS s).length + 4 ≤ n) : pStmt n (toks (gS s) ++ rest) = some (trS s, rest) := by
  obtain ⟨n, rfl⟩ : ∃ m, n = m + 1 := ⟨n - 1, by omega⟩
  have hn0 : 0 < n := by omega
  cases s with
  | expr e =>
    rw [wS] at w
    simp only [okS, Bool.and_eq_true] at k
    have h1 := rE e w k.1 (after_ends hr) (n := n) (by arith)
    rw [gS]
    rw [pStmt_simple (spine_kw e rest k.2) (noKey e rest k.1 (by obtain ⟨o, r', rfl, rfl | rfl⟩ := after_cons hr <;> rfl)) (isOp_head e rest rfl)]
    exact pSimple_expr hn0 h1 (after_or hr)
  | assign a b =>
    simp only [wS, Bool.and_eq_true] at w
    simp only [okS, Bool.and_eq_true] at k
    have h1 := rE a w.1 k.1.1 (rest := .op t!"=" :: (toks (gE b) ++ rest)) rfl (n := n) (by arith)
    have h2 := rE b w.2 k.1.2 (after_ends hr) (n := n) (by arith)
    have h3 := spine_kw a (.op t!"=" :: (toks (gE b) ++ rest)) k.2
    have h4 := noKey a (.op t!"=" :: (toks (gE b) ++ rest)) k.1.1 rfl
    have h5 := isOp_head a (.op t!"=" :: (toks (gE b) ++ rest)) (o := t!"{") rfl
    flat [gS]
    rw [pStmt_simple h3 h4 h5]
    exact pSimple_assign hn0 h1 h2 (after_comma hr)
  | define x e =>
    rw [wS] at w
    rw [okS] at k
    have h1 := rE (.id x) (h := false) rfl rfl (rest := .op t!":=" :: (toks (gE e) ++ rest)) rfl (n := n) (by arith)
    have h2 := rE e w k (after_ends hr) (n := n) (by arith)
    flat [gS, gE]
    rw [pStmt_simple rfl rfl rfl]
    exact pSimple_define hn0 h1 h2 (after_comma hr)
  | var x t =>
    rw [wS] at w
    rw [okS] at k
    have h1 := rT t w k (after_dot hr) (n := n) (by arith)
    have h2 := sep_one (p := ident) (ts := .id x :: (toks (gE t) ++ rest)) hn0 rfl (isOp_head t _ rfl)
    flat [gS, Verif.Text.kwVar]
    simp [pStmt, h1, h2, trS]
  | block b =>
    rw [wS] at w
    rw [okS] at k
    obtain ⟨n, rfl⟩ : ∃ m, n = m + 1 := ⟨n - 1, by omega⟩
    have h1 := rSs b w k (rest := .op t!"}" :: rest) (.inl rfl) (n := n) (by arith)
    flat [gS]
    simp [pStmt, pBlock_of h1, trS]
  | ifThen c b =>
    simp only [wS, Bool.and_eq_true] at w
    simp only [okS, Bool.and_eq_true] at k
    obtain ⟨n, rfl⟩ : ∃ m, n = m + 1 := ⟨n - 1, by omega⟩
    obtain ⟨n, rfl⟩ : ∃ m, n = m + 1 := ⟨n - 1, by arith⟩
    have h0 := rE c w.1 k.1 (rest := .op t!"{" :: (toks (gSs b) ++ .op t!"}" :: rest)) rfl (n := n + 1) (by arith)
    have h1 := rSs b w.2 k.2 (rest := .op t!"}" :: rest) (.inl rfl) (n := n) (by arith)
    flat [gS, Verif.Text.kwIf]
    simp [pStmt, pIf, h0, pBlock_of h1, after_else hr, trS]
  | ifElse c b b' =>
    simp only [wS, Bool.and_eq_true] at w
    simp only [okS, Bool.and_eq_true] at k
    obtain ⟨n, rfl⟩ : ∃ m, n = m + 1 := ⟨n - 1, by omega⟩
    obtain ⟨n, rfl⟩ : ∃ m, n = m + 1 := ⟨n - 1, by arith⟩
    have h0 := rE c w.1.1 k.1.1 (rest := .op t!"{" :: (toks (gSs b) ++ .op t!"}" :: .kw t!"else" :: .op t!"{" :: (toks (gSs b') ++ .op t!"}" :: rest))) rfl (n := n + 1) (by arith)
    have h1 := rSs b w.1.2 k.1.2 (rest := .op t!"}" :: .kw t!"else" :: .op t!"{" :: (toks (gSs b') ++ .op t!"}" :: rest)) (.inl rfl) (n := n) (by arith)
    have h2 := rSs b' w.2 k.2 (rest := .op t!"}" :: rest) (.inl rfl) (n := n) (by arith)
    flat [gS, Verif.Text.kwIf, Verif.Text.kwElse]
    simp [pStmt, pIf, h0, pBlock_of h1, pBlock_of h2, isKw, trS]
  | forInc x a c y b =>
    simp only [wS, Bool.and_eq_true] at w
    simp only [okS, Bool.and_eq_true] at k
    obtain ⟨n, rfl⟩ : ∃ m, n = m + 1 := ⟨n - 1, by omega⟩
    obtain ⟨n, rfl⟩ : ∃ m, n = m + 1 := ⟨n - 1, by arith⟩
    have h1 := rSs b w.2 k.2 (rest := .op t!"}" :: rest) (.inl rfl) (n := n) (by arith)
    have h2 := rE (.id y) (h := true) rfl rfl (rest := .op t!"++" :: .op t!"{" :: (toks (gSs b) ++ .op t!"}" :: rest)) rfl (n := n + 1) (by arith)
    have h3 := rE c w.1.2 k.1.2 (rest := .op t!";" :: .id y :: .op t!"++" :: .op t!"{" :: (toks (gSs b) ++ .op t!"}" :: rest)) rfl (n := n + 1) (by arith)
    have h4 := rE a w.1.1 k.1.1.1 (rest := .op t!";" :: (toks (gE c) ++ .op t!";" :: .id y :: .op t!"++" :: .op t!"{" :: (toks (gSs b) ++ .op t!"}" :: rest))) rfl (n := n + 1) (by arith)
    have h5 := rE (.id x) (h := true) rfl rfl (rest := .op t!":=" :: (toks (gE a) ++ .op t!";" :: (toks (gE c) ++ .op t!";" :: .id y :: .op t!"++" :: .op t!"{" :: (toks (gSs b) ++ .op t!"}" :: rest)))) rfl (n := n + 1) (by arith)
    have h6 : ∀ q v d w r, toks (gE a) ++ .op t!";" :: q ≠ .id v :: .op d :: .kw w :: r := by
      intro q v d w r
      have k := k.1.1.2
      unfold isInit at k
      split at k
      · simp [gE, toks, tokL]
      · simp [gE, gArgs, toks, tokL]
      · cases k
    have hn1 : 0 < n + 1 := by omega
    flat [gS, gE, Verif.Text.kwFor]
    have h7 := pSimple_inc hn1 h2
    have h8 := pSimple_define hn1 h5 h4 rfl
    have h9 := pFor_init (n := n + 1) (x := x) (h6 (List.map tokL (gE c) ++ .op t!";" :: .id y :: .op t!"++" :: .op t!"{" :: (List.map tokL (gSs b) ++ .op t!"}" :: rest)))
    simp [pStmt, h9, h8, op_cons, h3, h7, pBlock_of h1, trS, trE]
  | switch e cs =>
    simp only [wS, Bool.and_eq_true] at w
    simp only [okS, Bool.and_eq_true] at k
    have h1 := rE e w.1 k.1 (rest := .op t!"{" :: (toks (gCs cs) ++ .op t!"}" :: rest)) rfl (n := n) (by arith)
    have h2 := rCs cs w.2 k.2 rest (n := n) (by arith)
    have h3 := switchVar_none (noDef e (.op t!"{" :: (toks (gCs cs) ++ .op t!"}" :: rest)) k.1 rfl)
    flat [gS, Verif.Text.kwSwitch]
    simp [pStmt, h3, h1, isOp_cons, op_cons, h2, trS]
  | ret0 =>
    flat [gS, Verif.Text.kwReturn]
    rcases after_or hr with h | h <;> simp [pStmt, h, trS]
  | ret1 a =>
    rw [wS] at w
    rw [okS] at k
    have h1 := sep_one hn0 (rE a w k (after_ends hr) (n := n) (by arith)) (after_comma hr)
    have h2 := isOp_head a rest (o := t!";") rfl
    have h3 := isOp_head a rest (o := t!"}") rfl
    flat [gS, Verif.Text.kwReturn]
    simp [pStmt, h1, h2, h3, trS]
  | ret2 a b =>
    simp only [wS, Bool.and_eq_true] at w
    simp only [okS, Bool.and_eq_true] at k
    obtain ⟨n, rfl⟩ : ∃ m, n = m + 1 := ⟨n - 1, by omega⟩
    have h0 := sep_one (n := n) (by arith) (rE b w.2 k.2 (after_ends hr) (n := n + 1) (by arith)) (after_comma hr)
    have h1 := sep_more (rE a w.1 k.1 (rest := .op t!"," :: (toks (gE b) ++ rest)) rfl (n := n + 1) (by arith)) h0
    have h2 := isOp_head a (.op t!"," :: (toks (gE b) ++ rest)) (o := t!";") rfl
    have h3 := isOp_head a (.op t!"," :: (toks (gE b) ++ rest)) (o := t!"}") rfl
    flat [gS, Verif.Text.kwReturn]
    simp [pStmt, h1, h2, h3, trS]
  | fall => rw [okS] at k; cases k
termination_by (sizeOf s, 0)

theorem rSs (b : GSs) (w : wSs b = true) (k : okSs b = true) {rest : Toks} (hr : closes b rest) {n : Nat}
    (hn : 4 * (gSs b).length + 6 ≤ n) : pStmts n (toks (gSs b) ++ rest) = some (trSs b, rest) := by
  cases b with
  | nil =>
    refine pStmts_end (by omega) ?_
    rcases hr with h | ⟨-, h⟩
    · exact .inl h
    · exact .inr h
  | last s =>
    rcases hr with hr | ⟨h, -⟩
    · obtain ⟨n, rfl⟩ : ∃ m, n = m + 1 := ⟨n - 1, by omega⟩
      have h1 := rS s w k (rest := rest) (by simp [after, hr]) (n := n) (by arith)
      exact pStmts_last (gS_noStmt s rest k) (trS_notLabel s) h1 hr
    · cases h
  | cons s b =>
    simp only [wSs, Bool.and_eq_true] at w
    simp only [okSs, Bool.and_eq_true] at k
    obtain ⟨n, rfl⟩ : ∃ m, n = m + 1 := ⟨n - 1, by omega⟩
    have h1 := rS s w.1 k.1 (rest := .op t!";" :: (toks (gSs b) ++ rest)) rfl (n := n) (by arith)
    have h2 := rSs b w.2 k.2 (rest := rest) (by
      rcases hr with h | ⟨h, h'⟩
      · exact .inl h
      · exact .inr ⟨h, h'⟩) (n := n) (by arith)
    have h3 := gS_noStmt s (.op t!";" :: (toks (gSs b) ++ rest)) k.1
    flat [gSs]
    exact pStmts_cons h3 (trS_notLabel s) h1 h2
termination_by (sizeOf b, 1)

theorem rCs (cs : GCs) (w : wCs cs = true) (k : okCs cs = true) (rest : Toks) {n : Nat}
    (hn : 4 * (gCs cs).length + 8 ≤ n) : pClauses n (toks (gCs cs) ++ .op t!"}" :: rest) = some (trCs cs, rest) := by
  obtain ⟨n, rfl⟩ : ∃ m, n = m + 1 := ⟨n - 1, by omega⟩
  have hn0 : 0 < n := by omega
  cases cs with
  | nil => simp [gCs, pClauses, isOp_cons, trCs]
  | case e b cs =>
    simp only [wCs, Bool.and_eq_true, Bool.or_eq_true] at w
    simp only [okCs, Bool.and_eq_true] at k
    have h1 := sep_one hn0 (rE e w.1.1.1 k.1.1 (rest := .op t!":" :: (toks (gSs b) ++ (toks (gCs cs) ++ .op t!"}" :: rest))) rfl (n := n) (by arith)) rfl
    have h2 := rCs cs w.2 k.2 rest (n := n) (by arith)
    by_cases hf : isFall b = true
    · rw [if_pos hf] at k
      have hb := isFall_eq hf
      subst hb
      obtain ⟨e', es, b', r, h3⟩ := trCs_case k.1.2 k.2
      rw [h3] at h2
      flat [gCs, gSs, gS, Verif.Text.kwCase, Verif.Text.kwFallthrough]
      simp [pClauses, isOp, isKw, h1, op_cons, h2, trCs, isFall, h3]
    · rw [if_neg hf] at k
      have h3 := rSs b w.1.1.2 k.1.2 (gCs_closes w.1.2 rest) (n := n) (by arith)
      have h4 := gSs_fall k.1.2 (cs := cs) rest
      rw [trCs, if_neg hf]
      flat [gCs, Verif.Text.kwCase]
      rw [pClauses]
      simp [isOp_cons, h1, op_cons, h2, h3, h4, show isOp t!"}" (.kw t!"case" :: (List.map tokL (gE e) ++ .op t!":" :: (List.map tokL (gSs b) ++ (List.map tokL (gCs cs) ++ .op t!"}" :: rest)))) = false from rfl,
        show isKw t!"case" (.kw t!"case" :: (List.map tokL (gE e) ++ .op t!":" :: (List.map tokL (gSs b) ++ (List.map tokL (gCs cs) ++ .op t!"}" :: rest)))) = true from rfl]
  | default b cs =>
    simp only [wCs, Bool.and_eq_true, Bool.or_eq_true] at w
    simp only [okCs, Bool.and_eq_true] at k
    have h2 := rCs cs w.2 k.2 rest (n := n) (by arith)
    have h3 := rSs b w.1.1 k.1 (gCs_closes w.1.2 rest) (n := n) (by arith)
    flat [gCs, Verif.Text.kwDefault]
    simp [pClauses, isOp, isKw, kw_cons, op_cons, h2, h3, trCs]
termination_by (sizeOf cs, 2)
end

end Verif.Lang.Rd
