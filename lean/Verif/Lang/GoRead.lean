/-
Verif.Lang.Parse on the tokens of expressions and types of Verif.Text.GoSyn.
-/
import Verif.Lang.GoTr

namespace Verif.Lang.Rd
open Verif.Text (Text GE GArgs GElts GFs GS GSs GCs GRes GMeth GD GFile gE gArgs gElts gFs gS gSs gCs gPs gRes gOpt gMeth gRecv gD gFile
  wE wArgs wElts wFs wS wSs wCs wOpt wRes wD wFile)
set_option linter.unusedSimpArgs false

/-! ### The first token -/

/-- What an expression may begin with. -/
def startTok : Verif.Text.Tok → Bool
  | .ident _ => true
  | .int _ => true
  | .str _ => true
  | .op .lparen => true
  | .op .mul => true
  | .op .and => true
  | .op .sub => true
  | .op .lbrack => true
  | .kw s => s == t!"struct"
  | _ => false

theorem gE_head : ∀ e : GE, ∃ t r, gE e = t :: r ∧ startTok t = true
  | .id s => ⟨_, _, by rw [gE], rfl⟩
  | .int n => ⟨_, _, by rw [gE], rfl⟩
  | .str n => ⟨_, _, by rw [gE], rfl⟩
  | .paren e => ⟨_, _, by rw [gE], rfl⟩
  | .sel e f => by
    obtain ⟨t, r, h, h'⟩ := gE_head e
    exact ⟨t, _, by rw [gE, h, List.cons_append], h'⟩
  | .idx e i => by
    obtain ⟨t, r, h, h'⟩ := gE_head e
    exact ⟨t, _, by rw [gE, h, List.cons_append], h'⟩
  | .slc e => by
    obtain ⟨t, r, h, h'⟩ := gE_head e
    exact ⟨t, _, by rw [gE, h, List.cons_append], h'⟩
  | .call e as => by
    obtain ⟨t, r, h, h'⟩ := gE_head e
    exact ⟨t, _, by rw [gE, h, List.cons_append], h'⟩
  | .lit e as => by
    obtain ⟨t, r, h, h'⟩ := gE_head e
    exact ⟨t, _, by rw [gE, h, List.cons_append], h'⟩
  | .star e => ⟨_, _, by rw [gE], rfl⟩
  | .addr e => ⟨_, _, by rw [gE], rfl⟩
  | .neg e => ⟨_, _, by rw [gE], rfl⟩
  | .bin o a b => by
    obtain ⟨t, r, h, h'⟩ := gE_head a
    exact ⟨t, _, by rw [gE, h, List.cons_append], h'⟩
  | .slice e => ⟨_, _, by rw [gE], rfl⟩
  | .array n e => ⟨_, _, by rw [gE], rfl⟩
  | .struct fs => ⟨_, _, by rw [gE], rfl⟩

theorem gE_pos (e : GE) : 0 < (gE e).length := by
  obtain ⟨t, r, h, -⟩ := gE_head e
  simp [h]

/-- An expression does not begin with one of these. -/
def noStart (o : Text) : Bool :=
  o == t!")" || o == t!"]" || o == t!":" || o == t!"," || o == t!";" || o == t!"}" || o == t!"{" || o == t!"..." || o == t!"."

theorem isOp_head (e : GE) (rest : Toks) {o : Text} (ho : noStart o = true) : isOp o (toks (gE e) ++ rest) = false := by
  obtain ⟨t, r, h, h'⟩ := gE_head e
  simp only [toks, h, List.map_cons, List.cons_append]
  cases t <;> simp only [tokL, isOp]
  · rename_i p
    simp only [beq_eq_false_iff_ne, ne_eq]
    rintro rfl
    cases p <;> first | (cases h'; done) | (revert ho; decide)
  · cases h'

theorem gE_head_type {e : GE} {h : Bool} (w : wE .type h e = true) :
    (∃ s, e = .id s) ∨ (∃ p s, e = .sel (.id p) s) ∨ ∃ t r, gE e = t :: r ∧ (t = .op .mul ∨ t = .op .lbrack ∨ t = Verif.Text.kwStruct) := by
  cases e <;> first | (simp [wE] at w; done) | skip
  · exact .inl ⟨_, rfl⟩
  · rename_i e f
    cases e <;> first | (simp [wE] at w; done) | skip
    exact .inr (.inl ⟨_, _, rfl⟩)
  · exact .inr (.inr ⟨_, _, by rw [gE], .inl rfl⟩)
  · exact .inr (.inr ⟨_, _, by rw [gE], .inr (.inl rfl)⟩)
  · exact .inr (.inr ⟨_, _, by rw [gE], .inr (.inl rfl)⟩)
  · exact .inr (.inr ⟨_, _, by rw [gE], .inr (.inr rfl)⟩)

/-! ### Pieces -/

theorem isOp_cons (o p : Text) (r : Toks) : isOp o (.op p :: r) = (p == o) := rfl
theorem op_cons (o : Text) (r : Toks) : op o (.op o :: r) = some ((), r) := by simp [op]
theorem kw_cons (o : Text) (r : Toks) : kw o (.kw o :: r) = some ((), r) := by simp [kw]

theorem sep_one {α} {p : Ps α} {ts r : Toks} {a : α} {n : Nat} (hn : 0 < n) (h : p ts = some (a, r)) (hr : isOp t!"," r = false) :
    sep p n ts = some ([a], r) := by
  obtain ⟨n, rfl⟩ : ∃ m, n = m + 1 := ⟨n - 1, by omega⟩
  simp only [sep, h, Option.bind_eq_bind, Option.bind_some, hr, Option.pure_def, Bool.false_eq_true, if_false]

theorem sep_more {α} {p : Ps α} {ts r r' : Toks} {a : α} {as : List α} {n : Nat} (h : p ts = some (a, .op t!"," :: r))
    (h' : sep p n r = some (as, r')) : sep p (n + 1) ts = some (a :: as, r') := by
  simp only [sep, h, Option.bind_eq_bind, Option.bind_some, isOp, beq_self_eq_true, if_true, op, h', Option.pure_def]

theorem pTy_id {s : Text} {rest : Toks} (hr : isOp t!"." rest = false) (n : Nat) :
    pTy (n + 1) (.id s :: rest) = some (.name (name s), rest) := by
  rw [pTy.eq_def]
  split
  · rename_i h; cases h
  rename_i h1 h2
  simp only
  split
  · rename_i s' o f r he
    cases he
    simp only [isOp] at hr
    simp only [hr, Bool.false_eq_true, if_false]
  · rename_i he
    cases he
    rfl
  · rename_i he; cases he
  · rename_i he; cases he
  · rename_i h _ _; exact absurd rfl (h _ _)

theorem trT_litType {t : GE} (h : Verif.Text.litType t = true) (w : wE .type false t = true) : litType (trE t) = some (trT t) := by
  cases t <;> first | (cases h; done) | skip
  · rfl
  · rename_i e f
    cases e <;> first | (cases h; done) | skip
    rfl
  · rfl
  · rfl
  · rfl

local macro "arith" : tactic => `(tactic| (try simp only [gE, gArgs, gElts, gFs, List.length_append, List.length_cons, List.length_nil] at *) <;> omega)

mutual
theorem rT : (e : GE) → {h : Bool} → wE .type h e = true → okE e = true → {rest : Toks} → isOp t!"." rest = false → {n : Nat} →
    (gE e).length ≤ n → pTy n (toks (gE e) ++ rest) = some (trT e, rest)
  | .id s, h, w, k, rest, hr, n, hn => by
    obtain ⟨n, rfl⟩ : ∃ m, n = m + 1 := ⟨n - 1, by arith⟩
    exact pTy_id hr n
  | .sel (.id p) f, h, w, k, rest, hr, n, hn => by
    obtain ⟨n, rfl⟩ : ∃ m, n = m + 1 := ⟨n - 1, by arith⟩
    simp [gE, toks, tokL, opL, pTy, trT]
  | .star t, h, w, k, rest, hr, n, hn => by
    obtain ⟨n, rfl⟩ : ∃ m, n = m + 1 := ⟨n - 1, by arith⟩
    simp only [wE, if_true] at w
    rw [okE] at k
    have := rT t w k hr (n := n) (by arith)
    simp [gE, toks, tokL, opL, pTy, trT, this]
  | .slice t, h, w, k, rest, hr, n, hn => by
    obtain ⟨n, rfl⟩ : ∃ m, n = m + 1 := ⟨n - 1, by arith⟩
    simp only [wE, Bool.and_eq_true] at w
    rw [okE] at k
    have := rT t w.2 k hr (n := n) (by arith)
    simp [gE, toks, tokL, opL, pTy, trT, this, op]
  | .array sz t, h, w, k, rest, hr, n, hn => by
    obtain ⟨n, rfl⟩ : ∃ m, n = m + 1 := ⟨n - 1, by arith⟩
    simp only [wE, Bool.and_eq_true] at w
    simp only [okE, Bool.and_eq_true] at k
    have := rT t w.2 k.2 hr (n := n) (by arith)
    cases sz <;> first | (cases k.1; done) | skip
    · simp [gE, toks, tokL, opL, pTy, trT, this, op, trArr]
    · simp [gE, toks, tokL, opL, pTy, trT, this, op, trArr]
  | .struct fs, h, w, k, rest, hr, n, hn => by
    obtain ⟨n, rfl⟩ : ∃ m, n = m + 1 := ⟨n - 1, by arith⟩
    simp only [wE, Bool.and_eq_true] at w
    rw [okE] at k
    have := rFs fs w.2 k rest (n := n) (by arith)
    simp [gE, toks, tokL, opL, pTy, trT, this, op, Verif.Text.kwStruct]
  | .int _, h, w, _, _, _, _, _ => by simp [wE] at w
  | .str _, h, w, _, _, _, _, _ => by simp [wE] at w
  | .paren _, h, w, _, _, _, _, _ => by simp [wE] at w
  | .idx _ _, h, w, _, _, _, _, _ => by simp [wE] at w
  | .slc _, h, w, _, _, _, _, _ => by simp [wE] at w
  | .call _ _, h, w, _, _, _, _, _ => by simp [wE] at w
  | .lit _ _, h, w, _, _, _, _, _ => by simp [wE] at w
  | .addr _, h, w, _, _, _, _, _ => by simp [wE] at w
  | .neg _, h, w, _, _, _, _, _ => by simp [wE] at w
  | .bin _ _ _, h, w, _, _, _, _, _ => by simp [wE] at w
  | .sel (.int _) _, h, w, _, _, _, _, _ => by simp [wE] at w
  | .sel (.str _) _, h, w, _, _, _, _, _ => by simp [wE] at w
  | .sel (.paren _) _, h, w, _, _, _, _, _ => by simp [wE] at w
  | .sel (.sel _ _) _, h, w, _, _, _, _, _ => by simp [wE] at w
  | .sel (.idx _ _) _, h, w, _, _, _, _, _ => by simp [wE] at w
  | .sel (.slc _) _, h, w, _, _, _, _, _ => by simp [wE] at w
  | .sel (.call _ _) _, h, w, _, _, _, _, _ => by simp [wE] at w
  | .sel (.lit _ _) _, h, w, _, _, _, _, _ => by simp [wE] at w
  | .sel (.star _) _, h, w, _, _, _, _, _ => by simp [wE] at w
  | .sel (.addr _) _, h, w, _, _, _, _, _ => by simp [wE] at w
  | .sel (.neg _) _, h, w, _, _, _, _, _ => by simp [wE] at w
  | .sel (.bin _ _ _) _, h, w, _, _, _, _, _ => by simp [wE] at w
  | .sel (.slice _) _, h, w, _, _, _, _, _ => by simp [wE] at w
  | .sel (.array _ _) _, h, w, _, _, _, _, _ => by simp [wE] at w
  | .sel (.struct _) _, h, w, _, _, _, _, _ => by simp [wE] at w

theorem rFs : (fs : GFs) → wFs fs = true → okFs fs = true → (rest : Toks) → {n : Nat} → (gFs fs).length ≤ n →
    pFields n (toks (gFs fs) ++ rest) = some (trFs fs, rest)
  | .nil, w, k, rest, n, hn => by
    obtain ⟨n, rfl⟩ : ∃ m, n = m + 1 := ⟨n - 1, by arith⟩
    simp [gFs, toks, tokL, opL, pFields, trFs, isOp, op]
  | .last f t, w, k, rest, n, hn => by
    obtain ⟨n, rfl⟩ : ∃ m, n = m + 1 := ⟨n - 1, by arith⟩
    rw [wFs] at w
    rw [okFs] at k
    have hp := gE_pos t
    have h1 := rT t w k (rest := .op t!"}" :: rest) rfl (n := n) (by arith)
    have h2 := sep_one (p := ident) (ts := .id f :: (toks (gE t) ++ .op t!"}" :: rest)) (n := n) (by arith) rfl (isOp_head t _ rfl)
    obtain ⟨n', rfl⟩ : ∃ m, n = m + 1 := ⟨n - 1, by arith⟩
    have h3 : pFields (n' + 1) (.op t!"}" :: rest) = some ([], rest) := by simp [pFields, isOp, op]
    rw [pFields]
    simp only [gFs, toks, List.map_cons, List.map_append, List.map_nil, tokL, opL, List.cons_append, List.append_assoc, List.nil_append] at h1 h2 ⊢
    simp [h1, h2, h3, isOp, trFs]
  | .cons f t fs, w, k, rest, n, hn => by
    obtain ⟨n, rfl⟩ : ∃ m, n = m + 1 := ⟨n - 1, by arith⟩
    simp only [wFs, Bool.and_eq_true] at w
    simp only [okFs, Bool.and_eq_true] at k
    have hp := gE_pos t
    have h1 := rT t w.1 k.1 (rest := .op t!";" :: (toks (gFs fs) ++ rest)) rfl (n := n) (by arith)
    have h2 := sep_one (p := ident) (ts := .id f :: (toks (gE t) ++ .op t!";" :: (toks (gFs fs) ++ rest))) (n := n) (by arith) rfl (isOp_head t _ rfl)
    have h3 := rFs fs w.2 k.2 rest (n := n) (by arith)
    rw [pFields]
    simp only [gFs, toks, List.map_cons, List.map_append, List.map_nil, tokL, opL, List.cons_append, List.append_assoc, List.nil_append] at h1 h2 h3 ⊢
    simp [h1, h2, h3, isOp, trFs]
end

/-! ### Expressions -/

/-- What follows an operand. -/
local macro "flat" "[" ls:Lean.Parser.Tactic.simpLemma,* "]" : tactic =>
  `(tactic| (simp only [toks, List.map_cons, List.map_append, List.map_nil, tokL, opL, List.cons_append, List.append_assoc, List.nil_append, Bool.not_false, $ls,*] at *))

theorem pPostfix_sel (n : Nat) (l : Bool) (e : Expr) (f : Text) (r : Toks) :
    pPostfix (n + 1) l e (.op t!"." :: .id f :: r) = pPostfix n l (.sel e (name f)) r := by simp [pPostfix]

theorem pPostfix_slc (n : Nat) (l : Bool) (e : Expr) (r : Toks) :
    pPostfix (n + 2) l e (.op t!"[" :: .op t!":" :: .op t!"]" :: r) = pPostfix (n + 1) l (.slc e none none none) r := by
  simp [pPostfix, isOp, pBounds]

theorem pPostfix_idx {n : Nat} {l : Bool} {e i : Expr} {ts r : Toks} (h0 : isOp t!":" ts = false)
    (h : pExpr n true 0 ts = some (i, .op t!"]" :: r)) :
    pPostfix (n + 1) l e (.op t!"[" :: ts) = pPostfix n l (.idx e i) r := by
  simp [pPostfix, h0, h, isOp_cons, op_cons]

theorem pPostfix_call0 (n : Nat) (l : Bool) (e : Expr) (r : Toks) :
    pPostfix (n + 1) l e (.op t!"(" :: .op t!")" :: r) = pPostfix n l (.call e [] false) r := by
  simp [pPostfix, isOp]

theorem pPostfix_call {n : Nat} {l : Bool} {e : Expr} {as : List Expr} {ts r : Toks} (h0 : isOp t!")" ts = false)
    (h : sep (pExpr n true 0) n ts = some (as, .op t!")" :: r)) :
    pPostfix (n + 1) l e (.op t!"(" :: ts) = pPostfix n l (.call e as false) r := by
  simp [pPostfix, h0, h, isOp_cons, op_cons]

theorem pPostfix_lit {n : Nat} {e : Expr} {t : Ty} {es : List (String × Expr)} {ts r : Toks} (ht : litType e = some t)
    (h : pElems n ts = some (es, r)) :
    pPostfix (n + 1) true e (.op t!"{" :: ts) = pPostfix n true (.lit t (es.map (·.1)) (es.map (·.2))) r := by
  simp [pPostfix, ht, h]

theorem pPrimary_ty {n : Nat} {l : Bool} {t : Ty} {ts r : Toks} (h0 : isOp t!"[" ts = true ∨ isKw t!"struct" ts = true)
    (h : pTy n ts = some (t, r)) : pPrimary (n + 1) l ts = pPostfix n l (.ty t) r := by
  rcases h0 with h0 | h0
  · cases ts with
    | nil => cases h0
    | cons a ts =>
      cases a <;> first | (cases h0; done) | skip
      simp only [isOp, beq_iff_eq] at h0
      subst h0
      simp [pPrimary, h]
  · cases ts with
    | nil => cases h0
    | cons a ts =>
      cases a <;> first | (cases h0; done) | skip
      simp [pPrimary, h]

theorem pExpr_unary {n : Nat} {l : Bool} {p : Nat} {a : Expr} {ts r : Toks} (h : pUnary n l ts = some (a, r)) (hr : ends l r = true) (hn : 0 < n) :
    pExpr (n + 1) l p ts = some (a, r) := by
  simp [pExpr, h, pBin_stop hr _ _ hn]

theorem pBin_cmp {n : Nat} {l : Bool} {a b : Expr} {o : Verif.Text.Op} (ho : Verif.Text.isCmp o = true) {ts r : Toks} (h : pExpr n l 3 ts = some (b, r)) :
    pBin (n + 1) l 0 a (.op (opL o) :: ts) = pBin n l 0 (.bin (name (opL o)) a b) r := by
  cases o <;> first | (cases ho; done) | skip
  all_goals simp [pBin, prec, opL, h]

theorem stops_cmp {l : Bool} {o : Verif.Text.Op} (ho : Verif.Text.isCmp o = true) (r : Toks) : stops l (.op (opL o) :: r) = true := by
  cases o <;> first | (cases ho; done) | skip
  all_goals simp [stops, opL]

theorem pUnary_op {n : Nat} {l : Bool} {o : Text} {e : Expr} {ts r : Toks} (ho : o = t!"*" ∨ o = t!"&" ∨ o = t!"-")
    (h : pUnary n l ts = some (e, r)) : pUnary (n + 1) l (.op o :: ts) = some (.un (name o) e, r) := by
  rcases ho with rfl | rfl | rfl <;> simp [pUnary, h]

/-- The unary operators. -/
def isUn : Verif.Text.Tok → Bool
  | .op .mul => true
  | .op .and => true
  | .op .sub => true
  | _ => false

theorem pUnary_prim {n : Nat} {l : Bool} {t : Verif.Text.Tok} {r : Toks} (h : startTok t = true) (h' : isUn t = false) :
    pUnary (n + 1) l (tokL t :: r) = pPrimary n l (tokL t :: r) := by
  cases t <;> first | (cases h; done) | (simp [tokL, pUnary]; done) | skip
  rename_i o
  cases o <;> first | (cases h; done) | (cases h'; done) | skip
  · simp [tokL, opL, pUnary]
  · simp [tokL, opL, pUnary]

/-- Does it begin with a unary operator? -/
theorem gE_head_prim : ∀ {e : GE} {h : Bool} {l : Verif.Text.Lvl}, wE l h e = true → (l = .prim ∨ l = .base) →
    ∃ t r, gE e = t :: r ∧ startTok t = true ∧ isUn t = false
  | .id s, _, _, _, _ => ⟨_, _, by rw [gE], rfl, rfl⟩
  | .int n, _, _, _, _ => ⟨_, _, by rw [gE], rfl, rfl⟩
  | .str n, _, _, _, _ => ⟨_, _, by rw [gE], rfl, rfl⟩
  | .paren e, _, _, _, _ => ⟨_, _, by rw [gE], rfl, rfl⟩
  | .sel e f, h, l, w, hl => by
    have w : wE .base h e = true := by
      rcases hl with rfl | rfl <;> simpa only [wE, reduceCtorEq, if_false] using w
    obtain ⟨t, r, h1, h2⟩ := gE_head_prim w (.inr rfl)
    exact ⟨t, _, by rw [gE, h1, List.cons_append], h2⟩
  | .idx e i, h, l, w, hl => by
    simp only [wE, Bool.and_eq_true] at w
    obtain ⟨t, r, h1, h2⟩ := gE_head_prim w.1.2 (.inr rfl)
    exact ⟨t, _, by rw [gE, h1, List.cons_append], h2⟩
  | .slc e, h, l, w, hl => by
    simp only [wE, Bool.and_eq_true] at w
    obtain ⟨t, r, h1, h2⟩ := gE_head_prim w.2 (.inr rfl)
    exact ⟨t, _, by rw [gE, h1, List.cons_append], h2⟩
  | .call e as, h, l, w, hl => by
    simp only [wE, Bool.and_eq_true] at w
    obtain ⟨t, r, h1, h2⟩ := gE_head_prim w.1.2 (.inr rfl)
    exact ⟨t, _, by rw [gE, h1, List.cons_append], h2⟩
  | .lit t es, h, l, w, hl => by
    simp only [wE, Bool.and_eq_true] at w
    rcases gE_head_type w.1.2 with ⟨s, rfl⟩ | ⟨p, s, rfl⟩ | ⟨a, r, h1, h2⟩
    · exact ⟨_, _, by rw [gE, gE, List.cons_append], rfl, rfl⟩
    · exact ⟨_, _, by rw [gE, gE, gE, List.cons_append, List.cons_append], rfl, rfl⟩
    · refine ⟨a, _, by rw [gE, h1, List.cons_append], ?_⟩
      rcases h2 with rfl | rfl | rfl
      · cases t <;> first | (simp at w; done) | skip
        all_goals first | (simp [gE, Verif.Text.kwStruct] at h1; done) | skip
        all_goals (have := w.1.1.2; simp [Verif.Text.litType] at this)
        all_goals first | done | (rename_i e f; cases e <;> simp [Verif.Text.litType, gE] at this h1)
      · exact ⟨rfl, rfl⟩
      · exact ⟨rfl, rfl⟩
  | .star e, h, l, w, hl => by rcases hl with rfl | rfl <;> simp [wE] at w
  | .addr e, h, l, w, hl => by rcases hl with rfl | rfl <;> simp [wE] at w
  | .neg e, h, l, w, hl => by rcases hl with rfl | rfl <;> simp [wE] at w
  | .bin o a b, h, l, w, hl => by rcases hl with rfl | rfl <;> simp [wE] at w
  | .slice e, _, _, _, _ => ⟨_, _, by rw [gE], rfl, rfl⟩
  | .array n e, _, _, _, _ => ⟨_, _, by rw [gE], rfl, rfl⟩
  | .struct fs, _, _, _, _ => ⟨_, _, by rw [gE], rfl, rfl⟩

/-- An element without key. -/
def isKey : Toks → Bool
  | .id _ :: .op o :: _ => o == t!":"
  | _ => false

theorem pElems_elem {n : Nat} {ts : Toks} (h : isOp t!"}" ts = false) (h' : isKey ts = false) : pElems (n + 1) ts = pElem n ts := by
  rw [pElems.eq_def]
  simp only [h, Bool.false_eq_true, if_false]
  split
  · simp only [isKey] at h'
    simp only [h', Bool.false_eq_true, if_false]
  · rfl

/-- What may follow an element: not a colon. -/
theorem noKey : ∀ (e : GE) (rest : Toks), okE e = true → isOp t!":" rest = false → isKey (toks (gE e) ++ rest) = false
  | .id s, rest, k, h => by
    simp only [gE, toks, List.map_cons, List.map_nil, tokL, List.cons_append, List.nil_append]
    cases rest with
    | nil => rfl
    | cons a r => cases a <;> first | rfl | exact h
  | .int n, _, _, _ => rfl
  | .str n, _, _, _ => rfl
  | .paren e, _, _, _ => rfl
  | .sel e f, rest, k, h => by
    simp only [gE, toks, List.map_append, List.append_assoc]
    exact noKey e _ (by simp_all [okE]) rfl
  | .idx e i, rest, k, h => by
    simp only [gE, toks, List.map_append, List.append_assoc]
    exact noKey e _ (by simp_all [okE]) rfl
  | .slc e, rest, k, h => by
    simp only [gE, toks, List.map_append, List.append_assoc]
    exact noKey e _ (by simp_all [okE]) rfl
  | .call e as, rest, k, h => by
    simp only [gE, toks, List.map_append, List.append_assoc]
    exact noKey e _ (by simp_all [okE]) rfl
  | .lit e es, rest, k, h => by
    simp only [gE, toks, List.map_append, List.append_assoc]
    exact noKey e _ (by simp_all [okE]) rfl
  | .star e, _, _, _ => rfl
  | .addr e, _, _, _ => rfl
  | .neg e, _, _, _ => rfl
  | .bin o a b, rest, k, h => by
    simp only [gE, toks, List.map_append, List.append_assoc]
    simp only [okE, Bool.and_eq_true] at k
    refine noKey a _ k.1.2 ?_
    cases o <;> first | (simp [Verif.Text.isCmp] at k; done) | rfl
  | .slice e, _, _, _ => rfl
  | .array n e, _, _, _ => rfl
  | .struct fs, _, _, _ => rfl

/-- A definition. -/
def isDef : Toks → Bool
  | .id _ :: .op o :: _ => o == t!":="
  | _ => false

/-- Not a definition. -/
theorem noDef : ∀ (e : GE) (rest : Toks), okE e = true → isOp t!":=" rest = false → isDef (toks (gE e) ++ rest) = false
  | .id s, rest, k, h => by
    simp only [gE, toks, List.map_cons, List.map_nil, tokL, List.cons_append, List.nil_append]
    cases rest with
    | nil => rfl
    | cons a r => cases a <;> first | rfl | exact h
  | .int n, _, _, _ => rfl
  | .str n, _, _, _ => rfl
  | .paren e, _, _, _ => rfl
  | .sel e f, rest, k, h => by
    simp only [gE, toks, List.map_append, List.append_assoc]
    exact noDef e _ (by simp_all [okE]) rfl
  | .idx e i, rest, k, h => by
    simp only [gE, toks, List.map_append, List.append_assoc]
    exact noDef e _ (by simp_all [okE]) rfl
  | .slc e, rest, k, h => by
    simp only [gE, toks, List.map_append, List.append_assoc]
    exact noDef e _ (by simp_all [okE]) rfl
  | .call e as, rest, k, h => by
    simp only [gE, toks, List.map_append, List.append_assoc]
    exact noDef e _ (by simp_all [okE]) rfl
  | .lit e es, rest, k, h => by
    simp only [gE, toks, List.map_append, List.append_assoc]
    exact noDef e _ (by simp_all [okE]) rfl
  | .star e, _, _, _ => rfl
  | .addr e, _, _, _ => rfl
  | .neg e, _, _, _ => rfl
  | .bin o a b, rest, k, h => by
    simp only [gE, toks, List.map_append, List.append_assoc]
    simp only [okE, Bool.and_eq_true] at k
    refine noDef a _ k.1.2 ?_
    cases o <;> first | (simp [Verif.Text.isCmp] at k; done) | rfl
  | .slice e, _, _, _ => rfl
  | .array n e, _, _, _ => rfl
  | .struct fs, _, _, _ => rfl

mutual
/-- An operand, up to what follows it. -/
theorem rA (e : GE) {h : Bool} (w : wE .base h e = true) (k : okE e = true) {n : Nat} (hn : 4 * (gE e).length ≤ n) :
    ∃ m, n < m + 4 * (gE e).length ∧ ∀ rest, pPrimary n (!h) (toks (gE e) ++ rest) = pPostfix m (!h) (trE e) rest := by
  have hp := gE_pos e
  obtain ⟨n, rfl⟩ : ∃ m, n = m + 1 := ⟨n - 1, by omega⟩
  cases e with
  | id s => exact ⟨n, by arith, fun rest => by simp [gE, tokL, pPrimary, trE]⟩
  | paren e =>
    simp only [wE, Bool.and_eq_true] at w
    rw [okE] at k
    refine ⟨n, by arith, fun rest => ?_⟩
    have := rE e w.2 k (rest := .op t!")" :: rest) rfl (n := n) (by arith)
    flat [gE]
    simp [pPrimary, this, op_cons, trE]
  | sel e f =>
    simp only [wE, reduceCtorEq, if_false] at w
    rw [okE] at k
    obtain ⟨m, hm, h1⟩ := rA e w k (n := n + 1) (by arith)
    obtain ⟨m, rfl⟩ : ∃ m', m = m' + 1 := ⟨m - 1, by arith⟩
    refine ⟨m, by arith, fun rest => ?_⟩
    flat [gE]
    rw [h1, pPostfix_sel, trE]
  | idx e i =>
    simp only [wE, Bool.and_eq_true] at w
    simp only [okE, Bool.and_eq_true] at k
    obtain ⟨m, hm, h1⟩ := rA e w.1.2 k.1 (n := n + 1) (by arith)
    obtain ⟨m, rfl⟩ : ∃ m', m = m' + 1 := ⟨m - 1, by arith⟩
    refine ⟨m, by arith, fun rest => ?_⟩
    have h2 := rE i w.2 k.2 (rest := .op t!"]" :: rest) rfl (n := m) (by arith)
    have h3 := isOp_head i (.op t!"]" :: rest) (o := t!":") rfl
    flat [gE]
    rw [h1, pPostfix_idx h3 h2, trE]
  | slc e =>
    simp only [wE, Bool.and_eq_true] at w
    rw [okE] at k
    obtain ⟨m, hm, h1⟩ := rA e w.2 k (n := n + 1) (by arith)
    obtain ⟨m, rfl⟩ : ∃ m', m = m' + 2 := ⟨m - 2, by arith⟩
    refine ⟨m + 1, by arith, fun rest => ?_⟩
    flat [gE]
    rw [h1, pPostfix_slc, trE]
  | call e as =>
    simp only [wE, Bool.and_eq_true] at w
    simp only [okE, Bool.and_eq_true] at k
    obtain ⟨m, hm, h1⟩ := rA e w.1.2 k.1 (n := n + 1) (by arith)
    obtain ⟨m, rfl⟩ : ∃ m', m = m' + 1 := ⟨m - 1, by arith⟩
    refine ⟨m, by arith, fun rest => ?_⟩
    cases hnil : argsNil as with
    | true =>
      cases as <;> first | (cases hnil; done) | skip
      flat [gE, gArgs]
      rw [h1, pPostfix_call0, trE, trArgs]
    | false =>
      obtain ⟨h2, h3⟩ := rArgs as hnil w.2 k.2 rest (m := m) (n := m) (by arith) (by arith)
      flat [gE]
      rw [h1, pPostfix_call h3 h2, trE]
  | _ => simp [wE] at w
termination_by (sizeOf e, 0)

theorem rP (e : GE) {h : Bool} (w : wE .prim h e = true) (k : okE e = true) {rest : Toks} (hr : stops (!h) rest = true) {n : Nat}
    (hn : 4 * (gE e).length ≤ n) : pPrimary n (!h) (toks (gE e) ++ rest) = some (trE e, rest) := by
  have base : wE .base h e = true → pPrimary n (!h) (toks (gE e) ++ rest) = some (trE e, rest) := by
    intro w
    obtain ⟨m, hm, h1⟩ := rA e w k hn
    rw [h1, pPostfix_stop hr _ (by omega)]
  cases e with
  | id s => exact base w
  | paren e => exact base (by simpa [wE] using w)
  | sel e f => exact base (by simpa [wE] using w)
  | idx e i => exact base (by simpa [wE] using w)
  | slc e => exact base (by simpa [wE] using w)
  | call e as => exact base (by simpa [wE] using w)
  | int i =>
    obtain ⟨n, rfl⟩ : ∃ m, n = m + 1 := ⟨n - 1, by arith⟩
    have := pPostfix_stop hr (.int i) (n := n) (by arith)
    flat [gE]
    simp [pPrimary, this, trE]
  | str i =>
    obtain ⟨n, rfl⟩ : ∃ m, n = m + 1 := ⟨n - 1, by arith⟩
    have := pPostfix_stop hr (.str (name i)) (n := n) (by arith)
    flat [gE]
    simp [pPrimary, this, trE]
  | slice t =>
    obtain ⟨n, rfl⟩ : ∃ m, n = m + 1 := ⟨n - 1, by arith⟩
    have h1 := rT (.slice t) (h := h) (by simpa [wE] using w) k (stops_dot hr) (n := n) (by arith)
    rw [pPrimary_ty (.inl (by simp [gE, toks, tokL, opL, isOp])) h1]
    exact pPostfix_stop hr _ (by arith)
  | array sz t =>
    obtain ⟨n, rfl⟩ : ∃ m, n = m + 1 := ⟨n - 1, by arith⟩
    have h1 := rT (.array sz t) (h := h) (by simpa [wE] using w) k (stops_dot hr) (n := n) (by arith)
    rw [pPrimary_ty (.inl (by simp [gE, toks, tokL, opL, isOp])) h1]
    exact pPostfix_stop hr _ (by arith)
  | struct fs =>
    obtain ⟨n, rfl⟩ : ∃ m, n = m + 1 := ⟨n - 1, by arith⟩
    have h1 := rT (.struct fs) (h := h) (by simpa [wE] using w) k (stops_dot hr) (n := n) (by arith)
    rw [pPrimary_ty (.inr (by simp [gE, toks, tokL, opL, isKw, Verif.Text.kwStruct])) h1]
    exact pPostfix_stop hr _ (by arith)
  | lit t es =>
    simp only [wE, Bool.and_eq_true, Bool.not_eq_true'] at w
    obtain ⟨⟨⟨⟨-, rfl⟩, w1⟩, w2⟩, w3⟩ := w
    simp only [okE, Bool.and_eq_true] at k
    have key : ∃ m, n < m + 4 * (gE t).length ∧ ∀ rest, pPrimary n true (toks (gE t) ++ .op t!"{" :: rest) = pPostfix m true (trE t) (.op t!"{" :: rest) := by
      rcases gE_head_type w2 with ⟨s, rfl⟩ | ⟨p, s, rfl⟩ | ⟨a, r, h1, h2⟩
      · obtain ⟨m, hm, h1⟩ := rA (.id s) (h := false) rfl rfl (n := n) (by arith)
        exact ⟨m, hm, fun rest => h1 _⟩
      · obtain ⟨m, hm, h1⟩ := rA (.sel (.id p) s) (h := false) rfl rfl (n := n) (by arith)
        exact ⟨m, hm, fun rest => h1 _⟩
      · obtain ⟨n, rfl⟩ : ∃ m, n = m + 1 := ⟨n - 1, by arith⟩
        have h4 : trE t = .ty (trT t) := by
          cases t <;> first | (cases w1; done) | rfl | skip
          · simp [gE, Verif.Text.kwStruct] at h1; rcases h2 with rfl | rfl | rfl <;> simp [Verif.Text.kwStruct] at h1
          · rename_i e f; cases e <;> first | (cases w1; done) | skip
            simp [gE, Verif.Text.kwStruct] at h1; rcases h2 with rfl | rfl | rfl <;> simp [Verif.Text.kwStruct] at h1
        have hp := gE_pos t
        refine ⟨n, by omega, fun rest => ?_⟩
        have h3 := rT t w2 k.1 (rest := .op t!"{" :: rest) rfl (n := n) (by arith)
        rw [h4]
        refine pPrimary_ty ?_ h3
        rcases h2 with rfl | rfl | rfl
        · cases t <;> first | (cases w1; done) | (simp [gE, Verif.Text.kwStruct] at h1; done) | skip
          rename_i e f; cases e <;> first | (cases w1; done) | (simp [gE, Verif.Text.kwStruct] at h1; done) | skip
        · left; simp [h1, toks, tokL, opL, isOp]
        · right; simp [h1, toks, tokL, opL, isKw, Verif.Text.kwStruct]
    obtain ⟨m, hm, h1⟩ := key
    obtain ⟨m, rfl⟩ : ∃ m', m = m' + 1 := ⟨m - 1, by arith⟩
    have h2 := rElts es w3 k.2 rest (n := m) (by arith)
    have h5 : 0 < m := by arith
    flat [gE]
    rw [h1, pPostfix_lit (trT_litType w1 w2) h2, pPostfix_stop hr _ h5, trE]
  | _ => simp [wE] at w
termination_by (sizeOf e, 1)

theorem rU (e : GE) {h : Bool} (w : wE .unary h e = true) (k : okE e = true) {rest : Toks} (hr : stops (!h) rest = true) {n : Nat}
    (hn : 4 * (gE e).length + 1 ≤ n) : pUnary n (!h) (toks (gE e) ++ rest) = some (trE e, rest) := by
  obtain ⟨n, rfl⟩ : ∃ m, n = m + 1 := ⟨n - 1, by arith⟩
  have prim : wE .prim h e = true → pUnary (n + 1) (!h) (toks (gE e) ++ rest) = some (trE e, rest) := by
    intro w
    have h1 := rP e w k hr (n := n) (by arith)
    obtain ⟨t, r, h2, h3, h4⟩ := gE_head_prim w (.inl rfl)
    rw [h2] at h1 ⊢
    simp only [toks, List.map_cons, List.cons_append] at h1 ⊢
    rw [pUnary_prim h3 h4, h1]
  cases e with
  | star e =>
    simp only [wE, Bool.and_eq_true, reduceCtorEq, if_false] at w
    rw [okE] at k
    have := rU e w.2 k hr (n := n) (by arith)
    flat [gE]
    rw [pUnary_op (.inl rfl) this, trE]
    rfl
  | addr e =>
    simp only [wE, Bool.and_eq_true] at w
    rw [okE] at k
    have := rU e w.2 k hr (n := n) (by arith)
    flat [gE]
    rw [pUnary_op (.inr (.inl rfl)) this, trE]
    rfl
  | neg e =>
    simp only [wE, Bool.and_eq_true] at w
    rw [okE] at k
    have := rU e w.2 k hr (n := n) (by arith)
    flat [gE]
    rw [pUnary_op (.inr (.inr rfl)) this, trE]
    rfl
  | bin o a b => simp [wE] at w
  | id s => exact prim (by simp [wE])
  | int s => exact prim (by simp [wE])
  | str s => exact prim (by simp [wE])
  | _ => exact prim (by simpa [wE] using w)
termination_by (sizeOf e, 2)

/-- An expression. -/
theorem rE (e : GE) {h : Bool} (w : wE .expr h e = true) (k : okE e = true) {rest : Toks} (hr : ends (!h) rest = true) {n : Nat}
    (hn : 4 * (gE e).length + 2 ≤ n) : pExpr n (!h) 0 (toks (gE e) ++ rest) = some (trE e, rest) := by
  obtain ⟨n, rfl⟩ : ∃ m, n = m + 1 := ⟨n - 1, by arith⟩
  have unary : wE .unary h e = true → pExpr (n + 1) (!h) 0 (toks (gE e) ++ rest) = some (trE e, rest) := fun w =>
    pExpr_unary (rU e w k (ends_stops hr) (n := n) (by arith)) hr (by arith)
  cases e with
  | bin o a b =>
    simp only [wE, Bool.and_eq_true] at w
    simp only [okE, Bool.and_eq_true] at k
    have h1 := rU a w.1.2 k.1.2 (rest := .op (opL o) :: (toks (gE b) ++ rest)) (stops_cmp w.1.1.2 _) (n := n) (by arith)
    obtain ⟨n, rfl⟩ : ∃ m, n = m + 1 := ⟨n - 1, by arith⟩
    obtain ⟨n, rfl⟩ : ∃ m, n = m + 1 := ⟨n - 1, by arith⟩
    have hb := rU b w.2 k.2 (ends_stops hr) (n := n) (by arith)
    have h2 := pExpr_unary (p := 3) hb hr (by arith)
    have h3 : 0 < n + 1 := by omega
    simp only [toks, List.map_cons, List.map_append, tokL, List.cons_append, List.append_assoc, gE] at *
    rw [pExpr]
    simp only [h1, Option.bind_eq_bind, Option.bind_some]
    rw [pBin_cmp w.1.1.2 h2, pBin_stop hr _ _ h3, trE]
  | id s => exact unary (by simp [wE])
  | int s => exact unary (by simp [wE])
  | str s => exact unary (by simp [wE])
  | _ => exact unary (by simpa [wE] using w)
termination_by (sizeOf e, 3)

theorem rArgs (as : GArgs) (hnil : argsNil as = false) (w : wArgs as = true) (k : okArgs as = true) (rest : Toks) {m n : Nat}
    (hm : 4 * (gArgs as).length ≤ m) (hn : (gArgs as).length ≤ n) :
    sep (pExpr m true 0) n (toks (gArgs as) ++ rest) = some (trArgs as, .op t!")" :: rest) ∧ isOp t!")" (toks (gArgs as) ++ rest) = false := by
  cases as with
  | nil => cases hnil
  | last e =>
    rw [wArgs] at w
    rw [okArgs] at k
    have h1 := rE e w k (rest := .op t!")" :: rest) rfl (n := m) (by arith)
    have h2 := isOp_head e (.op t!")" :: rest) (o := t!")") rfl
    have h3 : 0 < n := by arith
    flat [gArgs]
    exact ⟨sep_one h3 h1 rfl, h2⟩
  | cons e as =>
    simp only [wArgs, Bool.and_eq_true] at w
    simp only [okArgs, Bool.and_eq_true, Bool.not_eq_true'] at k
    have h1 := rE e w.1 k.1.1 (rest := .op t!"," :: (toks (gArgs as) ++ rest)) rfl (n := m) (by arith)
    have h2 := isOp_head e (.op t!"," :: (toks (gArgs as) ++ rest)) (o := t!")") rfl
    obtain ⟨n, rfl⟩ : ∃ m, n = m + 1 := ⟨n - 1, by arith⟩
    have h3 := (rArgs as k.1.2 w.2 k.2 rest (m := m) (n := n) (by arith) (by arith)).1
    flat [gArgs]
    exact ⟨sep_more h1 h3, h2⟩
termination_by (sizeOf as, 4)

theorem rElts (es : GElts) (w : wElts es = true) (k : okElts es = true) (rest : Toks) {n : Nat} (hn : 4 * (gElts es).length ≤ n) :
    pElems n (toks (gElts es) ++ rest) = some (trElts es, rest) := by
  obtain ⟨n, rfl⟩ : ∃ m, n = m + 1 := ⟨n - 1, by cases es <;> arith⟩
  cases es with
  | nil =>
    flat [gElts]
    simp [pElems, isOp_cons, trElts]
  | last e =>
    rw [wElts] at w
    rw [okElts] at k
    obtain ⟨n, rfl⟩ : ∃ m, n = m + 1 := ⟨n - 1, by arith⟩
    have h1 := rE e w k (rest := .op t!"}" :: rest) rfl (n := n) (by arith)
    have h2 := isOp_head e (.op t!"}" :: rest) (o := t!"}") rfl
    have h3 : pElems n (.op t!"}" :: rest) = some ([], rest) := by
      obtain ⟨n, rfl⟩ : ∃ m, n = m + 1 := ⟨n - 1, by arith⟩
      simp [pElems, isOp_cons]
    have h4 := noKey e (.op t!"}" :: rest) k rfl
    flat [gElts]
    rw [pElems_elem h2 h4]
    simp [pElem, h1, isOp_cons, h3, trElts]
  | cons e es =>
    simp only [wElts, Bool.and_eq_true] at w
    simp only [okElts, Bool.and_eq_true] at k
    obtain ⟨n, rfl⟩ : ∃ m, n = m + 1 := ⟨n - 1, by arith⟩
    have h1 := rE e w.1 k.1 (rest := .op t!"," :: (toks (gElts es) ++ rest)) rfl (n := n) (by arith)
    have h2 := isOp_head e (.op t!"," :: (toks (gElts es) ++ rest)) (o := t!"}") rfl
    have h3 := rElts es w.2 k.2 rest (n := n) (by arith)
    have h4 := noKey e (.op t!"," :: (toks (gElts es) ++ rest)) k.1 rfl
    flat [gElts]
    rw [pElems_elem h2 h4]
    simp [pElem, h1, isOp_cons, h3, trElts]
  | lastKey f e =>
    rw [wElts] at w
    rw [okElts] at k
    have h1 := rE e w k (rest := .op t!"}" :: rest) rfl (n := n) (by arith)
    have h3 : pElems n (.op t!"}" :: rest) = some ([], rest) := by
      obtain ⟨n, rfl⟩ : ∃ m, n = m + 1 := ⟨n - 1, by arith⟩
      simp [pElems, isOp_cons]
    flat [gElts]
    simp [pElems, isOp, h1, isOp_cons, h3, trElts]
  | consKey f e es =>
    simp only [wElts, Bool.and_eq_true] at w
    simp only [okElts, Bool.and_eq_true] at k
    have h1 := rE e w.1 k.1 (rest := .op t!"," :: (toks (gElts es) ++ rest)) rfl (n := n) (by arith)
    have h3 := rElts es w.2 k.2 rest (n := n) (by arith)
    flat [gElts]
    simp [pElems, isOp, h1, isOp_cons, h3, trElts]
termination_by (sizeOf es, 4)
end

end Verif.Lang.Rd
