/-
No tokens are to be read as two different Go files: statements, declarations, files.
-/
import Verif.Text.GoParse

namespace Verif.Text

/-- The tokens end a statement list. -/
def endsList : List Tok → Bool
  | [] => true
  | .op .rbrace :: _ => true
  | t :: _ => t == kwCase || t == kwDefault

/-- Statements that begin with an expression. -/
def pSimple (n : Nat) (ts : List Tok) : Option (GS × List Tok) :=
  match pE false n ts with
  | some (a, .op .assign :: r) =>
    match pE false n r with
    | some (b, r') => some (.assign a b, r')
    | none => none
  | some (.id x, .op .define :: r) =>
    match pE false n r with
    | some (b, r') => some (.define x b, r')
    | none => none
  | some (a, r) => some (.expr a, r)
  | none => none

/-- `return` and what follows. -/
def pRet (n : Nat) : List Tok → Option (GS × List Tok)
  | [] => some (.ret0, [])
  | .semi :: r => some (.ret0, .semi :: r)
  | .op .rbrace :: r => some (.ret0, .op .rbrace :: r)
  | ts =>
    match pE false n ts with
    | some (a, .op .comma :: r) =>
      match pE false n r with
      | some (b, r') => some (.ret2 a b, r')
      | none => none
    | some (a, r) => some (.ret1 a, r)
    | none => none

mutual
def pS : Nat → List Tok → Option (GS × List Tok)
  | 0, _ => none
  | _ + 1, [] => none
  | n + 1, .op .lbrace :: r =>
    match pSs n r with
    | some (b, .op .rbrace :: r') => some (.block b, r')
    | _ => none
  | n + 1, .kw k :: r =>
    if k = t!"var" then
      match r with
      | .ident x :: r =>
        match pT n r with
        | some (t, r') => some (.var x t, r')
        | none => none
      | _ => none
    else if k = t!"if" then
      match pE true n r with
      | some (c, .op .lbrace :: r) =>
        match pSs n r with
        | some (b, .op .rbrace :: .kw k :: .op .lbrace :: r) =>
          if k = t!"else" then
            match pSs n r with
            | some (b', .op .rbrace :: r') => some (.ifElse c b b', r')
            | _ => none
          else some (.ifThen c b, .kw k :: .op .lbrace :: r)
        | some (b, .op .rbrace :: r') => some (.ifThen c b, r')
        | _ => none
      | _ => none
    else if k = t!"for" then
      match r with
      | .ident x :: .op .define :: r =>
        match pE true n r with
        | some (a, .semi :: r) =>
          match pE true n r with
          | some (c, .semi :: .ident y :: .op .inc :: .op .lbrace :: r) =>
            match pSs n r with
            | some (b, .op .rbrace :: r') => some (.forInc x a c y b, r')
            | _ => none
          | _ => none
        | _ => none
      | _ => none
    else if k = t!"switch" then
      match pE true n r with
      | some (e, .op .lbrace :: r) =>
        match pCs n r with
        | some (cs, .op .rbrace :: r') => some (.switch e cs, r')
        | _ => none
      | _ => none
    else if k = t!"return" then pRet n r
    else if k = t!"fallthrough" then some (.fall, r)
    else pSimple n (.kw k :: r)
  | n + 1, ts => pSimple n ts
def pSs : Nat → List Tok → Option (GSs × List Tok)
  | 0, _ => none
  | n + 1, ts =>
    if endsList ts then some (.nil, ts)
    else
      match pS n ts with
      | some (s, .semi :: r) =>
        match pSs n r with
        | some (b, r') => some (.cons s b, r')
        | none => none
      | some (s, r) => some (.last s, r)
      | none => none
def pCs : Nat → List Tok → Option (GCs × List Tok)
  | 0, _ => none
  | n + 1, .kw k :: r =>
    if k = t!"case" then
      match pE false n r with
      | some (e, .op .colon :: r) =>
        match pSs n r with
        | some (b, r) =>
          match pCs n r with
          | some (cs, r') => some (.case e b cs, r')
          | none => none
        | none => none
      | _ => none
    else if k = t!"default" then
      match r with
      | .op .colon :: r =>
        match pSs n r with
        | some (b, r) =>
          match pCs n r with
          | some (cs, r') => some (.default b cs, r')
          | none => none
        | none => none
      | _ => none
    else some (.nil, .kw k :: r)
  | _ + 1, ts => some (.nil, ts)
end

/-- What may follow a statement: a semicolon or a closing brace. -/
def folS : List Tok → Bool
  | .semi :: _ => true
  | .op .rbrace :: _ => true
  | _ => false

theorem folS_E {r : List Tok} (h : folS r = true) : folE false r = true := by
  cases r with
  | nil => rfl
  | cons t r =>
    cases t with
    | op o => cases o <;> first | exact Bool.noConfusion h | rfl
    | _ => rfl

theorem folS_T {r : List Tok} (h : folS r = true) : folT r = true := folU_T (folE_U (folS_E h))

/-- What may follow a statement list: a closing brace, or, if every statement has its semicolon, another
clause. -/
def folSs (closed : Bool) : List Tok → Bool
  | .op .rbrace :: _ => true
  | t :: _ => closed && (t == kwCase || t == kwDefault)
  | [] => false

theorem folSs_ends {c : Bool} {r : List Tok} (h : folSs c r = true) : endsList r = true := by
  cases r with
  | nil => rfl
  | cons t r =>
    cases t with
    | op o => cases o <;> first | rfl | (simp [folSs, kwCase, kwDefault] at h)
    | kw k => simp only [folSs, Bool.and_eq_true] at h; exact h.2
    | _ => simp [folSs, kwCase, kwDefault] at h

theorem folSs_last {r : List Tok} (h : folSs false r = true) : folS r = true := by
  cases r with
  | nil => cases h
  | cons t r =>
    cases t with
    | op o => cases o <;> first | rfl | (simp [folSs] at h)
    | _ => simp [folSs] at h

/-- An expression at the beginning of a statement. -/
theorem pS_simple {e : GE} {n : Nat} {r : List Tok} (hw : wE .expr false e = true) :
    pS (n + 1) (gE e ++ r) = pSimple n (gE e ++ r) := by
  obtain ⟨t, r', he, ht⟩ := gE_headE hw
  rw [he]
  cases t with
  | op o => cases o <;> first | rfl | cases ht
  | kw k =>
    have : k = t!"struct" := by simpa [headE] using ht
    subst this
    rfl
  | _ => rfl

theorem pRet_expr {e : GE} {n : Nat} {r : List Tok} (hw : wE .expr false e = true) :
    pRet n (gE e ++ r) =
      match pE false n (gE e ++ r) with
      | some (a, .op .comma :: r) =>
        match pE false n r with
        | some (b, r') => some (.ret2 a b, r')
        | none => none
      | some (a, r) => some (.ret1 a, r)
      | none => none := by
  obtain ⟨t, r', he, ht⟩ := gE_headE hw
  rw [he]
  cases t with
  | op o => cases o <;> first | rfl | cases ht
  | semi => cases ht
  | _ => rfl

/-- A statement does not begin like the end of a list. -/
theorem gS_head (s : GS) (hw : wS s = true) (r : List Tok) : endsList (gS s ++ r) = false := by
  have hE : ∀ (e : GE) (r : List Tok), wE .expr false e = true → endsList (gE e ++ r) = false := by
    intro e r hw
    obtain ⟨t, r', he, ht⟩ := gE_headE hw
    rw [he]
    cases t with
    | op o => cases o <;> first | rfl | cases ht
    | kw k =>
      have : k = t!"struct" := by simpa [headE] using ht
      subst this
      rfl
    | _ => rfl
  cases s with
  | expr e => exact hE e r hw
  | assign a b =>
    simp only [wS, Bool.and_eq_true] at hw
    simp only [gS, List.append_assoc]
    exact hE a _ hw.1
  | _ => rfl

theorem gSs_head {b : GSs} (hw : wSs b = true) {r : List Tok} :
    b ≠ .nil → endsList (gSs b ++ r) = false := by
  intro hb
  cases b with
  | nil => exact absurd rfl hb
  | last s => exact gS_head s hw r
  | cons s b =>
    simp only [wSs, Bool.and_eq_true] at hw
    simp only [gSs, List.append_assoc]
    exact gS_head s hw.1 _

theorem gCs_fol {b : GSs} {cs : GCs} {r : List Tok} (h : (b.closed || cs.isNil) = true) :
    folSs b.closed (gCs cs ++ .op .rbrace :: r) = true := by
  cases cs with
  | nil => rfl
  | case e b' cs =>
    have : b.closed = true := by simpa [GCs.isNil] using h
    simp only [this, gCs, List.cons_append]
    rfl
  | default b' cs =>
    have : b.closed = true := by simpa [GCs.isNil] using h
    simp only [this, gCs, List.cons_append]
    rfl

mutual
theorem cS : ∀ (s : GS), wS s = true → ∀ r, folS r = true → Ev (fun n => pS n (gS s ++ r)) (s, r)
  | .expr e, hw, r, hf => by
    refine (cE e .expr false hw r (folS_E hf)).mk1 fun n hn => ?_
    simp only [gS]
    rw [pS_simple hw]
    simp only [pSimple, hn]
    cases r with
    | nil => cases hf
    | cons t r =>
      cases t with
      | op o => cases o <;> first | exact Bool.noConfusion hf | (cases e <;> rfl)
      | _ => cases e <;> rfl
  | .assign a b, hw, r, hf => by
    simp only [wS, Bool.and_eq_true] at hw
    refine Ev.mk2 (cE a .expr false hw.1 (.op .assign :: (gE b ++ r)) rfl) (cE b .expr false hw.2 r (folS_E hf))
      fun n hn hn' => ?_
    simp only [gS, List.append_assoc, List.cons_append]
    rw [pS_simple hw.1]
    simp only [pSimple, hn, hn']
  | .define x e, hw, r, hf => by
    refine Ev.mk2 (good_id_expr x (.op .define :: (gE e ++ r)) rfl) (cE e .expr false hw r (folS_E hf))
      fun n hn hn' => ?_
    have := pS_simple (e := .id x) (n := n) (r := .op .define :: (gE e ++ r)) rfl
    simp only [pSimple, hn, hn'] at this
    exact this
  | .var x t, hw, r, hf => by
    refine (cE t .type false hw r (folS_T hf)).mk1 fun n hn => ?_
    simp only [gS, List.cons_append, kwVar, pS, if_true, hn]
  | .block b, hw, r, hf => by
    refine (cSs b hw (.op .rbrace :: r) rfl).mk1 fun n hn => ?_
    simp only [gS, List.cons_append, List.append_assoc, List.nil_append, pS, hn]
  | .ifThen c b, hw, r, hf => by
    simp only [wS, Bool.and_eq_true] at hw
    refine Ev.mk2 (cE c .expr true hw.1 (.op .lbrace :: (gSs b ++ .op .rbrace :: r)) rfl)
      (cSs b hw.2 (.op .rbrace :: r) rfl) fun n hn hn' => ?_
    simp only [gS, List.cons_append, List.append_assoc, List.nil_append, pS, kwIf, hn, hn']
    rw [if_neg (by decide), if_pos trivial]
    cases r with
    | nil => rfl
    | cons t r =>
      cases t with
      | kw k => cases hf
      | _ => rfl
  | .ifElse c b b', hw, r, hf => by
    simp only [wS, Bool.and_eq_true] at hw
    refine Ev.mk3 (cE c .expr true hw.1.1
        (.op .lbrace :: (gSs b ++ .op .rbrace :: kwElse :: .op .lbrace :: (gSs b' ++ .op .rbrace :: r))) rfl)
      (cSs b hw.1.2 (.op .rbrace :: kwElse :: .op .lbrace :: (gSs b' ++ .op .rbrace :: r)) rfl)
      (cSs b' hw.2 (.op .rbrace :: r) rfl) fun n hn hn' hn'' => ?_
    simp only [kwElse] at hn hn'
    simp only [gS, List.cons_append, List.append_assoc, List.nil_append, pS, kwIf, hn, hn', kwElse]
    rw [if_neg (by decide), if_pos trivial]
    simp only [if_true, hn'']
  | .forInc x a c y b, hw, r, hf => by
    simp only [wS, Bool.and_eq_true] at hw
    refine Ev.mk3 (cE a .expr true hw.1.1 (.semi :: (gE c ++ .semi :: .ident y :: .op .inc :: .op .lbrace ::
        (gSs b ++ .op .rbrace :: r))) rfl)
      (cE c .expr true hw.1.2 (.semi :: .ident y :: .op .inc :: .op .lbrace :: (gSs b ++ .op .rbrace :: r)) rfl)
      (cSs b hw.2 (.op .rbrace :: r) rfl) fun n hn hn' hn'' => ?_
    simp only [gS, List.cons_append, List.append_assoc, List.nil_append, pS, kwFor, hn, hn', hn'']
    rfl
  | .switch e cs, hw, r, hf => by
    simp only [wS, Bool.and_eq_true] at hw
    refine Ev.mk2 (cE e .expr true hw.1 (.op .lbrace :: (gCs cs ++ .op .rbrace :: r)) rfl)
      (cCs cs hw.2 r) fun n hn hn' => ?_
    simp only [gS, List.cons_append, List.append_assoc, List.nil_append, pS, kwSwitch, hn, hn']
    rfl
  | .ret0, hw, r, hf => by
    refine .mk0 fun n => ?_
    cases r with
    | nil => cases hf
    | cons t r =>
      cases t with
      | op o => cases o <;> first | exact Bool.noConfusion hf | rfl
      | semi => rfl
      | _ => cases hf
  | .ret1 a, hw, r, hf => by
    refine (cE a .expr false hw r (folS_E hf)).mk1 fun n hn => ?_
    have : pS (n + 1) (gS (.ret1 a) ++ r) = pRet n (gE a ++ r) := rfl
    rw [this, pRet_expr hw, hn]
    cases r with
    | nil => rfl
    | cons t r =>
      cases t with
      | op o => cases o <;> first | exact Bool.noConfusion hf | rfl
      | _ => rfl
  | .ret2 a b, hw, r, hf => by
    simp only [wS, Bool.and_eq_true] at hw
    refine Ev.mk2 (cE a .expr false hw.1 (.op .comma :: (gE b ++ r)) rfl) (cE b .expr false hw.2 r (folS_E hf))
      fun n hn hn' => ?_
    have : pS (n + 1) (gS (.ret2 a b) ++ r) = pRet n (gE a ++ .op .comma :: (gE b ++ r)) := by
      simp only [gS, List.cons_append, List.append_assoc]; rfl
    rw [this, pRet_expr hw.1, hn]
    simp only [hn']
  | .fall, _, r, _ => .mk0 fun n => rfl
theorem cSs : ∀ (b : GSs), wSs b = true → ∀ r, folSs b.closed r = true → Ev (fun n => pSs n (gSs b ++ r)) (b, r)
  | .nil, _, r, hf => .mk0 fun n => by
    simp only [gSs, List.nil_append, pSs, folSs_ends hf, if_true]
  | .last s, hw, r, hf => by
    refine (cS s hw r (folSs_last hf)).mk1 fun n hn => ?_
    simp only [gSs, pSs, gS_head s hw r, Bool.false_eq_true, if_false, hn]
    cases r with
    | nil => rfl
    | cons t r =>
      cases t with
      | semi => cases hf
      | _ => rfl
  | .cons s b, hw, r, hf => by
    simp only [wSs, Bool.and_eq_true] at hw
    refine Ev.mk2 (cS s hw.1 (.semi :: (gSs b ++ r)) rfl) (cSs b hw.2 r hf) fun n hn hn' => ?_
    simp only [gSs, List.append_assoc, List.cons_append, pSs, gS_head s hw.1, Bool.false_eq_true, if_false, hn,
      hn']
theorem cCs : ∀ (cs : GCs), wCs cs = true → ∀ r,
    Ev (fun n => pCs n (gCs cs ++ .op .rbrace :: r)) (cs, .op .rbrace :: r)
  | .nil, _, r => .mk0 fun n => rfl
  | .case e b cs, hw, r => by
    simp only [wCs, Bool.and_eq_true] at hw
    refine Ev.mk3 (cE e .expr false hw.1.1.1 (.op .colon :: (gSs b ++ (gCs cs ++ .op .rbrace :: r))) rfl)
      (cSs b hw.1.1.2 (gCs cs ++ .op .rbrace :: r) (gCs_fol hw.1.2)) (cCs cs hw.2 r) fun n hn hn' hn'' => ?_
    simp only [gCs, List.cons_append, List.append_assoc, pCs, kwCase, if_true, hn, hn', hn'']
  | .default b cs, hw, r => by
    simp only [wCs, Bool.and_eq_true] at hw
    refine Ev.mk2 (cSs b hw.1.1 (gCs cs ++ .op .rbrace :: r) (gCs_fol hw.1.2)) (cCs cs hw.2 r)
      fun n hn hn' => ?_
    simp only [gCs, List.cons_append, List.append_assoc, pCs, kwDefault, hn, hn']
    rfl
end

/-! ### Declarations -/

/-- Parameters after the opening parenthesis. -/
def pPs : Nat → List Tok → Option (List (List Nat × GE) × List Tok)
  | 0, _ => none
  | _ + 1, .op .rparen :: r => some ([], r)
  | n + 1, .ident x :: r =>
    match pT n r with
    | some (t, .op .rparen :: r) => some ([(x, t)], r)
    | some (t, .op .comma :: r) =>
      match pPs n r with
      | some (l, r') => some ((x, t) :: l, r')
      | none => none
    | _ => none
  | _ + 1, _ => none

def pRes (n : Nat) : List Tok → Option (GRes × List Tok)
  | .op .lbrace :: r => some (.none, .op .lbrace :: r)
  | .op .lparen :: r =>
    match pPs n r with
    | some (l, r') => some (.named l, r')
    | none => none
  | ts =>
    match pT n ts with
    | some (t, r) => some (.type t, r)
    | none => none

/-- A type that may be missing. -/
def pOptTy (n : Nat) : List Tok → Option (Option GE × List Tok)
  | .op .rparen :: r => some (none, .op .rparen :: r)
  | .op .assign :: r => some (none, .op .assign :: r)
  | .semi :: r => some (none, .semi :: r)
  | ts =>
    match pT n ts with
    | some (t, r) => some (some t, r)
    | none => none

def pMeths : Nat → List Tok → Option (List GMeth × List Tok)
  | 0, _ => none
  | _ + 1, .op .rbrace :: r => some ([], r)
  | n + 1, .ident x :: .op .lparen :: r =>
    match Text.pOptTy n r with
    | some (a, .op .rparen :: r) =>
      match Text.pOptTy n r with
      | some (b, .semi :: r) =>
        match pMeths n r with
        | some (l, r') => some (⟨x, a, b⟩ :: l, r')
        | none => none
      | _ => none
    | _ => none
  | _ + 1, _ => none

/-- The name of a function and what follows. -/
def pFunc (n : Nat) (recv : Option (List Nat × GE)) : List Tok → Option (GD × List Tok)
  | .ident x :: .op .lparen :: r =>
    match pPs n r with
    | some (ps, r) =>
      match pRes n r with
      | some (res, .op .lbrace :: r) =>
        match pSs n r with
        | some (b, .op .rbrace :: r') => some (.func recv x ps res b, r')
        | _ => none
      | _ => none
    | none => none
  | _ => none

def pD (n : Nat) : List Tok → Option (GD × List Tok)
  | .kw k :: r =>
    if k = t!"const" then
      match r with
      | .ident x :: r =>
        match Text.pOptTy n r with
        | some (t, .op .assign :: r) =>
          match pE false n r with
          | some (v, r') => some (.const x t v, r')
          | none => none
        | _ => none
      | _ => none
    else if k = t!"type" then
      match r with
      | .ident x :: .kw k :: .op .lbrace :: r =>
        if k = t!"interface" then
          match pMeths n r with
          | some (ms, r') => some (.iface x ms, r')
          | none => none
        else
          match pT n (.kw k :: .op .lbrace :: r) with
          | some (t, r') => some (.type x t, r')
          | none => none
      | .ident x :: r =>
        match pT n r with
        | some (t, r') => some (.type x t, r')
        | none => none
      | _ => none
    else if k = t!"func" then
      match r with
      | .op .lparen :: r =>
        match pPs n r with
        | some ([p], r) => pFunc n (some p) r
        | _ => none
      | r => pFunc n none r
    else none
  | _ => none

def pDs : Nat → List Tok → Option (List GD)
  | 0, _ => none
  | _ + 1, [] => some []
  | n + 1, ts =>
    match pD n ts with
    | some (d, .semi :: r) =>
      match pDs n r with
      | some l => some (d :: l)
      | none => none
    | _ => none

def pImports (n : Nat) (pkg : List Nat) (acc : List (List Nat)) : Nat → List Tok → Option GFile
  | 0, _ => none
  | m + 1, .kw k :: r =>
    if k = t!"import" then
      match r with
      | .str s :: .semi :: r => pImports n pkg (acc ++ [s]) m r
      | _ => none
    else
      match pDs n (.kw k :: r) with
      | some l => some ⟨pkg, acc, l⟩
      | none => none
  | _ + 1, ts =>
    match pDs n ts with
    | some l => some ⟨pkg, acc, l⟩
    | none => none

def pFile (n : Nat) : List Tok → Option GFile
  | .kw _ :: .ident p :: .semi :: r => pImports n p [] n r
  | _ => none

theorem Ev.map1 {α β} {f : Nat → Option α} {g : Nat → Option β} {x : α} {y : β} (hg : Ev g y)
    (H : ∀ n, g n = some y → f n = some x) : Ev f x := by
  obtain ⟨N, hg⟩ := hg
  exact ⟨N, fun n hn => H n (hg n hn)⟩

theorem Ev.map2 {α β γ} {f : Nat → Option α} {g : Nat → Option β} {k : Nat → Option γ} {x : α} {y : β} {z : γ}
    (hg : Ev g y) (hk : Ev k z) (H : ∀ n, g n = some y → k n = some z → f n = some x) : Ev f x := by
  obtain ⟨N, hg⟩ := hg
  obtain ⟨M, hk⟩ := hk
  exact ⟨N + M, fun n hn => H n (hg n (by omega)) (hk n (by omega))⟩

theorem Ev.map3 {α β γ δ} {f : Nat → Option α} {g : Nat → Option β} {k : Nat → Option γ} {j : Nat → Option δ}
    {x : α} {y : β} {z : γ} {u : δ} (hg : Ev g y) (hk : Ev k z) (hj : Ev j u)
    (H : ∀ n, g n = some y → k n = some z → j n = some u → f n = some x) : Ev f x := by
  obtain ⟨N, hg⟩ := hg
  obtain ⟨M, hk⟩ := hk
  obtain ⟨L, hj⟩ := hj
  exact ⟨N + M + L, fun n hn => H n (hg n (by omega)) (hk n (by omega)) (hj n (by omega))⟩

theorem Ev.const {α} (x : α) : Ev (fun _ => some x) x := ⟨0, fun _ _ => rfl⟩

/-- Tokens a type may begin with. -/
def headT : Tok → Bool
  | .ident _ => true
  | .op .lbrack => true
  | .op .mul => true
  | .kw s => s == t!"struct"
  | _ => false

theorem gE_headT {e : GE} (hw : wE .type false e = true) : ∃ t r, gE e = t :: r ∧ headT t = true := by
  cases e with
  | id s => exact ⟨_, _, rfl, rfl⟩
  | sel e f =>
    cases e with
    | id s => exact ⟨_, _, rfl, rfl⟩
    | _ => simp [wE] at hw
  | slice e => exact ⟨_, _, rfl, rfl⟩
  | array k e => exact ⟨_, _, rfl, rfl⟩
  | struct fs => exact ⟨_, _, rfl, rfl⟩
  | star e => exact ⟨_, _, rfl, rfl⟩
  | _ => simp [wE] at hw

theorem cPs : ∀ (l : List (List Nat × GE)), (l.all fun p => wE .type false p.2) = true →
    ∀ r, Ev (fun n => pPs n (gPs l ++ r)) (l, r)
  | [], _, r => .mk0 fun n => rfl
  | [p], hw, r => by
    have hw' : wE .type false p.2 = true := by simpa using hw
    refine (cE p.2 .type false hw' (.op .rparen :: r) rfl).mk1 fun n hn => ?_
    simp only [gPs, List.cons_append, List.append_assoc, List.nil_append, pPs, hn]
  | p :: q :: l, hw, r => by
    rw [List.all_cons, Bool.and_eq_true] at hw
    refine Ev.mk2 (cE p.2 .type false hw.1 (.op .comma :: (gPs (q :: l) ++ r)) rfl) (cPs (q :: l) hw.2 r)
      fun n hn hn' => ?_
    simp only [gPs, List.cons_append, List.append_assoc, pPs, hn]
    rw [hn']

theorem cRes : ∀ (x : GRes), wRes x = true → ∀ r, Ev (fun n => pRes n (gRes x ++ .op .lbrace :: r))
    (x, .op .lbrace :: r)
  | .none, _, r => ⟨0, fun _ _ => rfl⟩
  | .named l, hw, r => (cPs l hw (.op .lbrace :: r)).map1 fun n hn => by
      simp only [gRes, List.cons_append, pRes, hn]
  | .type t, hw, r => by
    refine (cE t .type false hw (.op .lbrace :: r) rfl).map1 fun n hn => ?_
    obtain ⟨k, r', he, ht⟩ := gE_headT hw
    simp only [gRes]
    rw [he] at hn ⊢
    have : pRes n (k :: r' ++ .op .lbrace :: r) =
        match pT n (k :: r' ++ .op .lbrace :: r) with
        | some (t, r) => some (.type t, r)
        | none => none := by
      cases k with
      | op o => cases o <;> first | rfl | cases ht
      | _ => rfl
    rw [this, hn]

theorem cOptTy (x : Option GE) (hw : wOpt x = true) (t : Tok) (r : List Tok)
    (ht : t = .op .rparen ∨ t = .op .assign ∨ t = .semi) :
    Ev (fun n => Text.pOptTy n (gOpt x ++ t :: r)) (x, t :: r) := by
  cases x with
  | none => exact ⟨0, fun _ _ => by rcases ht with rfl | rfl | rfl <;> rfl⟩
  | some e =>
    have hf : folT (t :: r) = true := by rcases ht with rfl | rfl | rfl <;> rfl
    refine (cE e .type false hw (t :: r) hf).map1 fun n hn => ?_
    obtain ⟨k, r', he, ht⟩ := gE_headT hw
    simp only [gOpt]
    rw [he] at hn ⊢
    have : Text.pOptTy n (k :: r' ++ t :: r) =
        match pT n (k :: r' ++ t :: r) with
        | some (t, r) => some (some t, r)
        | none => none := by
      cases k with
      | op o => cases o <;> first | rfl | cases ht
      | semi => cases ht
      | _ => rfl
    rw [this, hn]

theorem cMeths : ∀ (l : List GMeth), (l.all fun m => wOpt m.arg && wOpt m.res) = true →
    ∀ r, Ev (fun n => pMeths n (l.flatMap gMeth ++ .op .rbrace :: r)) (l, r)
  | [], _, r => .mk0 fun n => rfl
  | m :: l, hw, r => by
    simp only [List.all_cons, Bool.and_eq_true] at hw
    refine Ev.mk3 (cOptTy m.arg hw.1.1 (.op .rparen)
        (gOpt m.res ++ .semi :: (l.flatMap gMeth ++ .op .rbrace :: r)) (.inl rfl))
      (cOptTy m.res hw.1.2 .semi (l.flatMap gMeth ++ .op .rbrace :: r) (.inr (.inr rfl)))
      (cMeths l (by simpa using hw.2) r) fun n hn hn' hn'' => ?_
    simp only [List.flatMap_cons, gMeth, List.cons_append, List.append_assoc, List.nil_append, pMeths, hn, hn',
      hn'']

theorem cFunc (recv : Option (List Nat × GE)) (x : List Nat) (ps : List (List Nat × GE)) (res : GRes) (b : GSs)
    (h1 : (ps.all fun p => wE .type false p.2) = true) (h2 : wRes res = true) (h3 : wSs b = true) (r : List Tok) :
    Ev (fun n => pFunc n recv (.ident x :: .op .lparen :: (gPs ps ++ (gRes res ++
      .op .lbrace :: (gSs b ++ .op .rbrace :: r))))) (.func recv x ps res b, r) := by
  refine Ev.map3 (cPs ps h1 (gRes res ++ .op .lbrace :: (gSs b ++ .op .rbrace :: r)))
    (cRes res h2 (gSs b ++ .op .rbrace :: r)) (cSs b h3 (.op .rbrace :: r) rfl) fun n hn hn' hn'' => ?_
  simp only [pFunc, hn, hn', hn'']

theorem cD : ∀ (d : GD), wD d = true → ∀ r, Ev (fun n => pD n (gD d ++ .semi :: r)) (d, .semi :: r)
  | .const x t v, hw, r => by
    simp only [wD, Bool.and_eq_true] at hw
    refine Ev.map2 (cOptTy t hw.1 (.op .assign) (gE v ++ .semi :: r) (.inr (.inl rfl)))
      (cE v .expr false hw.2 (.semi :: r) rfl) fun n hn hn' => ?_
    simp only [gD, List.cons_append, List.append_assoc, kwConst, pD, if_true, hn, hn']
  | .type x t, hw, r => by
    refine (cE t .type false hw (.semi :: r) rfl).map1 fun n hn => ?_
    obtain ⟨k, r', he, ht⟩ := gE_headT hw
    have : pD n (gD (.type x t) ++ .semi :: r) =
        match pT n (gE t ++ .semi :: r) with
        | some (t, r') => some (.type x t, r')
        | none => none := by
      simp only [gD, List.cons_append]
      rw [he]
      cases k with
      | kw k =>
        have : k = t!"struct" := by simpa [headT] using ht
        subst this
        cases r' with
        | nil => rfl
        | cons a r' =>
          cases a with
          | op o => cases o <;> rfl
          | _ => rfl
      | _ => rfl
    rw [this, hn]
  | .iface x ms, hw, r => by
    refine (cMeths ms hw (.semi :: r)).map1 fun n hn => ?_
    simp only [gD, List.cons_append, List.append_assoc, List.nil_append, kwType, kwInterface, pD, if_true, hn]
    rfl
  | .func recv x ps res b, hw, r => by
    simp only [wD, Bool.and_eq_true] at hw
    have hF := fun q => cFunc q x ps res b hw.1.1.2 hw.1.2 hw.2 (.semi :: r)
    cases recv with
    | none =>
      refine (hF none).map1 fun n hn => ?_
      simp only [gD, gRecv, List.cons_append, List.append_assoc, List.nil_append, kwFunc] at hn ⊢
      rw [← hn]
      rfl
    | some p =>
      have hp : ([p].all fun p => wE .type false p.2) = true := by simpa using hw.1.1.1
      refine Ev.map2 (hF (some p)) (cPs [p] hp (.ident x :: .op .lparen :: (gPs ps ++ (gRes res ++
        .op .lbrace :: (gSs b ++ .op .rbrace :: .semi :: r))))) fun n hn hn' => ?_
      have : pD n (gD (.func (some p) x ps res b) ++ .semi :: r) =
          match pPs n (gPs [p] ++ (.ident x :: .op .lparen :: (gPs ps ++ (gRes res ++
            .op .lbrace :: (gSs b ++ .op .rbrace :: .semi :: r))))) with
          | some ([p], r) => pFunc n (some p) r
          | _ => none := by
        simp only [gD, gRecv, List.cons_append, List.append_assoc, List.nil_append]
        rfl
      rw [this, hn']
      exact hn

theorem gD_kw (d : GD) : ∃ k r, gD d = .kw k :: r ∧ k ≠ t!"import" := by
  cases d <;> exact ⟨_, _, rfl, by decide⟩

theorem cDs : ∀ (l : List GD), l.all wD = true → Ev (fun n => pDs n (l.flatMap fun d => gD d ++ [.semi])) l
  | [], _ => .mk0 fun n => rfl
  | d :: l, hw => by
    simp only [List.all_cons, Bool.and_eq_true] at hw
    refine Ev.mk2 (cD d hw.1 (l.flatMap fun d => gD d ++ [.semi])) (cDs l hw.2) fun n hn hn' => ?_
    obtain ⟨k, r, he, _⟩ := gD_kw d
    simp only [List.flatMap_cons, List.append_assoc, List.cons_append, List.nil_append]
    rw [he] at hn ⊢
    simp only [List.cons_append] at hn ⊢
    simp only [pDs, hn, hn']

theorem cImports (pkg : List Nat) (ds : List GD) (hw : ds.all wD = true) : ∀ (l acc : List (List Nat)),
    ∃ N, ∀ n m, N ≤ n → l.length < m → pImports n pkg acc m
      (l.flatMap (fun s => [kwImport, .str s, .semi]) ++ ds.flatMap fun d => gD d ++ [.semi]) =
        some ⟨pkg, acc ++ l, ds⟩
  | [], acc => by
    obtain ⟨N, hN⟩ := cDs ds hw
    refine ⟨N, fun n m hn hm => ?_⟩
    obtain ⟨m, rfl⟩ : ∃ k, m = k + 1 := ⟨m - 1, by simp at hm; omega⟩
    have h := hN n hn
    simp only [List.flatMap_nil, List.nil_append, List.append_nil]
    cases ds with
    | nil =>
      simp only [List.flatMap_nil] at h ⊢
      simp only [pImports, h]
    | cons d ds =>
      obtain ⟨k, r, he, hk⟩ := gD_kw d
      simp only [List.flatMap_cons, he, List.cons_append] at h ⊢
      simp only [pImports, hk, if_false, h]
  | s :: l, acc => by
    obtain ⟨N, hN⟩ := cImports pkg ds hw l (acc ++ [s])
    refine ⟨N, fun n m hn hm => ?_⟩
    obtain ⟨m, rfl⟩ : ∃ k, m = k + 1 := ⟨m - 1, by simp at hm; omega⟩
    have h := hN n m hn (by simp at hm; omega)
    simp only [List.flatMap_cons, List.cons_append, List.nil_append, kwImport, pImports, if_true]
    rw [show acc ++ s :: l = acc ++ [s] ++ l by simp]
    exact h

theorem cFile (f : GFile) (hw : wFile f = true) : Ev (fun n => pFile n (gFile f)) f := by
  obtain ⟨N, hN⟩ := cImports f.pkg f.decls hw f.imports []
  refine ⟨N + f.imports.length + 1, fun n hn => ?_⟩
  exact hN n n (by omega) (by omega)

/-- Tokens are the tokens of at most one file. -/
theorem gFile_inj {f f' : GFile} (h : wFile f = true) (h' : wFile f' = true) (he : gFile f = gFile f') :
    f = f' := by
  have h1 := cFile f h
  rw [he] at h1
  exact h1.unique (cFile f' h')

/-- A text is at most one Go file. -/
theorem IsGo.unique {t : Text} {f f' : GFile} (h : IsGo t f) (h' : IsGo t f') : f = f' :=
  gFile_inj h.2 h'.2 (Option.some.inj (h.1.symm.trans h'.1))

end Verif.Text
