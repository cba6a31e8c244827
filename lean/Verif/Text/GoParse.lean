/-
No tokens are to be read as two different Go files.  Proved with a parser that finds the tree; its
recursion is bounded by a number, which only has to be large enough.
-/
import Verif.Text.GoSyn

namespace Verif.Text

mutual
def pE (h : Bool) : Nat → List Tok → Option (GE × List Tok)
  | 0, _ => none
  | n + 1, ts =>
    match pU h n ts with
    | some (a, .op o :: r) =>
      if isCmp o then
        match pU h n r with
        | some (b, r') => some (.bin o a b, r')
        | none => none
      else some (a, .op o :: r)
    | x => x
def pU (h : Bool) : Nat → List Tok → Option (GE × List Tok)
  | 0, _ => none
  | n + 1, .op .mul :: r =>
    match pU h n r with
    | some (e, r') => some (.star e, r')
    | none => none
  | n + 1, .op .and :: r =>
    match pU h n r with
    | some (e, r') => some (.addr e, r')
    | none => none
  | n + 1, .op .sub :: r =>
    match pU h n r with
    | some (e, r') => some (.neg e, r')
    | none => none
  | n + 1, ts => pP h n ts
def pP (h : Bool) : Nat → List Tok → Option (GE × List Tok)
  | 0, _ => none
  | n + 1, .ident s :: r => pX h n (.id s) r
  | _ + 1, .int k :: r => some (.int k, r)
  | _ + 1, .str s :: r => some (.str s, r)
  | n + 1, .op .lparen :: r =>
    match pE false n r with
    | some (e, .op .rparen :: r') => pX h n (.paren e) r'
    | _ => none
  | n + 1, ts =>
    match pT n ts with
    | some (t, .op .lbrace :: r) =>
      if h then some (t, .op .lbrace :: r)
      else
        match pElts n r with
        | some (es, r') => some (.lit t es, r')
        | none => none
    | x => x
/-- What follows the operand `e`. -/
def pX (h : Bool) : Nat → GE → List Tok → Option (GE × List Tok)
  | 0, _, _ => none
  | n + 1, e, .op .period :: .ident f :: r => pX h n (.sel e f) r
  | n + 1, e, .op .lbrack :: .op .colon :: .op .rbrack :: r => pX h n (.slc e) r
  | n + 1, e, .op .lbrack :: r =>
    match pE false n r with
    | some (i, .op .rbrack :: r') => pX h n (.idx e i) r'
    | _ => none
  | n + 1, e, .op .lparen :: r =>
    match pArgs n r with
    | some (as, r') => pX h n (.call e as) r'
    | none => none
  | n + 1, e, .op .lbrace :: r =>
    if !h && litType e then
      match pElts n r with
      | some (es, r') => some (.lit e es, r')
      | none => none
    else some (e, .op .lbrace :: r)
  | _ + 1, e, ts => some (e, ts)
def pT : Nat → List Tok → Option (GE × List Tok)
  | 0, _ => none
  | _ + 1, .ident s :: .op .period :: .ident f :: r => some (.sel (.id s) f, r)
  | _ + 1, .ident s :: r => some (.id s, r)
  | n + 1, .op .mul :: r =>
    match pT n r with
    | some (t, r') => some (.star t, r')
    | none => none
  | n + 1, .op .lbrack :: .op .rbrack :: r =>
    match pT n r with
    | some (t, r') => some (.slice t, r')
    | none => none
  | n + 1, .op .lbrack :: r =>
    match pE false n r with
    | some (k, .op .rbrack :: r') =>
      match pT n r' with
      | some (t, r'') => some (.array k t, r'')
      | none => none
    | _ => none
  | n + 1, k :: .op .lbrace :: r =>
    if k = kwStruct then
      match pFs n r with
      | some (fs, r') => some (.struct fs, r')
      | none => none
    else none
  | _ + 1, _ => none
def pArgs : Nat → List Tok → Option (GArgs × List Tok)
  | 0, _ => none
  | _ + 1, .op .rparen :: r => some (.nil, r)
  | n + 1, ts =>
    match pE false n ts with
    | some (e, .op .rparen :: r) => some (.last e, r)
    | some (e, .op .comma :: r) =>
      match pArgs n r with
      | some (as, r') => some (.cons e as, r')
      | none => none
    | _ => none
def pElts : Nat → List Tok → Option (GElts × List Tok)
  | 0, _ => none
  | _ + 1, .op .rbrace :: r => some (.nil, r)
  | n + 1, ts =>
    match pE false n ts with
    | some (e, .op .rbrace :: r) => some (.last e, r)
    | some (e, .op .comma :: r) =>
      match pElts n r with
      | some (es, r') => some (.cons e es, r')
      | none => none
    | some (.id k, .op .colon :: r) =>
      match pE false n r with
      | some (e, .op .rbrace :: r) => some (.lastKey k e, r)
      | some (e, .op .comma :: r) =>
        match pElts n r with
        | some (es, r') => some (.consKey k e es, r')
        | none => none
      | _ => none
    | _ => none
def pFs : Nat → List Tok → Option (GFs × List Tok)
  | 0, _ => none
  | _ + 1, .op .rbrace :: r => some (.nil, r)
  | n + 1, .ident f :: r =>
    match pT n r with
    | some (t, .op .rbrace :: r) => some (.last f t, r)
    | some (t, .semi :: r) =>
      match pFs n r with
      | some (fs, r') => some (.cons f t fs, r')
      | none => none
    | _ => none
  | _ + 1, _ => none
end

/-- `f` finds `x` once its bound is large enough. -/
def Ev {α} (f : Nat → Option α) (x : α) : Prop := ∃ N, ∀ n, N ≤ n → f n = some x

theorem Ev.unique {α} {f : Nat → Option α} {x y : α} (h : Ev f x) (h' : Ev f y) : x = y := by
  obtain ⟨N, h⟩ := h
  obtain ⟨M, h'⟩ := h'
  exact Option.some.inj ((h (N + M) (by omega)).symm.trans (h' (N + M) (by omega)))

theorem Ev.mk0 {α} {f : Nat → Option α} {x : α} (H : ∀ n, f (n + 1) = some x) : Ev f x :=
  ⟨1, fun n hn => by obtain ⟨m, rfl⟩ : ∃ m, n = m + 1 := ⟨n - 1, by omega⟩; exact H m⟩

theorem Ev.mk1 {α β} {f : Nat → Option α} {g : Nat → Option β} {x : α} {y : β} (hg : Ev g y)
    (H : ∀ n, g n = some y → f (n + 1) = some x) : Ev f x := by
  obtain ⟨N, hg⟩ := hg
  refine ⟨N + 1, fun n hn => ?_⟩
  obtain ⟨m, rfl⟩ : ∃ m, n = m + 1 := ⟨n - 1, by omega⟩
  exact H m (hg m (by omega))

theorem Ev.mk2 {α β γ} {f : Nat → Option α} {g : Nat → Option β} {k : Nat → Option γ} {x : α} {y : β} {z : γ}
    (hg : Ev g y) (hk : Ev k z) (H : ∀ n, g n = some y → k n = some z → f (n + 1) = some x) : Ev f x := by
  obtain ⟨N, hg⟩ := hg
  obtain ⟨M, hk⟩ := hk
  refine ⟨N + M + 1, fun n hn => ?_⟩
  obtain ⟨m, rfl⟩ : ∃ m, n = m + 1 := ⟨n - 1, by omega⟩
  exact H m (hg m (by omega)) (hk m (by omega))

theorem Ev.mk3 {α β γ δ} {f : Nat → Option α} {g : Nat → Option β} {k : Nat → Option γ} {j : Nat → Option δ}
    {x : α} {y : β} {z : γ} {u : δ} (hg : Ev g y) (hk : Ev k z) (hj : Ev j u)
    (H : ∀ n, g n = some y → k n = some z → j n = some u → f (n + 1) = some x) : Ev f x := by
  obtain ⟨N, hg⟩ := hg
  obtain ⟨M, hk⟩ := hk
  obtain ⟨L, hj⟩ := hj
  refine ⟨N + M + L + 1, fun n hn => ?_⟩
  obtain ⟨m, rfl⟩ : ∃ m, n = m + 1 := ⟨n - 1, by omega⟩
  exact H m (hg m (by omega)) (hk m (by omega)) (hj m (by omega))

/-- The tokens do not continue an operand. -/
def folU (h : Bool) : List Tok → Bool
  | .op .period :: _ => false
  | .op .lbrack :: _ => false
  | .op .lparen :: _ => false
  | .op .lbrace :: _ => h
  | _ => true

/-- The tokens do not continue an expression. -/
def folE (h : Bool) : List Tok → Bool
  | .op o :: r => folU h (.op o :: r) && !isCmp o
  | _ => true

/-- The tokens do not continue a type. -/
def folT : List Tok → Bool
  | .op .period :: _ => false
  | _ => true

theorem folE_U {h : Bool} {r : List Tok} (hf : folE h r = true) : folU h r = true := by
  cases r with
  | nil => rfl
  | cons t r =>
    cases t with
    | op o => simp only [folE, Bool.and_eq_true] at hf; exact hf.1
    | _ => rfl

theorem folU_T {h : Bool} {r : List Tok} (hf : folU h r = true) : folT r = true := by
  cases r with
  | nil => rfl
  | cons t r =>
    cases t with
    | op o => cases o <;> first | rfl | cases hf
    | _ => rfl

/-- Tokens an expression may begin with. -/
def headE : Tok → Bool
  | .ident _ => true
  | .int _ => true
  | .str _ => true
  | .op .lparen => true
  | .op .lbrack => true
  | .op .mul => true
  | .op .and => true
  | .op .sub => true
  | .kw s => s == t!"struct"
  | _ => false

/-- Tokens an operand may begin with. -/
def headP : Tok → Bool
  | .op .mul => false
  | .op .and => false
  | .op .sub => false
  | t => headE t

theorem gE_headP : ∀ {e : GE} {l : Lvl} {h : Bool}, wE l h e = true → (l = .prim ∨ l = .base) →
    ∃ t r, gE e = t :: r ∧ headP t = true
  | .id s, _, _, _, _ => ⟨_, _, rfl, rfl⟩
  | .int s, _, _, _, _ => ⟨_, _, rfl, rfl⟩
  | .str s, _, _, _, _ => ⟨_, _, rfl, rfl⟩
  | .paren e, _, _, _, _ => ⟨_, _, rfl, rfl⟩
  | .slice e, _, _, _, _ => ⟨_, _, rfl, rfl⟩
  | .array _ e, _, _, _, _ => ⟨_, _, rfl, rfl⟩
  | .struct e, _, _, _, _ => ⟨_, _, rfl, rfl⟩
  | .sel e f, l, h, hw, hl => by
    have hw' : wE .base h e = true := by
      rcases hl with rfl | rfl <;> simpa [wE] using hw
    obtain ⟨t, r, he, ht⟩ := gE_headP hw' (.inr rfl)
    exact ⟨t, _, by rw [gE, he]; rfl, ht⟩
  | .idx e i, l, h, hw, hl => by
    have hw' : wE .base h e = true := by
      simp only [wE, Bool.and_eq_true] at hw; exact hw.1.2
    obtain ⟨t, r, he, ht⟩ := gE_headP hw' (.inr rfl)
    exact ⟨t, _, by rw [gE, he]; rfl, ht⟩
  | .slc e, l, h, hw, hl => by
    have hw' : wE .base h e = true := by
      simp only [wE, Bool.and_eq_true] at hw; exact hw.2
    obtain ⟨t, r, he, ht⟩ := gE_headP hw' (.inr rfl)
    exact ⟨t, _, by rw [gE, he]; rfl, ht⟩
  | .call e as, l, h, hw, hl => by
    have hw' : wE .base h e = true := by
      simp only [wE, Bool.and_eq_true] at hw; exact hw.1.2
    obtain ⟨t, r, he, ht⟩ := gE_headP hw' (.inr rfl)
    exact ⟨t, _, by rw [gE, he]; rfl, ht⟩
  | .lit e as, l, h, hw, hl => by
    simp only [wE, Bool.and_eq_true] at hw
    have hlt := hw.1.1.2
    cases e with
    | id s => exact ⟨_, _, rfl, rfl⟩
    | slice e => exact ⟨_, _, rfl, rfl⟩
    | array _ e => exact ⟨_, _, rfl, rfl⟩
    | struct e => exact ⟨_, _, rfl, rfl⟩
    | sel e f =>
      cases e with
      | id s => exact ⟨_, _, rfl, rfl⟩
      | _ => cases hlt
    | _ => cases hlt
  | .star e, l, h, hw, hl => by rcases hl with rfl | rfl <;> simp [wE] at hw
  | .addr e, l, h, hw, hl => by rcases hl with rfl | rfl <;> simp [wE] at hw
  | .neg e, l, h, hw, hl => by rcases hl with rfl | rfl <;> simp [wE] at hw
  | .bin o a b, l, h, hw, hl => by rcases hl with rfl | rfl <;> simp [wE] at hw

theorem headE_of_headP {t : Tok} (h : headP t = true) : headE t = true := by
  cases t with
  | op o => cases o <;> first | exact h | cases h
  | _ => exact h

/-- What is found in `gE e` followed by `r`. -/
def Good : Lvl → Bool → GE → Prop
  | .base, h, e => ∀ r x, Ev (fun n => pX h n e r) x → Ev (fun n => pP h n (gE e ++ r)) x
  | .prim, h, e => ∀ r, folU h r = true → Ev (fun n => pP h n (gE e ++ r)) (e, r)
  | .unary, h, e => ∀ r, folU h r = true → Ev (fun n => pU h n (gE e ++ r)) (e, r)
  | .expr, h, e => ∀ r, folE h r = true → Ev (fun n => pE h n (gE e ++ r)) (e, r)
  | .type, _, e => ∀ r, folT r = true → Ev (fun n => pT n (gE e ++ r)) (e, r)

theorem pX_stop {h : Bool} {e : GE} {r : List Tok} (hf : folU h r = true) :
    Ev (fun n => pX h n e r) (e, r) := by
  refine .mk0 fun n => ?_
  cases r with
  | nil => simp [pX]
  | cons t r =>
    cases t with
    | op o =>
      cases o <;> first | exact Bool.noConfusion hf | simp only [pX]
      case lbrace =>
        have : h = true := hf
        subst this
        rfl
    | _ => simp [pX]

theorem good_base_prim {h : Bool} {e : GE} (hg : Good .base h e) : Good .prim h e :=
  fun r hf => hg r _ (pX_stop hf)

theorem good_prim_unary {h : Bool} {e : GE} (hw : wE .prim h e = true) (hg : Good .prim h e) :
    Good .unary h e := by
  intro r hf
  obtain ⟨t, r', he, ht⟩ := gE_headP hw (.inl rfl)
  have := hg r hf
  rw [he] at this ⊢
  refine this.mk1 fun n hn => ?_
  simp only [List.cons_append] at hn ⊢
  rw [← hn]
  cases t with
  | op o => cases o <;> first | rfl | cases ht
  | _ => rfl

theorem good_unary_expr {h : Bool} {e : GE} (hg : Good .unary h e) : Good .expr h e := by
  intro r hf
  refine (hg r (folE_U hf)).mk1 fun n hn => ?_
  simp only [pE, hn]
  cases r with
  | nil => rfl
  | cons t r =>
    cases t with
    | op o =>
      simp only [folE, Bool.and_eq_true, Bool.not_eq_true'] at hf
      simp only [hf.2, Bool.false_eq_true, if_false]
    | _ => rfl

/-- From the level of the construct to all levels it may stand at. -/
theorem good_of_base {h : Bool} {e : GE} (hw : wE .prim h e = true) (hg : Good .base h e) {l : Lvl}
    (hl : l ≠ .type) : Good l h e := by
  have h1 := good_base_prim hg
  have h2 := good_prim_unary hw h1
  cases l with
  | base => exact hg
  | prim => exact h1
  | unary => exact h2
  | expr => exact good_unary_expr h2
  | type => exact absurd rfl hl

theorem good_of_prim {h : Bool} {e : GE} (hw : wE .prim h e = true) (hg : Good .prim h e) {l : Lvl}
    (hl : l ≠ .type) (hl' : l ≠ .base) : Good l h e := by
  have h2 := good_prim_unary hw hg
  cases l with
  | base => exact absurd rfl hl'
  | prim => exact hg
  | unary => exact h2
  | expr => exact good_unary_expr h2
  | type => exact absurd rfl hl

theorem good_of_unary {h : Bool} {e : GE} (hg : Good .unary h e) {l : Lvl}
    (hl : l ≠ .type) (hl' : l ≠ .base) (hl'' : l ≠ .prim) : Good l h e := by
  cases l with
  | base => exact absurd rfl hl'
  | prim => exact absurd rfl hl''
  | unary => exact hg
  | expr => exact good_unary_expr hg
  | type => exact absurd rfl hl

/-- A type that begins with a bracket or `struct`, as an operand. -/
theorem good_type_prim {h : Bool} {e : GE} (hg : Good .type h e)
    (hd : ∃ t r, gE e = t :: r ∧ (t = .op .lbrack ∨ t = kwStruct)) : Good .prim h e := by
  intro r hf
  obtain ⟨t, r', he, ht⟩ := hd
  have hT := hg r (folU_T hf)
  rw [he] at hT ⊢
  refine hT.mk1 fun n hn => ?_
  simp only [List.cons_append] at hn ⊢
  have hp : pP h (n + 1) (t :: (r' ++ r)) =
      match pT n (t :: (r' ++ r)) with
      | some (t, .op .lbrace :: r) =>
        if h then some (t, .op .lbrace :: r)
        else
          match pElts n r with
          | some (es, r') => some (.lit t es, r')
          | none => none
      | x => x := by
    rcases ht with rfl | rfl <;> rfl
  rw [hp, hn]
  cases r with
  | nil => rfl
  | cons t r =>
    cases t with
    | op o =>
      cases o <;> first | rfl | skip
      have : h = true := hf
      subst this
      rfl
    | _ => rfl

theorem gE_headE : ∀ {e : GE} {l : Lvl} {h : Bool}, wE l h e = true → ∃ t r, gE e = t :: r ∧ headE t = true
  | .id s, _, _, _ => ⟨_, _, rfl, rfl⟩
  | .int s, _, _, _ => ⟨_, _, rfl, rfl⟩
  | .str s, _, _, _ => ⟨_, _, rfl, rfl⟩
  | .paren e, _, _, _ => ⟨_, _, rfl, rfl⟩
  | .slice e, _, _, _ => ⟨_, _, rfl, rfl⟩
  | .array _ e, _, _, _ => ⟨_, _, rfl, rfl⟩
  | .struct e, _, _, _ => ⟨_, _, rfl, rfl⟩
  | .star e, _, _, _ => ⟨_, _, rfl, rfl⟩
  | .addr e, _, _, _ => ⟨_, _, rfl, rfl⟩
  | .neg e, _, _, _ => ⟨_, _, rfl, rfl⟩
  | .sel e f, l, h, hw => by
    by_cases hl : l = .type
    · subst hl
      cases e with
      | id s => exact ⟨_, _, rfl, rfl⟩
      | _ => simp [wE] at hw
    · have hw' : wE .base h e = true := by simpa [wE, hl] using hw
      obtain ⟨t, r, he, ht⟩ := gE_headE hw'
      exact ⟨t, _, by rw [gE, he]; rfl, ht⟩
  | .idx e i, l, h, hw => by
    have hw' : wE .base h e = true := by
      simp only [wE, Bool.and_eq_true] at hw; exact hw.1.2
    obtain ⟨t, r, he, ht⟩ := gE_headE hw'
    exact ⟨t, _, by rw [gE, he]; rfl, ht⟩
  | .slc e, l, h, hw => by
    have hw' : wE .base h e = true := by
      simp only [wE, Bool.and_eq_true] at hw; exact hw.2
    obtain ⟨t, r, he, ht⟩ := gE_headE hw'
    exact ⟨t, _, by rw [gE, he]; rfl, ht⟩
  | .call e as, l, h, hw => by
    have hw' : wE .base h e = true := by
      simp only [wE, Bool.and_eq_true] at hw; exact hw.1.2
    obtain ⟨t, r, he, ht⟩ := gE_headE hw'
    exact ⟨t, _, by rw [gE, he]; rfl, ht⟩
  | .lit e as, l, h, hw => by
    have hw' : wE .type h e = true := by
      simp only [wE, Bool.and_eq_true] at hw; exact hw.1.2
    obtain ⟨t, r, he, ht⟩ := gE_headE hw'
    exact ⟨t, _, by rw [gE, he]; rfl, ht⟩
  | .bin o a b, l, h, hw => by
    have hw' : wE .unary h a = true := by
      simp only [wE, Bool.and_eq_true] at hw; exact hw.1.2
    obtain ⟨t, r, he, ht⟩ := gE_headE hw'
    exact ⟨t, _, by rw [gE, he]; rfl, ht⟩

/-- An index or length is not taken for `:]` or `]`. -/
theorem pX_idx {h : Bool} {e i : GE} {n : Nat} {r : List Tok} (hw : wE .expr false i = true) :
    pX h (n + 1) e (.op .lbrack :: (gE i ++ .op .rbrack :: r)) =
      match pE false n (gE i ++ .op .rbrack :: r) with
      | some (i, .op .rbrack :: r') => pX h n (.idx e i) r'
      | _ => none := by
  obtain ⟨t, r', he, ht⟩ := gE_headE hw
  rw [he]
  cases t with
  | op o => cases o <;> first | rfl | cases ht
  | _ => rfl

theorem pT_array {k : GE} {n : Nat} {r : List Tok} (hw : wE .expr false k = true) :
    pT (n + 1) (.op .lbrack :: (gE k ++ .op .rbrack :: r)) =
      match pE false n (gE k ++ .op .rbrack :: r) with
      | some (k, .op .rbrack :: r') =>
        match pT n r' with
        | some (t, r'') => some (.array k t, r'')
        | none => none
      | _ => none := by
  obtain ⟨t, r', he, ht⟩ := gE_headE hw
  rw [he]
  cases t with
  | op o => cases o <;> first | rfl | cases ht
  | _ => rfl

theorem pArgs_expr {e : GE} {n : Nat} {r : List Tok} (hw : wE .expr false e = true) :
    pArgs (n + 1) (gE e ++ r) =
      match pE false n (gE e ++ r) with
      | some (e, .op .rparen :: r) => some (.last e, r)
      | some (e, .op .comma :: r) =>
        match pArgs n r with
        | some (as, r') => some (.cons e as, r')
        | none => none
      | _ => none := by
  obtain ⟨t, r', he, ht⟩ := gE_headE hw
  rw [he]
  cases t with
  | op o => cases o <;> first | rfl | cases ht
  | _ => rfl

theorem pElts_expr {e : GE} {n : Nat} {r : List Tok} (hw : wE .expr false e = true) :
    pElts (n + 1) (gE e ++ r) =
      match pE false n (gE e ++ r) with
      | some (e, .op .rbrace :: r) => some (.last e, r)
      | some (e, .op .comma :: r) =>
        match pElts n r with
        | some (es, r') => some (.cons e es, r')
        | none => none
      | some (.id k, .op .colon :: r) =>
        match pE false n r with
        | some (e, .op .rbrace :: r) => some (.lastKey k e, r)
        | some (e, .op .comma :: r) =>
          match pElts n r with
          | some (es, r') => some (.consKey k e es, r')
          | none => none
        | _ => none
      | _ => none := by
  obtain ⟨t, r', he, ht⟩ := gE_headE hw
  rw [he]
  cases t with
  | op o => cases o <;> first | rfl | cases ht
  | _ => rfl

theorem good_id (h : Bool) (s : List Nat) : Good .base h (.id s) := fun r x hx =>
  hx.mk1 fun n hn => by
    show pX h n (.id s) r = _
    exact hn

theorem good_id_expr (s : List Nat) : Good .expr false (.id s) := good_of_base rfl (good_id _ s) (by decide)

/-- A composite literal. -/
theorem good_lit {t : GE} {es : GElts} (hl : litType t = true) (ht : Good .type false t)
    (hes : ∀ r, Ev (fun n => pElts n (gElts es ++ r)) (es, r)) : Good .prim false (.lit t es) := by
  intro r _
  have hbr : (∃ t' r', gE t = t' :: r' ∧ (t' = .op .lbrack ∨ t' = kwStruct)) →
      Ev (fun n => pP false n (gE (.lit t es) ++ r)) (.lit t es, r) := by
    rintro ⟨t', r', he, ht'⟩
    have hT := ht (.op .lbrace :: (gElts es ++ r)) rfl
    refine Ev.mk2 hT (hes r) fun n hn hes => ?_
    simp only [gE, he, List.cons_append, List.append_assoc] at hn ⊢
    have hp : pP false (n + 1) (t' :: (r' ++ (.op .lbrace :: (gElts es ++ r)))) =
        match pT n (t' :: (r' ++ (.op .lbrace :: (gElts es ++ r)))) with
        | some (t, .op .lbrace :: r) =>
          if false then some (t, .op .lbrace :: r)
          else
            match pElts n r with
            | some (es, r') => some (.lit t es, r')
            | none => none
        | x => x := by
      rcases ht' with rfl | rfl <;> rfl
    rw [hp, hn]
    simp only [Bool.false_eq_true, if_false, hes]
  have hlast : ∀ e, litType e = true →
      Ev (fun n => pX false n e (.op .lbrace :: (gElts es ++ r))) (.lit e es, r) := fun e he =>
    (hes r).mk1 fun n hn => by simp only [pX, he, Bool.not_false, Bool.and_self, if_true, hn]
  cases t with
  | id s =>
    refine (hlast (.id s) rfl).mk1 fun n hn => ?_
    show pX false n (.id s) (.op .lbrace :: (gElts es ++ r)) = _
    exact hn
  | sel e f =>
    cases e with
    | id s =>
      have h1 : Ev (fun n => pX false n (.id s) (.op .period :: .ident f :: .op .lbrace :: (gElts es ++ r)))
          (.lit (.sel (.id s) f) es, r) :=
        (hlast (.sel (.id s) f) rfl).mk1 fun n hn => by simp only [pX, hn]
      refine h1.mk1 fun n hn => ?_
      show pX false n (.id s) (.op .period :: .ident f :: .op .lbrace :: (gElts es ++ r)) = _
      exact hn
    | _ => cases hl
  | slice t => exact hbr ⟨_, _, rfl, .inl rfl⟩
  | array k t => exact hbr ⟨_, _, rfl, .inl rfl⟩
  | struct fs => exact hbr ⟨_, _, rfl, .inr rfl⟩
  | _ => cases hl

mutual
theorem cE : ∀ (e : GE) (l : Lvl) (h : Bool), wE l h e = true → Good l h e
  | .id s, l, h, hw => by
    by_cases hl : l = .type
    · subst hl
      intro r hf
      refine .mk0 fun n => ?_
      simp only [gE, List.cons_append, List.nil_append]
      cases r with
      | nil => rfl
      | cons t r =>
        cases t with
        | op o => cases o <;> first | exact Bool.noConfusion hf | rfl
        | _ => rfl
    · exact good_of_base rfl (good_id h s) hl
  | .int k, l, h, hw => by
    simp only [wE, Bool.and_eq_true, bne_iff_ne, ne_eq] at hw
    refine good_of_prim (by simp [wE]) ?_ hw.2 hw.1
    intro r _
    exact .mk0 fun n => rfl
  | .str s, l, h, hw => by
    simp only [wE, Bool.and_eq_true, bne_iff_ne, ne_eq] at hw
    refine good_of_prim (by simp [wE]) ?_ hw.2 hw.1
    intro r _
    exact .mk0 fun n => rfl
  | .paren e, l, h, hw => by
    simp only [wE, Bool.and_eq_true, bne_iff_ne, ne_eq] at hw
    have ih := cE e .expr false hw.2
    refine good_of_base (by simp [wE, hw.2]) ?_ hw.1
    intro r x hx
    refine Ev.mk2 (ih (.op .rparen :: r) rfl) hx fun n hn hx => ?_
    simp only [gE, List.cons_append, List.append_assoc, List.nil_append, pP, hn, hx]
  | .sel e f, l, h, hw => by
    by_cases hl : l = .type
    · subst hl
      cases e with
      | id s => intro r _; exact .mk0 fun n => rfl
      | _ => simp [wE] at hw
    · have hw' : wE .base h e = true := by simpa [wE, hl] using hw
      have ih := cE e .base h hw'
      refine good_of_base (by simp [wE, hw']) ?_ hl
      intro r x hx
      simp only [gE, List.append_assoc]
      exact ih _ _ (hx.mk1 fun n hn => by simp only [List.cons_append, List.nil_append, pX, hn])
  | .idx e i, l, h, hw => by
    simp only [wE, Bool.and_eq_true, bne_iff_ne, ne_eq] at hw
    have ih := cE e .base h hw.1.2
    have ihi := cE i .expr false hw.2
    refine good_of_base (by simp [wE, hw.1.2, hw.2]) ?_ hw.1.1
    intro r x hx
    simp only [gE, List.append_assoc]
    refine ih _ _ (Ev.mk2 (ihi (.op .rbrack :: r) rfl) hx fun n hn hx => ?_)
    simp only [List.cons_append, List.append_assoc, List.nil_append]
    rw [pX_idx hw.2, hn]
    exact hx
  | .slc e, l, h, hw => by
    simp only [wE, Bool.and_eq_true, bne_iff_ne, ne_eq] at hw
    have ih := cE e .base h hw.2
    refine good_of_base (by simp [wE, hw.2]) ?_ hw.1
    intro r x hx
    simp only [gE, List.append_assoc]
    exact ih _ _ (hx.mk1 fun n hn => by simp only [List.cons_append, List.nil_append, pX, hn])
  | .call e as, l, h, hw => by
    simp only [wE, Bool.and_eq_true, bne_iff_ne, ne_eq] at hw
    have ih := cE e .base h hw.1.2
    have iha := cArgs as hw.2
    refine good_of_base (by simp [wE, hw.1.2, hw.2]) ?_ hw.1.1
    intro r x hx
    simp only [gE, List.append_assoc]
    refine ih _ _ (Ev.mk2 (iha r) hx fun n hn hx => ?_)
    simp only [List.cons_append, pX, hn, hx]
  | .lit t es, l, h, hw => by
    simp only [wE, Bool.and_eq_true, bne_iff_ne, ne_eq, Bool.not_eq_true'] at hw
    obtain ⟨⟨⟨⟨⟨h1, h2⟩, h3⟩, h4⟩, h5⟩, h6⟩ := hw
    subst h3
    have iht := cE t .type false h5
    have ihe := cElts es h6
    exact good_of_prim (by simp [wE, h4, h5, h6]) (good_lit h4 iht ihe) h2 h1
  | .star e, l, h, hw => by
    by_cases hl : l = .type
    · subst hl
      have hw' : wE .type h e = true := by simpa [wE] using hw
      have ih := cE e .type h hw'
      intro r hf
      refine (ih r hf).mk1 fun n hn => ?_
      simp only [gE, List.cons_append, pT, hn]
    · have hw' : (l ≠ .prim ∧ l ≠ .base) ∧ wE .unary h e = true := by simpa [wE, hl] using hw
      have ih := cE e .unary h hw'.2
      refine good_of_unary ?_ hl hw'.1.2 hw'.1.1
      intro r hf
      refine (ih r hf).mk1 fun n hn => ?_
      simp only [gE, List.cons_append, pU, hn]
  | .addr e, l, h, hw => by
    simp only [wE, Bool.and_eq_true, bne_iff_ne, ne_eq] at hw
    have ih := cE e .unary h hw.2
    refine good_of_unary ?_ hw.1.1.1 hw.1.2 hw.1.1.2
    intro r hf
    refine (ih r hf).mk1 fun n hn => ?_
    simp only [gE, List.cons_append, pU, hn]
  | .neg e, l, h, hw => by
    simp only [wE, Bool.and_eq_true, bne_iff_ne, ne_eq] at hw
    have ih := cE e .unary h hw.2
    refine good_of_unary ?_ hw.1.1.1 hw.1.2 hw.1.1.2
    intro r hf
    refine (ih r hf).mk1 fun n hn => ?_
    simp only [gE, List.cons_append, pU, hn]
  | .bin o a b, l, h, hw => by
    simp only [wE, Bool.and_eq_true, beq_iff_eq] at hw
    obtain ⟨⟨⟨rfl, ho⟩, ha⟩, hb⟩ := hw
    have iha := cE a .unary h ha
    have ihb := cE b .unary h hb
    intro r hf
    refine Ev.mk2 (iha (.op o :: (gE b ++ r)) (by cases o <;> first | rfl | cases ho)) (ihb r (folE_U hf))
      fun n hn hn' => ?_
    simp only [gE, List.cons_append, List.append_assoc, pE, hn, ho, if_true, hn']
  | .slice t, l, h, hw => by
    simp only [wE, Bool.and_eq_true, bne_iff_ne, ne_eq] at hw
    have ih := cE t .type h hw.2
    have hT : Good .type h (.slice t) := by
      intro r hf
      refine (ih r hf).mk1 fun n hn => ?_
      simp only [gE, List.cons_append, pT, hn]
    by_cases hl : l = .type
    · subst hl; exact hT
    · exact good_of_prim (by simp [wE, hw.2]) (good_type_prim hT ⟨_, _, rfl, .inl rfl⟩) hl hw.1
  | .array k t, l, h, hw => by
    simp only [wE, Bool.and_eq_true, bne_iff_ne, ne_eq] at hw
    have ih := cE t .type h hw.2
    have ihk := cE k .expr false hw.1.2
    have hT : Good .type h (.array k t) := by
      intro r hf
      refine Ev.mk2 (ihk (.op .rbrack :: (gE t ++ r)) rfl) (ih r hf) fun n hn hn' => ?_
      simp only [gE, List.cons_append, List.append_assoc]
      rw [pT_array hw.1.2]
      simp only [hn, hn']
    by_cases hl : l = .type
    · subst hl; exact hT
    · exact good_of_prim (by simp [wE, hw.2, hw.1.2]) (good_type_prim hT ⟨_, _, rfl, .inl rfl⟩) hl hw.1.1
  | .struct fs, l, h, hw => by
    simp only [wE, Bool.and_eq_true, bne_iff_ne, ne_eq] at hw
    have ih := cFs fs hw.2
    have hT : Good .type h (.struct fs) := by
      intro r hf
      refine (ih r).mk1 fun n hn => ?_
      simp only [gE, List.cons_append, kwStruct, pT, hn, if_true]
    by_cases hl : l = .type
    · subst hl; exact hT
    · exact good_of_prim (by simp [wE, hw.2]) (good_type_prim hT ⟨_, _, rfl, .inr rfl⟩) hl hw.1
theorem cArgs : ∀ (as : GArgs), wArgs as = true → ∀ r, Ev (fun n => pArgs n (gArgs as ++ r)) (as, r)
  | .nil, _, r => .mk0 fun n => rfl
  | .last e, hw, r => by
    have ih := cE e .expr false hw
    refine (ih (.op .rparen :: r) rfl).mk1 fun n hn => ?_
    simp only [gArgs, List.append_assoc, List.cons_append, List.nil_append]
    rw [pArgs_expr hw, hn]
  | .cons e as, hw, r => by
    simp only [wArgs, Bool.and_eq_true] at hw
    have ih := cE e .expr false hw.1
    have iha := cArgs as hw.2
    refine Ev.mk2 (ih (.op .comma :: (gArgs as ++ r)) rfl) (iha r) fun n hn hn' => ?_
    simp only [gArgs, List.append_assoc, List.cons_append]
    rw [pArgs_expr hw.1, hn]
    simp only [hn']
theorem cElts : ∀ (es : GElts), wElts es = true → ∀ r, Ev (fun n => pElts n (gElts es ++ r)) (es, r)
  | .nil, _, r => .mk0 fun n => rfl
  | .last e, hw, r => by
    have ih := cE e .expr false hw
    refine (ih (.op .rbrace :: r) rfl).mk1 fun n hn => ?_
    simp only [gElts, List.append_assoc, List.cons_append, List.nil_append]
    rw [pElts_expr hw, hn]
  | .cons e es, hw, r => by
    simp only [wElts, Bool.and_eq_true] at hw
    have ih := cE e .expr false hw.1
    have iha := cElts es hw.2
    refine Ev.mk2 (ih (.op .comma :: (gElts es ++ r)) rfl) (iha r) fun n hn hn' => ?_
    simp only [gElts, List.append_assoc, List.cons_append]
    rw [pElts_expr hw.1, hn]
    simp only [hn']
  | .lastKey k e, hw, r => by
    have ih := cE e .expr false hw
    refine Ev.mk2 (good_id_expr k (.op .colon :: (gE e ++ .op .rbrace :: r)) rfl) (ih (.op .rbrace :: r) rfl)
      fun n hn hn' => ?_
    simp only [gElts, List.append_assoc, List.cons_append, List.nil_append]
    have := pElts_expr (e := .id k) (n := n) (r := .op .colon :: (gE e ++ .op .rbrace :: r)) rfl
    rw [hn] at this
    simp only [hn'] at this
    exact this
  | .consKey k e es, hw, r => by
    simp only [wElts, Bool.and_eq_true] at hw
    have ih := cE e .expr false hw.1
    have iha := cElts es hw.2
    refine Ev.mk3 (good_id_expr k (.op .colon :: (gE e ++ .op .comma :: (gElts es ++ r))) rfl)
      (ih (.op .comma :: (gElts es ++ r)) rfl) (iha r) fun n hn hn' hn'' => ?_
    simp only [gElts, List.append_assoc, List.cons_append]
    have := pElts_expr (e := .id k) (n := n) (r := .op .colon :: (gE e ++ .op .comma :: (gElts es ++ r))) rfl
    rw [hn] at this
    simp only [hn', hn''] at this
    exact this
theorem cFs : ∀ (fs : GFs), wFs fs = true → ∀ r, Ev (fun n => pFs n (gFs fs ++ r)) (fs, r)
  | .nil, _, r => .mk0 fun n => rfl
  | .last f t, hw, r => by
    have ih := cE t .type false hw
    refine (ih (.op .rbrace :: r) rfl).mk1 fun n hn => ?_
    simp only [gFs, List.append_assoc, List.cons_append, List.nil_append, pFs, hn]
  | .cons f t fs, hw, r => by
    simp only [wFs, Bool.and_eq_true] at hw
    have ih := cE t .type false hw.1
    have ihf := cFs fs hw.2
    refine Ev.mk2 (ih (.semi :: (gFs fs ++ r)) rfl) (ihf r) fun n hn hn' => ?_
    simp only [gFs, List.append_assoc, List.cons_append, List.nil_append, pFs, hn, hn']
end

end Verif.Text
