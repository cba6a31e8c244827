/-
How a token sequence may be written down as a text, and that such a text is read back.
-/
import Verif.Text.Lex

namespace Verif.Text
open Verif.Gen

/-! ### Specification -/

/-- The words and signs of the language. -/
def fixed : XTok → Option Text
  | .kconst => some t!"const"
  | .ktypedef => some t!"typedef"
  | .kenum => some t!"enum"
  | .kstruct => some t!"struct"
  | .kunion => some t!"union"
  | .kswitch => some t!"switch"
  | .kcase => some t!"case"
  | .kdefault => some t!"default"
  | .kvoid => some t!"void"
  | .kopaque => some t!"opaque"
  | .kstring => some t!"string"
  | .kunsigned => some t!"unsigned"
  | .kint => some t!"int"
  | .khyper => some t!"hyper"
  | .kfloat => some t!"float"
  | .kdouble => some t!"double"
  | .kquadruple => some t!"quadruple"
  | .kbool => some t!"bool"
  | .kprogram => some t!"program"
  | .kversion => some t!"version"
  | .eq => some t!"="
  | .semi => some t!";"
  | .lt => some t!"<"
  | .gt => some t!">"
  | .lbrack => some t!"["
  | .rbrack => some t!"]"
  | .lbrace => some t!"{"
  | .rbrace => some t!"}"
  | .comma => some t!","
  | .colon => some t!":"
  | .star => some t!"*"
  | .lparen => some t!"("
  | .rparen => some t!")"
  | .const _ => none
  | .ident _ => none

/-- Words that are not identifiers: those of the language, and the keywords of Go except `type` and
`map`. -/
def reserved : List (List Nat) :=
  [t!"const", t!"typedef", t!"enum", t!"struct", t!"union", t!"switch", t!"case", t!"default", t!"void",
   t!"opaque", t!"string", t!"unsigned", t!"int", t!"hyper", t!"float", t!"double", t!"quadruple",
   t!"bool", t!"program", t!"version",
   t!"break", t!"chan", t!"continue", t!"defer", t!"else", t!"fallthrough", t!"for", t!"func", t!"go",
   t!"goto", t!"if", t!"import", t!"interface", t!"package", t!"range", t!"return", t!"select", t!"var"]

def alnum (c : Nat) : Bool := isLetter c || isDigit c

/-- A letter, then letters and digits; not reserved. -/
def isName (s : Ident) : Bool :=
  match codes s with
  | [] => false
  | c :: cs => isLetter c && cs.all alnum && !reserved.contains (codes s)

/-- A spelling of the integer literal `n`. -/
def isLit (t : Text) (n : Nat) : Bool :=
  match t with
  | [] => false
  | c :: cs => isDigit c && cs.all alnum && litValue t == some n

/-- How a token may be spelled. -/
inductive Spelling : XTok → Text → Prop where
  | fixed {k t} (h : fixed k = some t) : Spelling k t
  | ident {s} (h : isName s = true) : Spelling (.ident s) (codes s)
  | const {n t} (h : isLit t n = true) : Spelling (.const n) t

/-- The tokens after which a newline is a semicolon. -/
def ends : XTok → Bool
  | .ident s => s != "type" && s != "map"
  | .const _ | .rbrack | .rbrace | .rparen => true
  | .ktypedef | .kenum | .kunion | .kvoid | .kopaque | .kstring | .kunsigned | .kint | .khyper | .kfloat
  | .kdouble | .kquadruple | .kbool | .kprogram | .kversion => true
  | _ => false

/-- A comment body: no `*/`, and no newline if `semi`. -/
def commentBody (semi : Bool) : List Nat → Bool
  | [] => true
  | c :: cs => Nat.blt c lit0 && !(semi && Nat.beq c 10) && !(Nat.beq c 42 && cs.head? == some 47) &&
      commentBody semi cs

/-- What may stand between tokens; if a newline would be a semicolon (`semi`), there must not be one. -/
inductive Gap (semi : Bool) : Text → Prop where
  | nil : Gap semi []
  | blank {c t} (h : c = 32 ∨ c = 9 ∨ c = 13) (h' : Gap semi t) : Gap semi (c :: t)
  | newline {t} (h : semi = false) (h' : Gap semi t) : Gap semi (10 :: t)
  | line {b t} (h : semi = false) (hb : ∀ c ∈ b, c ≠ 10 ∧ c < lit0) (h' : Gap semi t) :
      Gap semi (47 :: 47 :: b ++ 10 :: t)
  | block {b t} (hb : commentBody semi b = true) (h' : Gap semi t) :
      Gap semi (47 :: 42 :: b ++ 42 :: 47 :: t)

/-- The characters that must not follow a token immediately. -/
def glue : XTok → Nat → Bool
  | .const _, c => alnum c || Nat.beq c 46
  | .eq, c => joins 61 c
  | .lt, c => joins 60 c
  | .gt, c => joins 62 c
  | .colon, c => joins 58 c
  | .star, c => joins 42 c
  | .semi, _ | .lbrack, _ | .rbrack, _ | .lbrace, _ | .rbrace, _ | .comma, _ | .lparen, _ | .rparen, _ => false
  | _, c => alnum c

/-- `Layout p ks t`: the text `t` is the tokens `ks` written down, after the token `p`. -/
inductive Layout : Option XTok → List XTok → Text → Prop where
  | nil {p g} (hg : Gap (p.any ends) g) : Layout p [] g
  | cons {p k ks g t r} (hg : Gap (p.any ends) g) (hk : Spelling k t)
      (ha : g = [] → ∀ q, p = some q → ∀ c, t.head? = some c → glue q c = false)
      (hr : Layout (some k) ks r) : Layout p (k :: ks) (g ++ t ++ r)

/-! ### Proof -/

def prepend (late : List Tok) : Option (List Tok × St) → Option (List Tok × St)
  | some (ts, st) => some (late ++ ts, st)
  | none => none

/-- In state `st` the tokens `late` have been read but not given out. -/
structure Pend (st : St) (late : List Tok) (semi : Bool) (glue : Nat → Bool) : Prop where
  step : ∀ c, glue c = false → c < lit0 → step st c = prepend late (idle semi c)
  finish : finish st = some (late ++ if semi then [.semi] else [])

theorem Pend.idle (b : Bool) : Pend ⟨.idle, b⟩ [] b (fun _ => false) := by
  refine ⟨fun c _ _ => ?_, by simp [Text.finish]⟩
  simp only [Text.step]
  cases Text.idle b c <;> simp [prepend]

theorem flush_eq (t : Tok) (c : Nat) : flush t c = prepend [t] (idle (endsStmt t) c) := by
  unfold flush
  cases Text.idle (endsStmt t) c <;> simp [prepend]

theorem lastTok_eq (t : Tok) : lastTok t = [t] ++ if endsStmt t then [.semi] else [] := by
  unfold lastTok; split <;> simp

theorem ble_lit0 {c : Nat} (h : c < lit0) : Nat.ble lit0 c = false := by
  cases hc : Nat.ble lit0 c with
  | false => rfl
  | true => exact absurd (Nat.le_of_ble_eq_true hc) (by omega)

theorem Pend.word (acc : List Nat) (b : Bool) :
    Pend ⟨.word acc, b⟩ [wordTok acc.reverse] (endsStmt (wordTok acc.reverse)) alnum := by
  refine ⟨fun c hc hl => ?_, by simp [Text.finish, lastTok_eq]⟩
  simp only [alnum] at hc
  simp only [Text.step, hc, Bool.false_eq_true, if_false, ble_lit0 hl, flush_eq]

theorem Pend.num {acc : List Nat} {n : Nat} (b : Bool) (h : litValue acc.reverse = some n) :
    Pend ⟨.num acc, b⟩ [.int n] true (fun c => alnum c || Nat.beq c 46) := by
  refine ⟨fun c hc hl => ?_, by simp [Text.finish, lastTok_eq, h, endsStmt]⟩
  simp only [alnum] at hc
  simp only [Text.step, hc, Bool.false_eq_true, if_false, ble_lit0 hl, flush_eq, h, endsStmt]

theorem Pend.op {o : Nat} {t : Tok} (b : Bool) (h : single o = some t) (he : endsStmt t = false) :
    Pend ⟨.op o, b⟩ [t] false (joins o) := by
  refine ⟨fun c hc hl => ?_, by simp [Text.finish, lastTok_eq, h, he]⟩
  simp only [Text.step, hc, Bool.false_eq_true, if_false, h, flush_eq, he]

theorem Pend.scans {st late b gl} (h : Pend st late b gl) {c : Nat} (hc : gl c = false) (hl : c < lit0)
    {t : Text} {ts : List Tok} {st' : St} (hs : Scans ⟨.idle, b⟩ (c :: t) ts st') :
    Scans st (c :: t) (late ++ ts) st' := by
  have hi' : Text.step ⟨.idle, b⟩ c = Text.idle b c := rfl
  simp only [Scans, run] at hs ⊢
  rw [h.step c hc hl]
  rw [hi'] at hs
  cases hi : Text.idle b c with
  | none => rw [hi] at hs; cases hs
  | some r =>
    obtain ⟨us, st1⟩ := r
    rw [hi] at hs
    simp only [prepend] at hs ⊢
    cases hr : run st1 t with
    | none => rw [hr] at hs; cases hs
    | some r =>
      rw [hr] at hs
      simp only [Option.some.injEq, Prod.mk.injEq] at hs ⊢
      exact ⟨by rw [← hs.1]; simp, hs.2⟩

theorem scans_line {b : Bool} : ∀ {l : List Nat}, (∀ c ∈ l, c ≠ 10 ∧ c < lit0) →
    Scans ⟨.line, b⟩ l [] ⟨.line, b⟩
  | [], _ => rfl
  | c :: l, h => by
    have hc := h c (by simp)
    have : Nat.beq c 10 = false := by
      cases hb : Nat.beq c 10 with
      | false => rfl
      | true => exact absurd (Nat.eq_of_beq_eq_true hb) hc.1
    have ih := scans_line (b := b) (l := l) fun c h' => h c (by simp [h'])
    simp only [Scans] at ih
    simp only [Scans, run, step, this, ble_lit0 hc.2, Bool.false_eq_true, if_false, ih, List.append_nil]

theorem scans_block {b : Bool} : ∀ {l : List Nat} {s : Bool}, commentBody b l = true →
    (s = true → l.head? ≠ some 47) → ∃ s', Scans ⟨.block s, b⟩ l [] ⟨.block s', b⟩
  | [], s, _, _ => ⟨s, rfl⟩
  | c :: l, s, h, hs => by
    simp only [commentBody, Bool.and_eq_true, Bool.not_eq_true'] at h
    obtain ⟨⟨⟨h1, h2⟩, h3⟩, h4⟩ := h
    have h1 : Nat.ble lit0 c = false := ble_lit0 (by simpa [Nat.blt_eq] using h1)
    have h5 : (s && Nat.beq c 47) = false := by
      cases s with
      | false => rfl
      | true =>
        simp only [Bool.true_and]
        cases hb : Nat.beq c 47 with
        | false => rfl
        | true => exact absurd (by rw [Nat.eq_of_beq_eq_true hb]; rfl) (hs rfl)
    by_cases h10 : Nat.beq c 10 = true
    · have hb : b = false := by
        cases b with
        | false => rfl
        | true => rw [h10] at h2; cases h2
      subst hb
      obtain ⟨s', ih⟩ := scans_block (s := false) h4 (by simp)
      refine ⟨s', ?_⟩
      simp only [Scans] at ih
      simp only [Scans, run, step, h1, h10, if_true, Bool.false_eq_true, if_false, ih, List.append_nil]
    · obtain ⟨s', ih⟩ := scans_block (s := Nat.beq c 42) h4 (by
        intro h' h''
        rw [h', h''] at h3
        simp at h3)
      refine ⟨s', ?_⟩
      simp only [Scans] at ih
      simp only [Scans, run, step, h1, h10, Bool.false_eq_true, if_false, h5, ih, List.append_nil]

theorem scans_gap {b : Bool} {g : Text} (h : Gap b g) : Scans ⟨.idle, b⟩ g [] ⟨.idle, b⟩ := by
  induction h with
  | nil => rfl
  | @blank c t h h' ih =>
    have : idle b c = some ([], ⟨.idle, b⟩) := by rcases h with rfl | rfl | rfl <;> rfl
    simp only [Scans] at ih
    simp only [Scans, run, step, this, ih, List.append_nil]
  | @newline t h h' ih =>
    subst h
    simp only [Scans] at ih
    have : idle false 10 = some ([], ⟨.idle, false⟩) := rfl
    simp only [Scans, run, step, this, ih, List.append_nil]
  | @line l t h hb h' ih =>
    subst h
    have h1 : Scans ⟨.idle, false⟩ [47, 47] [] ⟨.line, false⟩ := rfl
    have h2 := scans_line (b := false) hb
    have h3 : Scans ⟨.line, false⟩ [10] [] ⟨.idle, false⟩ := rfl
    simpa using ((h1.append h2).append h3).append ih
  | @block l t hb h' ih =>
    have h1 : Scans ⟨.idle, b⟩ [47, 42] [] ⟨.block false, b⟩ := rfl
    obtain ⟨s', h2⟩ := scans_block (s := false) hb (by simp)
    have h3 : Scans ⟨.block s', b⟩ [42, 47] [] ⟨.idle, b⟩ := by cases s' <;> cases b <;> rfl
    simpa using ((h1.append h2).append h3).append ih

/-- A gap does not begin with a character that continues a token. -/
theorem gap_head {b : Bool} {c : Nat} {g : Text} (h : Gap b (c :: g)) (k : XTok) :
    glue k c = false ∧ c < lit0 := by
  have hc : c = 32 ∨ c = 9 ∨ c = 13 ∨ c = 10 ∨ c = 47 := by
    cases h with
    | blank h => rcases h with h | h | h <;> simp [h]
    | newline => simp
    | line => simp
    | block => simp
  rcases hc with rfl | rfl | rfl | rfl | rfl <;> refine ⟨?_, by decide⟩ <;> cases k <;> rfl

theorem scans_word : ∀ {l acc : List Nat} {b : Bool}, l.all alnum = true →
    Scans ⟨.word acc, b⟩ l [] ⟨.word (l.reverse ++ acc), b⟩
  | [], _, _, _ => rfl
  | c :: l, acc, b, h => by
    simp only [List.all_cons, Bool.and_eq_true] at h
    have h1 : (isLetter c || isDigit c) = true := h.1
    have ih := scans_word (acc := c :: acc) (b := b) h.2
    simp only [Scans] at ih
    simp only [Scans, run, step, h1, if_true, ih, List.nil_append, List.reverse_cons, List.append_assoc,
      List.cons_append]

theorem scans_num : ∀ {l acc : List Nat} {b : Bool}, l.all alnum = true →
    Scans ⟨.num acc, b⟩ l [] ⟨.num (l.reverse ++ acc), b⟩
  | [], _, _, _ => rfl
  | c :: l, acc, b, h => by
    simp only [List.all_cons, Bool.and_eq_true] at h
    have h1 : (isLetter c || isDigit c) = true := h.1
    have ih := scans_num (acc := c :: acc) (b := b) h.2
    simp only [Scans] at ih
    simp only [Scans, run, step, h1, Bool.true_or, if_true, ih, List.nil_append, List.reverse_cons, List.append_assoc,
      List.cons_append]

/-- A word, read from a state outside tokens. -/
theorem scans_ident {c : Nat} {l : List Nat} (b : Bool) (hc : isLetter c = true) (hl : l.all alnum = true) :
    Scans ⟨.idle, b⟩ (c :: l) [] ⟨.word (c :: l).reverse, b⟩ := by
  have h1 : Scans ⟨.idle, b⟩ [c] [] ⟨.word [c], b⟩ := by
    simp only [Scans, run, step, idle, hc, if_true, List.append_nil]
  have := h1.append (scans_word hl)
  simpa using this

theorem isDigit_not_letter {c : Nat} (h : isDigit c = true) : isLetter c = false := by
  simp only [isDigit, Bool.and_eq_true, Nat.ble_eq] at h
  cases hl : isLetter c with
  | false => rfl
  | true =>
    simp only [isLetter, Bool.or_eq_true, Bool.and_eq_true, Nat.ble_eq, Nat.beq_eq] at hl
    omega

/-- A number, read from a state outside tokens. -/
theorem scans_lit {c : Nat} {l : List Nat} (b : Bool) (hc : isDigit c = true) (hl : l.all alnum = true) :
    Scans ⟨.idle, b⟩ (c :: l) [] ⟨.num (c :: l).reverse, b⟩ := by
  have h1 : Scans ⟨.idle, b⟩ [c] [] ⟨.num [c], b⟩ := by
    simp only [Scans, run, step, idle, isDigit_not_letter hc, hc, Bool.false_eq_true, if_false, if_true,
      List.append_nil]
  have := h1.append (scans_num hl)
  simpa using this

theorem name_codes (s : Ident) : name (codes s) = s := by
  unfold name codes
  rw [List.map_map]
  have : (Char.ofNat ∘ Char.toNat) = id := by
    funext c; simp [Char.ofNat_toNat]
  rw [this, List.map_id, String.ofList_toList]

theorem contains_false {α} [BEq α] [LawfulBEq α] {l : List α} {a : α} (h : l.contains a = false) :
    ∀ b ∈ l, a ≠ b := by
  intro b hb e
  subst e
  have : l.contains a = true := List.contains_iff_mem.mpr hb
  rw [h] at this; cases this

theorem lex_name {s : Ident} (h : reserved.contains (codes s) = false) :
    lexTok (wordTok (codes s)) = some (.ident s) ∧ endsStmt (wordTok (codes s)) = ends (.ident s) := by
  have hne := contains_false h
  by_cases h1 : codes s = t!"type"
  · have : s = "type" := by rw [← name_codes s, h1]; rfl
    subst this
    exact ⟨rfl, rfl⟩
  by_cases h2 : codes s = t!"map"
  · have : s = "map" := by rw [← name_codes s, h2]; rfl
    subst this
    exact ⟨rfl, rfl⟩
  have hk : keywords.contains (codes s) = false := by
    cases hc : keywords.contains (codes s) with
    | false => rfl
    | true =>
      have hr : ∀ k ∈ keywords, k ∈ reserved ∨ k = t!"type" ∨ k = t!"map" := by decide +kernel
      rcases hr _ (List.contains_iff_mem.mp hc) with hr | hr | hr
      · exact absurd rfl (hne _ hr)
      · exact absurd hr h1
      · exact absurd hr h2
  have hw : wordTok (codes s) = .ident (codes s) := by simp only [wordTok, hk, Bool.false_eq_true, if_false]
  have hx : ∀ k ∈ reserved, (codes s == k) = false := by
    intro k hk
    simpa using hne k hk
  constructor
  · rw [hw]
    simp only [lexTok, lexIdent]
    simp only [hx t!"typedef" (by decide +kernel), hx t!"enum" (by decide +kernel), hx t!"union" (by decide +kernel),
      hx t!"void" (by decide +kernel), hx t!"string" (by decide +kernel), hx t!"opaque" (by decide +kernel),
      hx t!"unsigned" (by decide +kernel), hx t!"int" (by decide +kernel), hx t!"hyper" (by decide +kernel),
      hx t!"float" (by decide +kernel), hx t!"double" (by decide +kernel), hx t!"quadruple" (by decide +kernel),
      hx t!"bool" (by decide +kernel), hx t!"program" (by decide +kernel), hx t!"version" (by decide +kernel),
      Bool.false_eq_true, if_false, name_codes]
  · rw [hw]
    have e1 : s ≠ "type" := fun h => h1 (by rw [h]; rfl)
    have e2 : s ≠ "map" := fun h => h2 (by rw [h]; rfl)
    simp [endsStmt, ends, e1, e2]

/-- A token is read: the scanner has it, given out (`early`) or not yet (`late`). -/
structure Reads (b : Bool) (k : XTok) (t : Text) : Prop where
  head : ∃ c l, t = c :: l ∧ c < lit0
  scans : ∃ early late tk st, Scans ⟨.idle, b⟩ t early st ∧ early ++ late = [tk] ∧ lexTok tk = some k ∧
    Pend st late (ends k) (glue k)

theorem alnum_lt {c : Nat} (h : alnum c = true) : c < lit0 := by
  simp only [alnum, isLetter, isDigit, Bool.or_eq_true, Bool.and_eq_true, Nat.ble_eq, Nat.beq_eq] at h
  unfold lit0
  omega

theorem reads_word {c : Nat} {l : List Nat} {k : XTok} (b : Bool) (hc : isLetter c = true)
    (hl : l.all alnum = true) (hx : lexTok (wordTok (c :: l)) = some k)
    (he : endsStmt (wordTok (c :: l)) = ends k) (hg : glue k = alnum) : Reads b k (c :: l) := by
  refine ⟨⟨c, l, rfl, alnum_lt (by simp [alnum, hc])⟩, [], _, _, _, scans_ident b hc hl, rfl, hx, ?_⟩
  rw [hg, ← he]
  have := Pend.word (c :: l).reverse b
  rwa [List.reverse_reverse] at this

theorem reads_op {o : Nat} {tk : Tok} {k : XTok} (b : Bool) (h1 : step ⟨.idle, b⟩ o = some ([], ⟨.op o, b⟩))
    (h2 : single o = some tk) (h3 : endsStmt tk = false) (h4 : lexTok tk = some k) (h5 : ends k = false)
    (h6 : glue k = joins o) (h7 : o < lit0) : Reads b k [o] := by
  refine ⟨⟨o, [], rfl, h7⟩, [], [tk], tk, ⟨.op o, b⟩, ?_, rfl, h4, ?_⟩
  · simp only [Scans, run, h1, List.append_nil]
  · rw [h5, h6]; exact Pend.op b h2 h3

theorem reads_sign {o : Nat} {tk : Tok} {k : XTok} (b : Bool)
    (h1 : step ⟨.idle, b⟩ o = some ([tk], ⟨.idle, ends k⟩)) (h4 : lexTok tk = some k)
    (h6 : glue k = fun _ => false) (h7 : o < lit0) : Reads b k [o] := by
  refine ⟨⟨o, [], rfl, h7⟩, [tk], [], tk, ⟨.idle, ends k⟩, ?_, rfl, h4, ?_⟩
  · simp only [Scans, run, h1, List.append_nil]
  · rw [h6]; exact Pend.idle _

theorem reads_fixed {k : XTok} {t : Text} (b : Bool) (h : fixed k = some t) : Reads b k t := by
  cases k <;> simp only [fixed, Option.some.injEq, reduceCtorEq] at h <;> subst h <;>
    first
    | exact reads_word b rfl rfl rfl rfl rfl
    | exact reads_op b rfl rfl rfl rfl rfl rfl (by decide)
    | exact reads_sign b rfl rfl rfl (by decide)

theorem reads {k : XTok} {t : Text} (b : Bool) (h : Spelling k t) : Reads b k t := by
  cases h with
  | fixed h => exact reads_fixed b h
  | @ident s h =>
    unfold isName at h
    have hh := @lex_name s
    revert h hh
    generalize hs : codes s = cs
    cases cs with
    | nil => intro h; cases h
    | cons c l =>
      intro h hh
      simp only [Bool.and_eq_true, Bool.not_eq_true'] at h
      have := hh h.2
      exact reads_word b h.1.1 h.1.2 this.1 this.2 rfl
  | @const n t h =>
    cases t with
    | nil => cases h
    | cons c l =>
      simp only [isLit, Bool.and_eq_true, beq_iff_eq] at h
      refine ⟨⟨c, l, rfl, alnum_lt (by simp [alnum, h.1.1])⟩, [], [.int n], .int n, _,
        scans_lit b h.1.1 h.1.2, rfl, rfl, ?_⟩
      exact Pend.num b (by rw [List.reverse_reverse]; exact h.2)

/-- The tokens after which the state is `st` with `late` pending. -/
theorem layout_scans {p : Option XTok} {ks : List XTok} {t : Text} (h : Layout p ks t) :
    ∀ {st : St} {late : List Tok} {gl : Nat → Bool}, Pend st late (p.any ends) gl →
      (∀ q, p = some q → gl = glue q) → (p = none → gl = fun _ => false) →
      ∃ ts st', Scans st t ts st' ∧ ∃ ts' tail, finish st' = some tail ∧ ts ++ tail = late ++ ts' ∧
        lexAll ts' = some (ks ++ if ((ks.getLast?).or p).any ends then [.semi] else []) := by
  induction h with
  | @nil p g hg =>
    intro st late gl hp hq hn
    cases g with
    | nil =>
      refine ⟨[], st, rfl, _, _, hp.finish, rfl, ?_⟩
      simp only [List.getLast?_nil, Option.none_or, List.nil_append]
      by_cases hb : p.any ends = true <;> simp [hb, lexAll, lexTok]
    | cons c g =>
      have hgl : gl c = false ∧ c < lit0 := by
        cases p with
        | none => rw [hn rfl]; exact ⟨rfl, (gap_head hg .semi).2⟩
        | some q => rw [hq q rfl]; exact gap_head hg q
      have := hp.scans hgl.1 hgl.2 (scans_gap hg)
      refine ⟨_, _, this, if p.any ends then [.semi] else [], _, (Pend.idle _).finish, by simp, ?_⟩
      simp only [List.getLast?_nil, Option.none_or, List.nil_append]
      by_cases hb : p.any ends = true <;> simp [hb, lexAll, lexTok]
  | @cons p k ks g t r hg hk ha hr ih =>
    intro st late gl hp hq hn
    obtain ⟨⟨c, l, ht, hc⟩, early, late', tk, st1, hs1, hel, hlex, hp1⟩ := reads (p.any ends) hk
    have hs2 : Scans st (g ++ t) (late ++ early) st1 := by
      cases g with
      | nil =>
        have hgl : gl c = false := by
          cases p with
          | none => rw [hn rfl]
          | some q => rw [hq q rfl]; exact ha rfl q rfl c (by rw [ht]; rfl)
        rw [List.nil_append, ht]
        rw [ht] at hs1
        exact hp.scans hgl hc hs1
      | cons d g =>
        have hgl : gl d = false ∧ d < lit0 := by
          cases p with
          | none => rw [hn rfl]; exact ⟨rfl, (gap_head hg .semi).2⟩
          | some q => rw [hq q rfl]; exact gap_head hg q
        have h := hp.scans hgl.1 hgl.2 (scans_gap hg)
        have := h.append hs1
        rwa [List.append_nil] at this
    obtain ⟨ts, st2, hs3, ts', tail, hf, he, hl⟩ := ih hp1 (fun q h => by cases h; rfl) (by simp)
    refine ⟨_, _, hs2.append hs3, tk :: ts', tail, hf, ?_, ?_⟩
    · rw [List.append_assoc, List.append_assoc, he, ← List.append_assoc early, hel]; rfl
    · simp only [lexAll, hlex, hl]
      have : ((k :: ks).getLast?).or p = (ks.getLast?).or (some k) := by
        cases ks with
        | nil => rfl
        | cons a l => simp [List.getLast?_cons]
      rw [this]; rfl

/-- Text that is tokens written down is read as these tokens; if the last one lets a newline be a
semicolon, so does the end of the file. -/
theorem layout_lex {ks : List XTok} {t : Text} (h : Layout none ks t) :
    ∃ ts, scan t = some ts ∧
      lexAll ts = some (ks ++ if (ks.getLast?).any ends then [.semi] else []) := by
  obtain ⟨ts, st, hs, ts', tail, hf, he, hl⟩ := layout_scans h (Pend.idle false) (by simp) (by simp)
  rw [Option.or_none] at hl
  exact ⟨ts', by rw [hs.scan hf, he]; rfl, hl⟩

/-! ### A canonical text -/

/-- Decimal digits. -/
def decimal (n : Nat) : List Nat := if n < 10 then [48 + n] else decimal (n / 10) ++ [48 + n % 10]
  termination_by n

theorem digits_append (base : Nat) : ∀ (l : List Nat) (acc : Nat) (d : Nat), digits base acc (l ++ [d]) =
    match digits base acc l with
    | some a => digits base a [d]
    | none => none
  | [], acc, d => rfl
  | c :: l, acc, d => by
    simp only [List.cons_append, digits]
    cases digitVal c with
    | none => rfl
    | some v =>
      simp only
      split
      · exact digits_append base l _ d
      · rfl

theorem digits_one {d : Nat} (h : d < 10) (acc : Nat) : digits 10 acc [48 + d] = some (acc * 10 + d) := by
  have h1 : isDigit (48 + d) = true := by
    simp only [isDigit, Bool.and_eq_true, Nat.ble_eq]; omega
  have h2 : Nat.blt d 10 = true := by simp [Nat.blt]; omega
  simp only [digits, digitVal, h1, if_true, Nat.add_sub_cancel_left, h2]

theorem digits_decimal (n : Nat) : digits 10 0 (decimal n) = some n := by
  induction n using Nat.strongRecOn with
  | _ n ih =>
    rw [decimal]
    split
    · next h => rw [digits_one h]; simp
    · next h =>
      rw [digits_append, ih (n / 10) (by omega)]
      simp only [digits_one (Nat.mod_lt n (by decide : 10 > 0))]
      congr 1; omega

theorem decimal_all (n : Nat) : (decimal n).all isDigit = true := by
  induction n using Nat.strongRecOn with
  | _ n ih =>
    have hd : ∀ d, d < 10 → isDigit (48 + d) = true := fun d h => by
      simp only [isDigit, Bool.and_eq_true, Nat.ble_eq]; omega
    rw [decimal]
    split
    · next h => simp [hd n h]
    · next h => simp [ih (n / 10) (by omega), hd _ (Nat.mod_lt n (by decide : 10 > 0))]

theorem decimal_head (n : Nat) : ∃ c l, decimal n = c :: l ∧ (n ≠ 0 → c ≠ 48) := by
  induction n using Nat.strongRecOn with
  | _ n ih =>
    rw [decimal]
    split
    · next h => exact ⟨_, _, rfl, fun h => by omega⟩
    · next h =>
      obtain ⟨c, l, e, hc⟩ := ih (n / 10) (by omega)
      exact ⟨c, l ++ [48 + n % 10], by rw [e]; rfl, fun _ => hc (by omega)⟩

theorem litValue_decimal (n : Nat) : litValue (decimal n) = some n := by
  obtain ⟨c, l, e, hc⟩ := decimal_head n
  have hd := digits_decimal n
  rw [e] at hd ⊢
  cases l with
  | nil => exact hd
  | cons d l =>
    have hn : n ≠ 0 := by
      intro h; subst h
      rw [decimal] at e
      simp at e
    have : Nat.beq c 48 = false := by
      cases hb : Nat.beq c 48 with
      | false => rfl
      | true => exact absurd (Nat.eq_of_beq_eq_true hb) (hc hn)
    simp only [litValue, this, Bool.false_eq_true, if_false]
    exact hd

theorem isLit_decimal (n : Nat) : isLit (decimal n) n = true := by
  have h1 := decimal_all n
  have h2 := litValue_decimal n
  revert h1 h2
  cases he : decimal n with
  | nil => intro _ h; cases h
  | cons c l =>
    intro h1 h2
    simp only [List.all_cons, Bool.and_eq_true] at h1
    simp only [isLit, Bool.and_eq_true, beq_iff_eq]
    refine ⟨⟨h1.1, ?_⟩, h2⟩
    rw [List.all_eq_true] at h1 ⊢
    intro x hx
    simp [alnum, h1.2 x hx]

/-- One spelling of each token. -/
def spell : XTok → Text
  | .ident s => codes s
  | .const n => decimal n
  | k => (fixed k).getD []

/-- The tokens with spaces between them. -/
def spaced : List XTok → Text
  | [] => []
  | k :: ks => 32 :: spell k ++ spaced ks

/-- All identifiers are names. -/
def namesOk (ks : List XTok) : Bool := ks.all fun | .ident s => isName s | _ => true

theorem spelling_spell {k : XTok} (h : namesOk [k] = true) : Spelling k (spell k) := by
  cases k with
  | const n => exact .const (isLit_decimal n)
  | ident s => exact .ident (by simpa [namesOk] using h)
  | _ => exact .fixed rfl

theorem layout_spaced : ∀ {p : Option XTok} {ks : List XTok}, namesOk ks = true → Layout p ks (spaced ks)
  | _, [], _ => .nil .nil
  | p, k :: ks, h => by
    simp only [namesOk, List.all_cons, Bool.and_eq_true] at h
    exact Layout.cons (g := [32]) (.blank (.inl rfl) .nil) (spelling_spell (by simpa [namesOk] using h.1))
      (by simp) (layout_spaced h.2)

end Verif.Text
