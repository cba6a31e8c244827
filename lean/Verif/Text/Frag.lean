/-
Scanning a text piece by piece: lemmas for texts that are put together from fixed strings, words and
expressions.
-/
import Verif.Text.Layout
import Verif.Text.GoSyn
import Verif.Text.Emit

namespace Verif.Text
open Verif.Gen Lean Elab Term

deriving instance Lean.ToExpr for Op
deriving instance Lean.ToExpr for Tok
deriving instance Lean.ToExpr for Mode
deriving instance Lean.ToExpr for St

/-- `scF% "text"`: what the scanner makes of the text outside tokens, `semi = false`. -/
elab "scF% " s:str : term => do
  let t : Text := s.getString.toList.map Char.toNat
  match run ⟨.idle, false⟩ t with
  | some (ts, st) =>
    let prop ← Meta.mkAppM ``Scans #[toExpr (⟨.idle, false⟩ : St), toExpr t, toExpr ts, toExpr st]
    let v := toExpr (some (ts, st))
    let pf ← Meta.mkEqRefl v
    Meta.mkExpectedTypeHint pf prop
  | none => throwError "not scanned"

/-- The same with `semi = true`. -/
elab "scT% " s:str : term => do
  let t : Text := s.getString.toList.map Char.toNat
  match run ⟨.idle, true⟩ t with
  | some (ts, st) =>
    let prop ← Meta.mkAppM ``Scans #[toExpr (⟨.idle, true⟩ : St), toExpr t, toExpr ts, toExpr st]
    let v := toExpr (some (ts, st))
    let pf ← Meta.mkEqRefl v
    Meta.mkExpectedTypeHint pf prop
  | none => throwError "not scanned"

theorem scans_any {m : Mode} {t : Text} {ts : List Tok} {b' : Bool} (h : Scans ⟨.idle, false⟩ t ts ⟨m, b'⟩)
    (h' : Scans ⟨.idle, true⟩ t ts ⟨m, b'⟩) : ∀ b, Scans ⟨.idle, b⟩ t ts ⟨m, b'⟩
  | false => h
  | true => h'

/-- The same for any `semi`. -/
macro "scA% " s:str : term => `(scans_any (scF% $s) (scT% $s))

/-- The characters that may continue a word or a number. -/
def glue0 (c : Nat) : Bool := alnum c || Nat.beq c 46

/-- The text `X` is read as the tokens `ts`, whatever follows (but for `glue0`); a newline after it is a
semicolon. -/
def FragE (X : Text) (ts : List Tok) : Prop :=
  ∀ b c Y us st, glue0 c = false → c < lit0 → Scans ⟨.idle, true⟩ (c :: Y) us st →
    Scans ⟨.idle, b⟩ (X ++ c :: Y) (ts ++ us) st

/-- The text may follow the operator character `o`. -/
def Hd (o : Nat) (X : Text) : Prop := ∃ c l, X = c :: l ∧ c < lit0 ∧ joins o c = false

def okSuf : Text → Bool
  | [] => false
  | c :: _ => !glue0 c && Nat.blt c lit0

theorem okSuf_cons {t : Text} (h : okSuf t = true) : ∃ c l, t = c :: l ∧ glue0 c = false ∧ c < lit0 := by
  cases t with
  | nil => cases h
  | cons c l =>
    simp only [okSuf, Bool.and_eq_true, Bool.not_eq_true', Nat.blt_eq] at h
    exact ⟨c, l, rfl, h.1, h.2⟩

theorem FragE.to {X suf : Text} {ts us : List Tok} {st : St} (hX : FragE X ts)
    (h : Scans ⟨.idle, true⟩ suf us st) (hs : okSuf suf = true) (b : Bool) :
    Scans ⟨.idle, b⟩ (X ++ suf) (ts ++ us) st := by
  obtain ⟨c, l, rfl, h1, h2⟩ := okSuf_cons hs
  exact hX b c l us st h1 h2 h

theorem FragE.pre {X pre : Text} {ts us : List Tok} {b' : Bool} (hX : FragE X ts)
    (h : ∀ b, Scans ⟨.idle, b⟩ pre us ⟨.idle, b'⟩) : FragE (pre ++ X) (us ++ ts) := by
  intro b c Y vs st h1 h2 h3
  rw [List.append_assoc, List.append_assoc]
  exact (h b).append (hX b' c Y vs st h1 h2 h3)

theorem FragE.suf {X suf : Text} {ts us : List Tok} (hX : FragE X ts)
    (h : Scans ⟨.idle, true⟩ suf us ⟨.idle, true⟩) (hs : okSuf suf = true) : FragE (X ++ suf) (ts ++ us) := by
  intro b c Y vs st h1 h2 h3
  obtain ⟨c', l, rfl, h1', h2'⟩ := okSuf_cons hs
  rw [List.append_assoc, List.append_assoc]
  exact hX b c' (l ++ c :: Y) _ st h1' h2' (h.append h3)

theorem FragE.mid {X m Y : Text} {ts us vs : List Tok} {b : Bool} (hX : FragE X ts) (hY : FragE Y vs)
    (h : Scans ⟨.idle, true⟩ m us ⟨.idle, b⟩) (hs : okSuf m = true) :
    FragE (X ++ m ++ Y) (ts ++ us ++ vs) := by
  intro b1 c Z ws st h1 h2 h3
  obtain ⟨c', l, rfl, h1', h2'⟩ := okSuf_cons hs
  simp only [List.append_assoc]
  exact hX b1 c' (l ++ (Y ++ c :: Z)) _ st h1' h2' (h.append (hY b c Z ws st h1 h2 h3))

/-- After an operator that is not finished. -/
theorem Hd.scans {o : Nat} {tk : Tok} {X : Text} {ts : List Tok} {st : St} (hd : Hd o X)
    (ho : single o = some tk) (he : endsStmt tk = false) (h : Scans ⟨.idle, false⟩ X ts st) (b : Bool) :
    Scans ⟨.op o, b⟩ X (tk :: ts) st := by
  obtain ⟨c, l, rfl, h1, h2⟩ := hd
  exact (Pend.op b ho he).scans h2 h1 h

theorem Hd.append {o : Nat} {X : Text} (h : Hd o X) (Y : Text) : Hd o (X ++ Y) := by
  obtain ⟨c, l, rfl, h1, h2⟩ := h
  exact ⟨c, l ++ Y, rfl, h1, h2⟩

theorem FragE.preOp {X pre : Text} {ts us : List Tok} {o : Nat} {tk : Tok} {b' : Bool} (hX : FragE X ts)
    (hd : Hd o X) (h : ∀ b, Scans ⟨.idle, b⟩ pre us ⟨.op o, b'⟩)
    (ho : single o = some tk := by rfl) (he : endsStmt tk = false := by rfl) :
    FragE (pre ++ X) (us ++ tk :: ts) := by
  intro b c Y vs st h1 h2 h3
  rw [List.append_assoc, List.append_assoc, List.cons_append]
  exact (h b).append ((hd.append _).scans ho he (hX false c Y vs st h1 h2 h3) b')

/-- An operator of one character. -/
theorem FragE.op {X : Text} {ts : List Tok} (o : Nat) {tk : Tok} (hX : FragE X ts) (hd : Hd o X)
    (h : ∀ b, Scans ⟨.idle, b⟩ [o] [] ⟨.op o, b⟩)
    (ho : single o = some tk := by rfl) (he : endsStmt tk = false := by rfl) :
    FragE ([o] ++ X) (tk :: ts) := by
  intro b c Y vs st h1 h2 h3
  rw [List.append_assoc]
  exact (h b).append ((hd.append _).scans ho he (hX false c Y vs st h1 h2 h3) b)

theorem FragE.midOp {X m Y : Text} {ts us vs : List Tok} {o : Nat} {tk : Tok} {b : Bool} (hX : FragE X ts)
    (hY : FragE Y vs) (hd : Hd o Y) (h : Scans ⟨.idle, true⟩ m us ⟨.op o, b⟩) (hs : okSuf m = true)
    (ho : single o = some tk := by rfl) (he : endsStmt tk = false := by rfl) :
    FragE (X ++ m ++ Y) (ts ++ us ++ tk :: vs) := by
  intro b1 c Z ws st h1 h2 h3
  obtain ⟨c', l, rfl, h1', h2'⟩ := okSuf_cons hs
  simp only [List.append_assoc, List.cons_append]
  exact hX b1 c' (l ++ (Y ++ c :: Z)) _ st h1' h2'
    (h.append ((hd.append _).scans ho he (hY false c Z ws st h1 h2 h3) b))

/-! ### Words and literals -/

/-- An identifier of Go. -/
structure Word (w : Text) : Prop where
  ex : ∃ c l, w = c :: l ∧ isLetter c = true ∧ l.all alnum = true
  kw : keywords.contains w = false

theorem isLetter_lt {c : Nat} (h : isLetter c = true) : c < lit0 := by
  simp only [isLetter, Bool.or_eq_true, Bool.and_eq_true, Nat.ble_eq, Nat.beq_eq] at h
  unfold lit0; omega

theorem Word.tok {w : Text} (h : Word w) : wordTok w = .ident w := by
  unfold wordTok; rw [h.kw]; rfl

theorem Word.frag {w : Text} (h : Word w) : FragE w [.ident w] := by
  obtain ⟨c, l, e, h1, h2⟩ := h.ex
  intro b d Y us st hg hl hs
  have hw := scans_ident b h1 h2
  rw [← e] at hw
  have hp := Pend.word w.reverse b
  rw [List.reverse_reverse, h.tok] at hp
  have hg' : alnum d = false := by
    simp only [glue0, Bool.or_eq_false_iff] at hg; exact hg.1
  exact hw.append (hp.scans hg' hl hs)

theorem joins_letter {o c : Nat} (h : isLetter c = true) (ho : o = 42 ∨ o = 38 ∨ o = 46) : joins o c = false := by
  simp only [isLetter, Bool.or_eq_true, Bool.and_eq_true, Nat.ble_eq, Nat.beq_eq] at h
  have hb : ∀ k, c ≠ k → Nat.beq c k = false := fun k hk => by
    cases hb : Nat.beq c k with
    | false => rfl
    | true => exact absurd (Nat.eq_of_beq_eq_true hb) hk
  rcases ho with rfl | rfl | rfl
  · simp only [joins]; exact hb _ (by omega)
  · simp only [joins]; rw [hb _ (by omega), hb _ (by omega), hb _ (by omega)]; rfl
  · simp only [joins]
    rw [hb _ (by omega)]
    have h1 : isDigit c = false := by
      cases hd : isDigit c with
      | false => rfl
      | true =>
        simp only [isDigit, Bool.and_eq_true, Nat.ble_eq] at hd
        omega
    rw [h1, ble_lit0 (by unfold lit0; omega)]; rfl

theorem Word.hd {w : Text} (h : Word w) {o : Nat} (ho : o = 42 ∨ o = 38 ∨ o = 46) : Hd o w := by
  obtain ⟨c, l, e, h1, _⟩ := h.ex
  exact ⟨c, l, e, isLetter_lt h1, joins_letter h1 ho⟩

theorem frag_lit (n : Nat) : FragE [lit0 + n] [.int n] := by
  intro b c Y us st hg hl hs
  have h0 : Scans ⟨.idle, b⟩ [lit0 + n] [] ⟨.lit n, b⟩ := by
    have h1 : idle b (lit0 + n) = some ([], ⟨.lit n, b⟩) := by
      have a1 : isLetter (lit0 + n) = false := by
        cases h : isLetter (lit0 + n) with
        | false => rfl
        | true => exact absurd (isLetter_lt h) (by omega)
      have a2 : isDigit (lit0 + n) = false := by
        cases h : isDigit (lit0 + n) with
        | false => rfl
        | true =>
          simp only [isDigit, Bool.and_eq_true, Nat.ble_eq] at h
          unfold lit0 at h; omega
      have a3 : Nat.ble lit0 (lit0 + n) = true := Nat.ble_eq.mpr (by omega)
      have a4 : lit0 + n - lit0 = n := by omega
      unfold idle
      rw [a1, a2]
      simp only [Bool.false_eq_true, if_false]
      split <;> first
        | (rename_i h; unfold lit0 at h; omega)
        | (simp only [a3, if_true, a4])
    simp only [Scans, run, step, h1, List.append_nil]
  have hp : Pend ⟨.lit n, b⟩ [.int n] true glue0 := by
    refine ⟨fun c hc hl => ?_, by simp [Text.finish, lastTok_eq, endsStmt]⟩
    have : (isLetter c || isDigit c || Nat.beq c 46) = false := hc
    simp only [Text.step, this, ble_lit0 hl, Bool.or_false, Bool.false_eq_true, if_false, flush_eq, endsStmt]
  exact h0.append (hp.scans hg hl hs)

end Verif.Text
