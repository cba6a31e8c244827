/-
The scanner of the Go standard library (go/scanner), as far as it is needed here.  It is used twice:
scan.go runs it on the specification (main.go:46), and format.Source runs it on the generated text
(main.go:93).

A text is a list of character codes.  The scanner is an automaton that reads one character at a time,
so that what it does on a text is composed of what it does on the parts.

Modelled: ASCII identifiers and keywords, integer literals, strings without escapes, comments, the
operators below, and the automatic insertion of semicolons.  Anything else is `none`, which says nothing
about what the real scanner does.

Codes from `lit0` on are not characters: `lit0 + n` stands for any spelling of an integer literal of
value `n` (the generator copies literals from the specification as they are spelled; the model keeps
their values).  See Verif.Text.Spells.
-/
import Lean

namespace Verif.Text

abbrev Text := List Nat

/-- The character codes of a string literal. -/
elab:max "t!" s:str : term => return Lean.toExpr (s.getString.toList.map Char.toNat)

inductive Op where
  | lparen | rparen | lbrack | rbrack | lbrace | rbrace | comma | period | colon
  | define | assign | neq | inc | dec | sub | and | mul | lss | gtr
  deriving DecidableEq, Repr

/-- Tokens.  A semicolon is written or inserted; the parsers do not distinguish. -/
inductive Tok where
  | ident (s : List Nat)
  | kw (s : List Nat)
  | int (n : Nat)
  | str (s : List Nat)
  | op (o : Op)
  | semi
  deriving DecidableEq, Repr

def lit0 : Nat := 0x110000

def isLetter (c : Nat) : Bool := (Nat.ble 97 c && Nat.ble c 122) || (Nat.ble 65 c && Nat.ble c 90) || Nat.beq c 95
def isDigit (c : Nat) : Bool := Nat.ble 48 c && Nat.ble c 57

/-- The keywords of Go. -/
def keywords : List (List Nat) :=
  [t!"break", t!"case", t!"chan", t!"const", t!"continue", t!"default", t!"defer", t!"else",
   t!"fallthrough", t!"for", t!"func", t!"go", t!"goto", t!"if", t!"import", t!"interface", t!"map",
   t!"package", t!"range", t!"return", t!"select", t!"struct", t!"switch", t!"type", t!"var"]

def wordTok (s : List Nat) : Tok := if keywords.contains s then .kw s else .ident s

/-- After these tokens a newline is a semicolon. -/
def endsStmt : Tok → Bool
  | .ident _ => true
  | .kw s => s == t!"break" || s == t!"continue" || s == t!"fallthrough" || s == t!"return"
  | .int _ => true
  | .str _ => true
  | .op .rparen => true
  | .op .rbrack => true
  | .op .rbrace => true
  | .op .inc => true
  | .op .dec => true
  | .op _ => false
  | .semi => false

/-- The value of a digit in bases up to 16. -/
def digitVal (c : Nat) : Option Nat :=
  if isDigit c then some (c - 48)
  else if Nat.ble 97 c && Nat.ble c 102 then some (c - 87)
  else if Nat.ble 65 c && Nat.ble c 70 then some (c - 55)
  else none

/-- The value of a sequence of digits, after digits of value `acc`. -/
def digits (base : Nat) : Nat → List Nat → Option Nat
  | acc, [] => some acc
  | acc, c :: cs =>
    match digitVal c with
    | some d => if Nat.blt d base then digits base (acc * base + d) cs else none
    | none => none

/-- The value of an integer literal (without underscores). -/
def litValue : List Nat → Option Nat
  | [] => none
  | [c] => digits 10 0 [c]
  | c :: d :: cs =>
    if Nat.beq c 48 then
      if Nat.beq d 120 || Nat.beq d 88 then (if cs.isEmpty then none else digits 16 0 cs)
      else if Nat.beq d 111 || Nat.beq d 79 then (if cs.isEmpty then none else digits 8 0 cs)
      else if Nat.beq d 98 || Nat.beq d 66 then (if cs.isEmpty then none else digits 2 0 cs)
      else digits 8 0 (d :: cs)
    else digits 10 0 (c :: d :: cs)

/-- What the scanner is in the middle of; words, numbers and strings are kept in reverse. -/
inductive Mode where
  | idle
  | word (acc : List Nat)
  | num (acc : List Nat)
  | lit (n : Nat)
  | op (c : Nat)
  | line
  | block (star : Bool)
  | str (acc : List Nat)
  deriving DecidableEq, Repr

structure St where
  mode : Mode
  /-- A newline is a semicolon. -/
  semi : Bool
  deriving DecidableEq, Repr

/-- A character outside tokens. -/
def idle (semi : Bool) (c : Nat) : Option (List Tok × St) :=
  if isLetter c then some ([], ⟨.word [c], semi⟩)
  else if isDigit c then some ([], ⟨.num [c], semi⟩)
  else
    match c with
    | 32 => some ([], ⟨.idle, semi⟩)                    -- space
    | 9 => some ([], ⟨.idle, semi⟩)                     -- tab
    | 13 => some ([], ⟨.idle, semi⟩)                    -- carriage return
    | 10 => some (if semi then [.semi] else [], ⟨.idle, false⟩)
    | 34 => some ([], ⟨.str [], semi⟩)                  -- "
    | 40 => some ([.op .lparen], ⟨.idle, false⟩)
    | 41 => some ([.op .rparen], ⟨.idle, true⟩)
    | 91 => some ([.op .lbrack], ⟨.idle, false⟩)
    | 93 => some ([.op .rbrack], ⟨.idle, true⟩)
    | 123 => some ([.op .lbrace], ⟨.idle, false⟩)
    | 125 => some ([.op .rbrace], ⟨.idle, true⟩)
    | 44 => some ([.op .comma], ⟨.idle, false⟩)
    | 59 => some ([.semi], ⟨.idle, false⟩)
    | 58 | 33 | 43 | 45 | 38 | 42 | 60 | 62 | 61 | 47 | 46 => some ([], ⟨.op c, semi⟩)  -- : ! + - & * < > = / .
    | _ => if Nat.ble lit0 c then some ([], ⟨.lit (c - lit0), semi⟩) else none

/-- The token `t` ends before the character `c`. -/
def flush (t : Tok) (c : Nat) : Option (List Tok × St) :=
  match idle (endsStmt t) c with
  | some (ts, st) => some (t :: ts, st)
  | none => none

/-- An operator of one character. -/
def single : Nat → Option Tok
  | 58 => some (.op .colon)
  | 45 => some (.op .sub)
  | 38 => some (.op .and)
  | 42 => some (.op .mul)
  | 60 => some (.op .lss)
  | 62 => some (.op .gtr)
  | 61 => some (.op .assign)
  | 46 => some (.op .period)
  | _ => none

/-- Two characters that make one operator (or begin one that is not modelled, or a literal like `.5`). -/
def joins (o c : Nat) : Bool :=
  match o with
  | 58 => Nat.beq c 61                                         -- :=
  | 33 => Nat.beq c 61                                         -- !=
  | 43 => Nat.beq c 43 || Nat.beq c 61                         -- ++ +=
  | 45 => Nat.beq c 45 || Nat.beq c 61                         -- -- -=
  | 38 => Nat.beq c 38 || Nat.beq c 94 || Nat.beq c 61         -- && &^ &=
  | 42 => Nat.beq c 61                                         -- *=
  | 60 => Nat.beq c 60 || Nat.beq c 61 || Nat.beq c 45         -- << <= <-
  | 62 => Nat.beq c 62 || Nat.beq c 61                         -- >> >=
  | 61 => Nat.beq c 61                                         -- ==
  | 47 => Nat.beq c 47 || Nat.beq c 42 || Nat.beq c 61         -- // /* /=
  | 46 => Nat.beq c 46 || isDigit c || Nat.ble lit0 c          -- .. .5
  | _ => true

/-- What two joined characters are. -/
def joined (semi : Bool) (o c : Nat) : Option (List Tok × St) :=
  match o, c with
  | 58, 61 => some ([.op .define], ⟨.idle, false⟩)
  | 33, 61 => some ([.op .neq], ⟨.idle, false⟩)
  | 43, 43 => some ([.op .inc], ⟨.idle, true⟩)
  | 45, 45 => some ([.op .dec], ⟨.idle, true⟩)
  | 47, 47 => some ([], ⟨.line, semi⟩)
  | 47, 42 => some ([], ⟨.block false, semi⟩)
  | _, _ => none

/-- One character. -/
def step (st : St) (c : Nat) : Option (List Tok × St) :=
  match st.mode with
  | .idle => idle st.semi c
  | .word acc =>
    if isLetter c || isDigit c then some ([], ⟨.word (c :: acc), st.semi⟩)
    else if Nat.ble lit0 c then none
    else flush (wordTok acc.reverse) c
  | .num acc =>
    if isLetter c || isDigit c || Nat.beq c 46 then some ([], ⟨.num (c :: acc), st.semi⟩)
    else if Nat.ble lit0 c then none
    else
      match litValue acc.reverse with
      | some n => flush (.int n) c
      | none => none
  | .lit n =>
    if isLetter c || isDigit c || Nat.beq c 46 || Nat.ble lit0 c then none else flush (.int n) c
  | .op o =>
    if joins o c then joined st.semi o c
    else
      match single o with
      | some t => flush t c
      | none => none
  | .line => if Nat.beq c 10 then idle st.semi c else if Nat.ble lit0 c then none else some ([], st)
  | .block star =>
    if Nat.ble lit0 c then none
    else if Nat.beq c 10 then some (if st.semi then [.semi] else [], ⟨.block false, false⟩)
    else if star && Nat.beq c 47 then some ([], ⟨.idle, st.semi⟩)
    else some ([], ⟨.block (Nat.beq c 42), st.semi⟩)
  | .str acc =>
    if Nat.beq c 34 then some ([.str acc.reverse], ⟨.idle, true⟩)
    else if Nat.beq c 10 || Nat.beq c 92 || Nat.ble lit0 c then none
    else some ([], ⟨.str (c :: acc), st.semi⟩)

/-- A text. -/
def run (st : St) : Text → Option (List Tok × St)
  | [] => some ([], st)
  | c :: cs =>
    match step st c with
    | some (ts, st) =>
      match run st cs with
      | some (us, st) => some (ts ++ us, st)
      | none => none
    | none => none

/-- The end of the file after the token `t`. -/
def lastTok (t : Tok) : List Tok := if endsStmt t then [t, .semi] else [t]

/-- The end of the file. -/
def finish (st : St) : Option (List Tok) :=
  match st.mode with
  | .idle => some (if st.semi then [.semi] else [])
  | .line => some (if st.semi then [.semi] else [])
  | .word acc => some (lastTok (wordTok acc.reverse))
  | .num acc =>
    match litValue acc.reverse with
    | some n => some (lastTok (.int n))
    | none => none
  | .lit n => some (lastTok (.int n))
  | .op o =>
    match single o with
    | some t => some (lastTok t)
    | none => none
  | .block _ => none
  | .str _ => none

/-- The tokens of a file. -/
def scan (t : Text) : Option (List Tok) :=
  match run ⟨.idle, false⟩ t with
  | some (ts, st) =>
    match finish st with
    | some us => some (ts ++ us)
    | none => none
  | none => none

/-! ### Composition -/

theorem run_append (st : St) (a b : Text) : run st (a ++ b) =
    match run st a with
    | some (ts, st) =>
      match run st b with
      | some (us, st) => some (ts ++ us, st)
      | none => none
    | none => none := by
  induction a generalizing st with
  | nil =>
    simp only [List.nil_append, run]
    cases run st b <;> rfl
  | cons c cs ih =>
    simp only [List.cons_append, run]
    cases step st c with
    | none => rfl
    | some r =>
      obtain ⟨ts, st'⟩ := r
      simp only [ih st']
      cases run st' cs with
      | none => rfl
      | some r =>
        obtain ⟨us, st''⟩ := r
        simp only
        cases run st'' b with
        | none => rfl
        | some r => simp

/-- The scanner reads `t` from state `st`, giving the tokens `ts` and ending in `st'`. -/
def Scans (st : St) (t : Text) (ts : List Tok) (st' : St) : Prop := run st t = some (ts, st')

theorem Scans.nil (st : St) : Scans st [] [] st := rfl

theorem Scans.append {st st' st'' : St} {a b : Text} {ts us : List Tok} (h : Scans st a ts st')
    (h' : Scans st' b us st'') : Scans st (a ++ b) (ts ++ us) st'' := by
  unfold Scans at *
  rw [run_append, h]
  simp only [h']

theorem Scans.scan {t : Text} {ts us : List Tok} {st : St} (h : Scans ⟨.idle, false⟩ t ts st)
    (h' : finish st = some us) : scan t = some (ts ++ us) := by
  unfold Text.scan
  rw [h]
  simp only [h']

end Verif.Text
