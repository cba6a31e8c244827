/-
A scanner for Go (go/scanner), larger than that of Verif.Text.Scan: it reads the hand-written files of
/repo.  ASCII only; no floating-point, imaginary or raw string literals; literals without
underscores; rune literals of one character.
-/
import Verif.Text.Scan

namespace Verif.Lang
open Verif.Text (Text isLetter isDigit keywords litValue)

inductive Tok where
  | id (s : Text)
  | kw (s : Text)
  | int (n : Nat)
  | str (s : Text)
  | op (s : Text)
  deriving DecidableEq, Repr

/-- The operators, longer ones first. -/
def operators : List Text :=
  [t!"...", t!"<<=", t!">>=", t!"&^=",
   t!"&^", t!"&&", t!"||", t!"<-", t!"++", t!"--", t!"==", t!"!=", t!"<=", t!">=", t!":=", t!"+=", t!"-=",
   t!"*=", t!"/=", t!"%=", t!"&=", t!"|=", t!"^=", t!"<<", t!">>",
   t!"+", t!"-", t!"*", t!"/", t!"%", t!"&", t!"|", t!"^", t!"<", t!">", t!"=", t!"!", t!"(", t!")", t!"[",
   t!"]", t!"{", t!"}", t!",", t!";", t!".", t!":"]

/-- The rest after the prefix `p`. -/
def dropPrefix : Text → Text → Option Text
  | [], t => some t
  | _ :: _, [] => none
  | c :: p, d :: t => if Nat.beq c d then dropPrefix p t else none

/-- The first operator that fits. -/
def opAt (t : Text) : List Text → Option (Text × Text)
  | [] => none
  | o :: os =>
    match dropPrefix o t with
    | some r => some (o, r)
    | none => opAt t os

/-- After these tokens a newline is a semicolon. -/
def endsStmt : Tok → Bool
  | .id _ => true
  | .kw s => s == t!"break" || s == t!"continue" || s == t!"fallthrough" || s == t!"return"
  | .int _ => true
  | .str _ => true
  | .op s => s == t!")" || s == t!"]" || s == t!"}" || s == t!"++" || s == t!"--"

/-- The longest prefix of letters and digits, and the rest. -/
def spanWord : Text → Text × Text
  | [] => ([], [])
  | c :: t => if isLetter c || isDigit c then let (a, b) := spanWord t; (c :: a, b) else ([], c :: t)

/-- After the first newline: to the end of a line comment (the newline stays). -/
def skipLine : Text → Text
  | [] => []
  | c :: t => if Nat.beq c 10 then c :: t else skipLine t

/-- The content of a string literal after the opening quote, and the rest. -/
def strLit : Text → Option (Text × Text)
  | [] => none
  | c :: t =>
    if Nat.beq c 34 then some ([], t)
    else if Nat.beq c 10 then none
    else if Nat.beq c 92 then
      match t with
      | 110 :: t => (strLit t).map fun (a, b) => (10 :: a, b)     -- \n
      | 116 :: t => (strLit t).map fun (a, b) => (9 :: a, b)      -- \t
      | 34 :: t => (strLit t).map fun (a, b) => (34 :: a, b)      -- \"
      | 92 :: t => (strLit t).map fun (a, b) => (92 :: a, b)      -- \\
      | _ => none
    else (strLit t).map fun (a, b) => (c :: a, b)

/-- After the end of a comment in which we are; `star`: after a star.  The first component is whether there was a newline. -/
def skipBlock (star : Bool) : Text → Option (Bool × Text)
  | [] => none
  | c :: t =>
    if Nat.beq c 10 then (skipBlock false t).map fun p => (true, p.2)
    else if star && Nat.beq c 47 then some (false, t)
    else skipBlock (Nat.beq c 42) t

/-- The tokens of a text.  `semi`: a newline here is a semicolon. -/
def lexN : Nat → Bool → Text → Option (List Tok)
  | 0, _, _ => none
  | _ + 1, semi, [] => some (if semi then [.op t!";"] else [])
  | n + 1, semi, c :: t =>
    if Nat.beq c 32 || Nat.beq c 9 || Nat.beq c 13 then lexN n semi t
    else if Nat.beq c 10 then
      if semi then (lexN n false t).map (.op t!";" :: ·) else lexN n false t
    else if isLetter c then
      let (w, r) := spanWord (c :: t)
      let k := if keywords.contains w then Tok.kw w else .id w
      (lexN n (endsStmt k) r).map (k :: ·)
    else if isDigit c then
      let (w, r) := spanWord (c :: t)
      match litValue w with
      | some v => (lexN n true r).map (.int v :: ·)
      | none => none
    else if Nat.beq c 34 then
      match strLit t with
      | some (s, r) => (lexN n true r).map (.str s :: ·)
      | none => none
    else if Nat.beq c 39 then
      match t with
      | d :: 39 :: r => if Nat.beq d 92 || Nat.beq d 10 then none else (lexN n true r).map (.int d :: ·)
      | _ => none
    else
      match dropPrefix t!"//" (c :: t) with
      | some r => lexN n semi (skipLine r)
      | none =>
        match dropPrefix t!"/*" (c :: t) with
        | some r =>
          match skipBlock false r with
          | some (nl, r) => if nl && semi then (lexN n false r).map (.op t!";" :: ·) else lexN n semi r
          | none => none
        | none =>
          match opAt (c :: t) operators with
          | some (o, r) => (lexN n (endsStmt (.op o)) r).map (.op o :: ·)
          | none => none

def lex (t : Text) : Option (List Tok) := lexN (t.length + 1) false t

end Verif.Lang
