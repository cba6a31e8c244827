/-
scan.go: from Go tokens to the terminals of the grammar; and reading a specification file.
-/
import Verif.Text.Scan
import Verif.Text.XdrParse

namespace Verif.Text
open Verif.Gen

/-- The string of some character codes, and back. -/
def name (s : List Nat) : Ident := String.ofList (s.map Char.ofNat)
def codes (s : Ident) : List Nat := s.toList.map Char.toNat

/-- `Lex` on an identifier (scan.go:49-99). -/
def lexIdent (s : List Nat) : XTok :=
  if s == t!"typedef" then .ktypedef
  else if s == t!"enum" then .kenum
  else if s == t!"union" then .kunion
  else if s == t!"void" then .kvoid
  else if s == t!"string" then .kstring
  else if s == t!"opaque" then .kopaque
  else if s == t!"unsigned" then .kunsigned
  else if s == t!"int" then .kint
  else if s == t!"hyper" then .khyper
  else if s == t!"float" then .kfloat
  else if s == t!"double" then .kdouble
  else if s == t!"quadruple" then .kquadruple
  else if s == t!"bool" then .kbool
  else if s == t!"program" then .kprogram
  else if s == t!"version" then .kversion
  else .ident (name s)

/-- `Lex` (scan.go:17-150); `none` is a panic. -/
def lexTok : Tok → Option XTok
  | .kw s =>
    if s == t!"const" then some .kconst
    else if s == t!"struct" then some .kstruct
    else if s == t!"type" then some (.ident "type")
    else if s == t!"switch" then some .kswitch
    else if s == t!"case" then some .kcase
    else if s == t!"default" then some .kdefault
    else if s == t!"map" then some (.ident "map")
    else none
  | .ident s => some (lexIdent s)
  | .int n => some (.const n)
  | .str _ => none
  | .semi => some .semi
  | .op .assign => some .eq
  | .op .colon => some .colon
  | .op .lss => some .lt
  | .op .gtr => some .gt
  | .op .lbrack => some .lbrack
  | .op .rbrack => some .rbrack
  | .op .lbrace => some .lbrace
  | .op .rbrace => some .rbrace
  | .op .comma => some .comma
  | .op .lparen => some .lparen
  | .op .rparen => some .rparen
  | .op .mul => some .star
  | .op _ => none

/-- All tokens of a file.  (The parser asks for them one by one; it stops at the first panic, of the
lexer or its own.) -/
def lexAll : List Tok → Option (List XTok)
  | [] => some []
  | t :: ts =>
    match lexTok t with
    | some x =>
      match lexAll ts with
      | some xs => some (x :: xs)
      | none => none
    | none => none

/-- What `xdrParse` (main.go:76) makes of a file: the `emit` calls in order; `none` if it panics. -/
def readSpec (t : Text) : Option Spec :=
  match scan t with
  | some ts =>
    match lexAll ts with
    | some xs => parseXdr xs
    | none => none
  | none => none

theorem lexAll_append (a b : List Tok) : lexAll (a ++ b) =
    match lexAll a with
    | some xs => (match lexAll b with | some ys => some (xs ++ ys) | none => none)
    | none => none := by
  induction a with
  | nil => simp only [List.nil_append, lexAll]; cases lexAll b <;> rfl
  | cons t a ih =>
    simp only [List.cons_append, lexAll, ih]
    cases lexTok t with
    | none => rfl
    | some x =>
      cases lexAll a with
      | none => rfl
      | some xs => cases lexAll b <;> rfl

end Verif.Text
