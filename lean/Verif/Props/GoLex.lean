/-
PROPERTY C60: the text of `Lex` (scan.go:17-150).

go/scanner, the debug flag and `fmt.Printf` are outside the text: `scan` says what `Scan` returns in a state of the world
and in what state it leaves it, and nothing else is assumed of it than how it names the tokens of Go (`IsTok`).  `lexTok` is
the model of `Lex` that C44 to C47 are about, `symCode` the number of a terminal of xdr.y.
-/
import Verif.Lang.LexAll

namespace Verif.Props
open Verif.Text Verif.Lang

variable {ω : Type} {E : Ext ω} {scan : ω → Scanned × ω} {debug : Bool} {printf : List V → List V}

/-- **C60** A call of `Lex` takes one token from the scanner.  If the model accepts it, `Lex` returns its number in xdr.y;
identifiers and constants are in `lval.str`, and nothing else in memory has changed.  Otherwise `Lex` panics. -/
theorem C60_token (h : LexExt E scan debug printf) (k : Nat) {st : St ω} {l v : Nat} {lp vp : List String}
    (hl : (st.heap l).at (lp ++ ["s"]) = some (.struct "scanner.Scanner" [])) (hl' : l < st.next)
    {old : List UInt8} (hv : (st.heap v).at (vp ++ ["str"]) = some (.str old)) (hv' : v < st.next)
    {t : Verif.Text.Tok} (ht : IsTok t (scan st.world).1) :
    match lexTok t with
    | some x => ∃ st', callN genProg E (k + 2) (.meth "main.lexer" "Lex") [.ptr "" ⟨l, lp⟩, .ptr "" ⟨v, vp⟩] st =
        .ok ([.int (symCode (tokSym x))], st') ∧ st'.world = (scan st.world).2 ∧
        (∃ b, TokText x b ∧ V.put (.str b) (st.heap v) (vp ++ ["str"]) = some (st'.heap v)) ∧
        ∀ j, j < st.next → j ≠ v → st'.heap j = st.heap j
    | none => ∃ st', callN genProg E (k + 2) (.meth "main.lexer" "Lex") [.ptr "" ⟨l, lp⟩, .ptr "" ⟨v, vp⟩] st =
        .error (.panic, st') ∧ st'.world = (scan st.world).2 ∧ ∀ j, j < st.next → st'.heap j = st.heap j := by
  have := lex_spec h k hl hl' hv hv' ht
  cases hx : lexTok t with
  | some x =>
    rw [hx] at this
    obtain ⟨r, st', e, rfl, hd⟩ := wp_iff.mp this
    obtain ⟨b, hb, _, hput⟩ := hd.text
    exact ⟨st', e, hd.world, ⟨b, hb, hput⟩, hd.frame⟩
  | none =>
    rw [hx] at this
    obtain ⟨st', e, hd⟩ := this
    exact ⟨st', e, hd.world, hd.frame⟩

/-- **C60** At the end of the file `Lex` returns 0, as goyacc's parser expects. -/
theorem C60_end (h : LexExt E scan debug printf) (k : Nat) {st : St ω} {l v : Nat} {lp vp : List String}
    (hl : (st.heap l).at (lp ++ ["s"]) = some (.struct "scanner.Scanner" [])) (hl' : l < st.next)
    (he : (scan st.world).1.tok = "token.EOF") :
    ∃ st', callN genProg E (k + 2) (.meth "main.lexer" "Lex") [.ptr "" ⟨l, lp⟩, .ptr "" ⟨v, vp⟩] st = .ok ([.int 0], st') ∧
      st'.world = (scan st.world).2 ∧ ∀ j, j < st.next → st'.heap j = st.heap j := by
  obtain ⟨r, st', e, rfl, h1, _, _, h4⟩ := wp_iff.mp (lex_eof h k hl hl' he)
  exact ⟨st', e, h1, h4⟩

/-- The numbers tell the terminals apart, and none is that of the end. -/
theorem C60_codes (x y : XTok) : symCode (tokSym x) ≠ 0 ∧ (symCode (tokSym x) = symCode (tokSym y) → tokSym x = tokSym y) :=
  ⟨symCode_ne x, symCode_inj _ (tokSym_mem x) _ (tokSym_mem y)⟩

/-- **C60** Calling `Lex` until it returns 0 gives, for a file with these tokens of Go, the terminals that the model's
`lexAll` gives, with their texts; it panics if the model rejects one of them. -/
theorem C60_file (h : LexExt E scan debug printf) (k : Nat) {st : St ω} {l : Nat} {lp : List String}
    (hl : (st.heap l).at (lp ++ ["s"]) = some (.struct "scanner.Scanner" [])) (hl' : l < st.next)
    {ts : List Verif.Text.Tok} {w : ω} (hy : Yields scan st.world ts w) (n : Nat) (hn : ts.length < n) :
    match lexAll ts with
    | some xs => ∃ ws st', YToks xs ws ∧ lexes E (k + 2) (.ptr "" ⟨l, lp⟩) n st = .ok (ws.map fun a => (symCode a.1, a.2), st') ∧
        st'.world = w ∧ ∀ j, j < st.next → st'.heap j = st.heap j
    | none => ∃ st', lexes E (k + 2) (.ptr "" ⟨l, lp⟩) n st = .error (.panic, st') := by
  have := lexes_spec h k hl hl' hy n hn
  cases hx : lexAll ts with
  | some xs =>
    rw [hx] at this
    obtain ⟨r, st', e, ⟨ws, h1, rfl⟩, hd⟩ := wp_iff.mp this
    exact ⟨ws, st', h1, e, hd.world, hd.frame⟩
  | none =>
    rw [hx] at this
    obtain ⟨st', e, hd⟩ := this
    exact ⟨st', e⟩

/-! ### A scanner -/

/-- The tokens that are left. -/
abbrev Rest := List Scanned

def restScan : Rest → Scanned × Rest
  | [] => (⟨0, "token.EOF", []⟩, [])
  | t :: ts => (t, ts)

def restExt : Ext Rest where
  ext f args := fun st =>
    if f = "scanner.Scanner.Scan" then
      .ok ([.int (restScan st.world).1.pos, .glob (restScan st.world).1.tok, .str (restScan st.world).1.lit], st.to (restScan st.world).2)
    else if f = "*" then .ok ([.bool (args matches [.glob "main.debugFlag"] && false)], st)
    else .ok ([], st)
  spawn _ _ := stop .stuck
  grow _ _ := 0
  loops := 0

example : LexExt restExt restScan false fun _ => [] :=
  ⟨fun _ _ => rfl, fun _ => rfl, fun _ _ => rfl⟩

/-- `typedef x 0x10 ;` -/
def demoRest : Rest :=
  [⟨1, "token.IDENT", strBytes "typedef"⟩, ⟨9, "token.IDENT", strBytes "x"⟩, ⟨11, "token.INT", strBytes "0x10"⟩,
   ⟨15, "token.SEMICOLON", strBytes ";"⟩]

example : Yields restScan demoRest [.ident t!"typedef", .ident t!"x", .int 16, .semi] [] :=
  .tok (.ident (by decide) (by decide) (by decide)) (.tok (.ident (by decide) (by decide) (by decide))
    (.tok (.int (by decide +kernel)) (.tok .semi (.eof rfl))))

def demoLexer : St Rest := ⟨fun _ => .struct "main.lexer" [("s", .struct "scanner.Scanner" [])], 1, demoRest, []⟩

example : (demoLexer.heap 0).at ([] ++ ["s"]) = some (.struct "scanner.Scanner" []) := rfl

/-- The same computed. -/
example : (match lexes restExt 2 (.ptr "" ⟨0, []⟩) 5 demoLexer with | .ok (r, _) => some r | .error _ => none) =
    some [(57347, []), (57367, strBytes "x"), (57366, strBytes "0x10"), (59, [])] := by decide +kernel

/-- A token that `Lex` does not handle. -/
example : IsTok (.str []) ⟨1, "token.STRING", []⟩ ∧ lexTok (.str []) = none := ⟨.str, rfl⟩

end Verif.Props
