/-
PROPERTY C45: parsing.  The grammar xdr.y derives from a token sequence at most one specification, and
derives every specification from its concrete syntax.
-/
import Verif.Text.Layout
import Verif.Inst.Rfc1057Data

namespace Verif.Props
open Verif.Gen Verif.Text

/-- **C45** The grammar is unambiguous: a token sequence stands for at most one specification. -/
theorem C45_unambiguous {ts : List XTok} {s s' : Spec} (h : DSpec ts s) (h' : DSpec ts s') : s = s' := by
  have := ((parseXdr_iff ts s).mpr h).symm.trans ((parseXdr_iff ts s').mpr h')
  exact Option.some.inj this

/-- **C45** Every specification without empty enumerations, of any size and nesting, is derived from its
concrete syntax. -/
theorem C45_derives (s : Spec) (h : okSpec s = true) : DSpec (pSpec s) s := dSpec s h

/-- **C45** Nothing else is accepted: what derives a specification is its concrete syntax, and it has no
empty enumerations. -/
theorem C45_only {ts : List XTok} {s : Spec} (h : DSpec ts s) : ts = pSpec s ∧ okSpec s = true := ⟨h.eq, h.ok⟩

/-- **C45** Different specifications have different concrete syntax. -/
theorem C45_injective {s s' : Spec} (h : okSpec s = true) (h' : okSpec s' = true) (he : pSpec s = pSpec s') :
    s = s' := by
  have := dSpec s h
  rw [he] at this
  exact C45_unambiguous this (dSpec s' h')

/-- **C45** Parsing succeeds on exactly the derivable sequences, with the derived specification. -/
theorem C45_parse (ts : List XTok) (s : Spec) : parseXdr ts = some s ↔ DSpec ts s := parseXdr_iff ts s

/-- A specification with everything in it. -/
def everything : Spec :=
  [.const "MAX" 10,
   .enum "color" [⟨"RED", .lit 0⟩, ⟨"BLUE", .ident "MAX"⟩],
   .struct "s" (.cons (.name (.array (.hyper true) (.ident "MAX")) "a") (.cons .void
      (.cons (.name (.varArray (.struct (.cons (.name (.opaqueArray (.lit 4)) "o") .nil)) none) "b") .nil))),
   .union "u" (.name (.typespec (.ident "color")) "c")
      (.cons (.ident "RED") [.ident "BLUE"] (.name (.ptr (.ident "s")) "p") (.dflt .void)),
   .typedef (.name (.string (some (.lit 255))) "name"),
   .typedef (.name (.opaqueVarArray none) "data"),
   .typedef (.name (.typespec (.union (.name (.typespec .bool) "b")
      (.cons (.ident "TRUE") [] (.name (.typespec (.enum [⟨"ONE", .lit 1⟩])) "x") .nil))) "w"),
   .program ⟨"P", [⟨"V", [⟨"NULL", none, none, 0⟩, ⟨"GET", some (.ident "name"), some .float, 1⟩], 2⟩], 3⟩]

example : okSpec everything = true := by decide +kernel
example : parseXdr (pSpec everything) = some everything := by decide +kernel
/-- The enumeration without items is refused. -/
example : okSpec [.enum "e" []] = false ∧ parseXdr (pSpec [.enum "e" []]) = none := by decide +kernel
/-- A declaration without semicolon is refused. -/
example : parseXdr [.kconst, .ident "A", .eq, .const 1] = none := by decide +kernel

/-! ### Text -/

theorem pDefn_last (d : Defn) : (pDefn d).getLast? = some .semi := by
  cases d <;> simp [pDefn, List.getLast?_cons, List.getLast?_append]

theorem pSpec_last (s : Spec) : ((pSpec s).getLast?).any ends = false := by
  cases hs : s.getLast? with
  | none => rw [List.getLast?_eq_none_iff.mp hs]; rfl
  | some d =>
    obtain ⟨l, rfl⟩ := List.getLast?_eq_some_iff.mp hs
    simp only [pSpec, List.flatMap_append, List.flatMap_cons, List.flatMap_nil, List.append_nil,
      List.getLast?_append, pDefn_last]
    rfl

/-- **C45** However a specification is written down — with any spelling of the literals, any blanks and
comments between the tokens, newlines wherever the preceding token does not turn them into semicolons —
reading the file gives the specification back. -/
theorem C45_text {s : Spec} {t : Text} (h : okSpec s = true) (ht : Layout none (pSpec s) t) :
    readSpec t = some s := by
  obtain ⟨ts, h1, h2⟩ := layout_lex ht
  rw [pSpec_last] at h2
  simp only [Bool.false_eq_true, if_false, List.append_nil] at h2
  simp only [readSpec, h1, h2]
  exact (parseXdr_iff _ _).mpr (dSpec s h)

/-- **C45** A text is never a way to write down two specifications. -/
theorem C45_text_unique {s s' : Spec} {t : Text} (h : okSpec s = true) (h' : okSpec s' = true)
    (ht : Layout none (pSpec s) t) (ht' : Layout none (pSpec s') t) : s = s' :=
  Option.some.inj ((C45_text h ht).symm.trans (C45_text h' ht'))

/-- **C45** Every specification whose identifiers are names can be written down. -/
theorem C45_writable {s : Spec} (h : okSpec s = true) (hn : namesOk (pSpec s) = true) :
    Layout none (pSpec s) (spaced (pSpec s)) ∧ readSpec (spaced (pSpec s)) = some s :=
  ⟨layout_spaced hn, C45_text h (layout_spaced hn)⟩

example : namesOk (pSpec everything) = true := by decide +kernel

/-- Comments, spellings, newlines. -/
example : readSpec t!"/* a * b */const A=0x1F; // c
  enum e{
B= 017,C=A};" = some [.const "A" 31, .enum "e" [⟨"B", .lit 15⟩, ⟨"C", .ident "A"⟩]] := by decide +kernel

/-- **C45** (defect) A newline is not always a blank: RFC 4506's own layout of enumerations, with a newline
after the last item, is refused; -/
theorem C45_newline_refused : readSpec t!"enum e { B = 1,
  C = 2
};" = none := by decide +kernel

/-- and a missing semicolon at the end of a line is supplied. -/
theorem C45_newline_supplied : readSpec t!"const A = 1
const B = 2" = some [.const "A" 1, .const "B" 2] := by decide +kernel

/-- **C45** (defect) Negative constants are refused (RFC 4506 section 4.3 allows them), and so are
identifiers that are keywords of Go. -/
theorem C45_refused : readSpec t!"const A = -1;" = none ∧ readSpec t!"struct s { int range; };" = none ∧
    readSpec t!"struct s { int type; };" =
      some [.struct "s" (.cons (.name (.typespec (.int false)) "type") .nil)] := by decide +kernel

end Verif.Props
