/-
PROPERTY C62: the automaton that goyacc makes of xdr.y.

`Lr.prun` is the loop of the parser that goyacc generates: it shifts, reduces and accepts as its tables say, and looks at
the next token only if the state does not reduce whatever comes.  A derivation is a tree of the rules of xdr.y (C59).
`Lr.valid` is a check that tables can pass; the theorems are about all tables that do.
-/
import Verif.Lang.XdrLr
import Verif.Props.GoYacc

namespace Verif.Props
open Verif.Text Verif.Gen Verif.Lang Verif.Inst

/-- There are tables that pass the check; their rules are those of the grammar of C59, preceded by goyacc's own, and the
numbers of the terminals are those that `Lex` returns (C60). -/
theorem C62_tables : xdrLr.valid = true ∧ xdrLr.rules = xdrRules ∧
    xdrRules = (999, [ycode "spec"]) :: xdrGrammar.rules.map (fun r => (ycode r.lhs, r.rhs.map ycode)) ∧
    ∀ x : XTok, (ycode (tokSym x) : Int) = symCode (tokSym x) :=
  ⟨xdrLr_valid, rfl, rules_xdr, tok_code⟩

/-- **C62** On every sequence of tokens the automaton comes to an end.  It accepts exactly the sequences that the rules of
xdr.y derive, having reduced as the derivation says. -/
theorem C62_parses {A : Lr} (hv : A.valid = true) (hr : A.rules = xdrRules) (w : List (String × List UInt8)) :
    ∃ n r, (∀ m, n ≤ m → A.prun ycode m ⟨[], w⟩ = some r) ∧ ∀ t, r = some t ↔ Derives xdrGrammar "spec" t ∧ t.yield = w :=
  xdr_correct hv hr w

/-- **C62** It accepts scanned tokens exactly if they are the tokens of a specification. -/
theorem C62_accepts {A : Lr} (hv : A.valid = true) (hr : A.rules = xdrRules) {ts : List XTok} {w : List (String × List UInt8)}
    (h : YToks ts w) : (∃ n t, A.prun ycode n ⟨[], w⟩ = some (some t)) ↔ ∃ s, DSpec ts s := by
  rw [← C59_derives h]
  obtain ⟨n, r, h1, h2⟩ := xdr_correct hv hr w
  constructor
  · rintro ⟨m, t, ht⟩
    refine ⟨t, (h2 t).mp ?_⟩
    have := h1 (max n m) (Nat.le_max_left _ _)
    rw [Lr.prun_mono ht (Nat.le_max_right _ _)] at this
    exact Option.some.inj this.symm
  · rintro ⟨t, ht⟩
    refine ⟨n, t, ?_⟩
    rw [h1 n (Nat.le_refl _), (h2 t).mpr ht]

/-- **C62** A sequence of tokens has at most one derivation. -/
theorem C62_unique {t t' : Tree} (h : Derives xdrGrammar "spec" t) (h' : Derives xdrGrammar "spec" t') (he : t.yield = t'.yield) :
    t = t' := by
  obtain ⟨n, r, _, h2⟩ := xdr_correct xdrLr_valid rfl t'.yield
  exact Option.some.inj (((h2 t).mpr ⟨h, he⟩).symm.trans ((h2 t').mpr ⟨h', rfl⟩))

/-! ### Two sequences -/

/-- `struct s { unsigned int f<0x10>; };` -/
example : xdrLr.prun ycode 60 ⟨[], demoTree.yield⟩ = some (some demoTree) := by kernel_rfl

/-- The same without the last token. -/
example : xdrLr.prun ycode 60 ⟨[], demoTree.yield.dropLast⟩ = some none := by kernel_rfl

end Verif.Props
