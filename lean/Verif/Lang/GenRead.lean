/-
The files of the generator (Verif.Lang.GenFiles), read.  (The proofs are computations by the kernel.)
-/
import Verif.Lang.Read
import Verif.Lang.GenFiles
import Verif.Lang.GenAst
import Verif.Lang.Yacc

namespace Verif.Lang

theorem readOut : readFile outText.flatten = some outFile := by kernel_rfl
theorem readScan : readFile scanText.flatten = some scanFile := by kernel_rfl
theorem readMain : readFile mainText.flatten = some mainFile := by kernel_rfl

/-- xdr.y, read. -/
def xdrYacc : Yacc := (readYacc yaccText.flatten).getD ⟨[], [], [], []⟩

theorem isSome_yacc : (readYacc yaccText.flatten).isSome = true := by kernel_rfl

theorem readYacc_xdr : readYacc yaccText.flatten = some xdrYacc := by
  unfold xdrYacc
  cases h : readYacc yaccText.flatten with
  | some y => rfl
  | none => have := isSome_yacc; rw [h] at this; cases this

theorem readAct : readFile xdrYacc.go = some yaccFile := by kernel_rfl
theorem readGrammar : xdrYacc.grammar = xdrGrammar := by kernel_rfl

end Verif.Lang
