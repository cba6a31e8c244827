/-
The files of Verif.Lang.Files, read.  (The proofs are computations by the kernel.)
-/
import Verif.Lang.Parse
import Verif.Lang.Files
import Verif.Lang.Ast
import Verif.Inst.Text1057
import Lean.Elab.Tactic.Basic

namespace Verif.Lang

open Lean Elab Tactic Meta in
/-- `rfl`, checked by the kernel only. -/
elab "kernel_rfl" : tactic => do
  let g ← getMainGoal
  match (← instantiateMVars (← g.getType)).eq? with
  | some (_, a, _) => g.assign (← mkEqRefl a)
  | none => throwError "not an equation"

theorem readLib : readFile libText.flatten = some libFile := by kernel_rfl
theorem readHelper : readFile helperText.flatten = some helperFile := by kernel_rfl
theorem readTypes : readFile typesText.flatten = some typesFile := by kernel_rfl
theorem readClient : readFile clientText.flatten = some clientFile := by kernel_rfl
theorem readServer : readFile serverText.flatten = some serverFile := by kernel_rfl
theorem readRpcTypes : readFile Inst.Rfc1057.typesText.flatten.flatten = some rpcTypesFile := by kernel_rfl
theorem readRpcXdr : readFile Inst.Rfc1057.codeText.flatten.flatten = some rpcXdrFile := by kernel_rfl

end Verif.Lang
