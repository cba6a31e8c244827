/-
The set of rewriting rules that `go_run` uses.
-/
import Lean.Meta.Tactic.Simp.RegisterCommand

/-- Rules for running programs of Verif.Lang. -/
register_simp_attr go_sim
