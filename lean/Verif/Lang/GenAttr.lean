/-
The simp set for running out.go.
-/
import Lean.Meta.Tactic.Simp.RegisterCommand

register_simp_attr gen_simp
