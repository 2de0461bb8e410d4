import Lean.Meta.Tactic.Simp.RegisterCommand
/-!
# The simp set used to run source texts
-/

/-- Equations of the evaluator and of the world. -/
register_simp_attr src
