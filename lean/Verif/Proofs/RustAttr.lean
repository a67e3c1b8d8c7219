import Lean.Meta.Tactic.Simp.RegisterCommand
/-!
# The simp set for evaluating Rust functions
-/
/-- Evaluation of Rust syntax -/
register_simp_attr rs
