import Lean.Meta.Tactic.Simp.RegisterCommand
/-!
# The simp set for evaluating the functions of the parquet crate
-/
/-- Evaluation of the functions of the parquet crate -/
register_simp_attr pq
