import Lean.Meta.Tactic.Simp.RegisterCommand

/-!
# Simp sets used in the proofs about the parser
-/

/-- Symbolic execution of parse functions, with the shape invariant. -/
register_simp_attr sh_rules
/-- Unfolds the tables of node shapes. -/
register_simp_attr sh_tables
