import Lean.Meta.Tactic.Simp.RegisterCommand

/-! The simplification rules that execute programs with bounded nesting (used in proofs only). -/

/-- Rules that execute programs with bounded nesting. -/
register_simp_attr dep
