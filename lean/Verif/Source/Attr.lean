import Lean.Meta.Tactic.Simp.RegisterCommand

/-! The simplification rules that execute programs (used in proofs only). -/

/-- Rules that execute programs. -/
register_simp_attr src
