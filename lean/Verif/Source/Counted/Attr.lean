import Lean.Meta.Tactic.Simp.RegisterCommand

/-! The simplification rules that execute programs and count (used in proofs only). -/

/-- Rules that execute programs and count loop iterations. -/
register_simp_attr cnt
