import Lean.Meta.Tactic.Simp.RegisterCommand
/-- Rewriting rules that read packed fields. -/
register_simp_attr codec
