import Lean.Meta.Tactic.Simp.RegisterCommand

/-- Calls known to return or panic. -/
register_simp_attr defd
