import Lean.Meta.Tactic.Simp.RegisterCommand

/-- Lemmas `f (c.on b) = f c`. -/
register_simp_attr bk
