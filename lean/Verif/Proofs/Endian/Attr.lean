import Lean.Meta.Tactic.Simp.RegisterCommand

/-- Lemmas `mv (f c x) = f c.other (mv x)`. -/
register_simp_attr mv_push
