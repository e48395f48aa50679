import Lean.Meta.Tactic.Simp.RegisterCommand

/-- Lemmas that compute `Calm` and `CalmM`. -/
register_simp_attr calm
