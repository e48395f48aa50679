import Lean.Meta.Tactic.Simp.RegisterCommand

/-- Functions that do not depend on the order of the hash sets. -/
register_simp_attr ord
