import Lean.Meta.Tactic.Simp.RegisterCommand

/-- Lemmas that invert a successful run `m s = .ok a s'`. -/
register_simp_attr run

/-- Lemmas that compute `wp m Q X s`. -/
register_simp_attr wps
