import Lean.Meta.Tactic.Simp.RegisterCommand

/-- Unfolding lemmas for the generated definitions and their scalar operations. -/
register_simp_attr cglm

/-- Unfolding lemmas for the generated integer definitions (namespace `Cglm.I`). -/
register_simp_attr cglmi
