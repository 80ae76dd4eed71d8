import Lean.Meta.Tactic.Simp.RegisterCommand

/-- Equations between a SIMD build's function and the scalar one. -/
register_simp_attr cglm_simd
