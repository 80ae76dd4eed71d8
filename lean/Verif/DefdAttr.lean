import Lean.Meta.Tactic.Simp.RegisterCommand

/-- Lemmas that move defined values outwards (`Verif.Defd`). -/
register_simp_attr dfd
