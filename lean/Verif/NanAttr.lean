import Lean.Meta.Tactic.Simp.RegisterCommand

/-- Rules for `nan`. -/
register_simp_attr nn
