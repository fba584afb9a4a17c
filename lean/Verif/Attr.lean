import Mathlib.Tactic.Attr.Register

/-- Simp set that evaluates model expressions on finite values. -/
register_simp_attr fl

/-- Simp set that evaluates model expressions on numpy floats with infinities. -/
register_simp_attr np

/-- Simp set that compares model expressions on numpy integers with those on floats. -/
register_simp_attr dt
