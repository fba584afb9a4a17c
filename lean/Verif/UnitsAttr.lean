import Mathlib.Tactic.Attr.Register

/-- Simp set that carries a change of units through model expressions. -/
register_simp_attr un
