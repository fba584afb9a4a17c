import Mathlib.Tactic.Attr.Register

/-- Simp set that reads entries and shapes of array expressions. -/
register_simp_attr nd
