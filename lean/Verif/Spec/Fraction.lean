import Verif.Num

/-!
# Fractions and percentages (C114)
-/

namespace RockPhy.Spec

/-- A number from 0 to 1. -/
def Fraction (x : Fl) : Prop := ∃ r : ℝ, x = .fin r ∧ 0 ≤ r ∧ r ≤ 1

/-- A number from 0 to 100. -/
def Percent (x : Fl) : Prop := ∃ r : ℝ, x = .fin r ∧ 0 ≤ r ∧ r ≤ 100

end RockPhy.Spec
