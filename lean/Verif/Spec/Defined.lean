import Verif.Num

/-!
# Specification: results that are numbers

A value is a number if the computation met no division by zero, no root or logarithm of a number
outside the domain, and the like.
-/

namespace RockPhy.Spec

/-- A number. -/
def Number (x : Fl) : Prop := ∃ r : ℝ, x = .fin r
/-- A positive number. -/
def Pos (x : Fl) : Prop := ∃ r : ℝ, 0 < r ∧ x = .fin r
/-- A number that is not negative. -/
def NonNeg (x : Fl) : Prop := ∃ r : ℝ, 0 ≤ r ∧ x = .fin r
/-- A number less than another number. -/
def Below (x y : Fl) : Prop := ∃ a b : ℝ, a < b ∧ x = .fin a ∧ y = .fin b
/-- A number at most another number. -/
def AtMost (x y : Fl) : Prop := ∃ a b : ℝ, a ≤ b ∧ x = .fin a ∧ y = .fin b

end RockPhy.Spec
