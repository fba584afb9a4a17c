import Verif.Rounded

/-! # Specification: accuracy of a computed number -/

namespace RockPhy

/-- The computed number agrees with the exact non-negative one up to `k` relative errors of size
`u`. -/
def Within (A : Rounding) (k : ℕ) (exact computed : ℝ) : Prop :=
  exact * (1 - A.u) ^ k ≤ computed ∧ computed * (1 - A.u) ^ k ≤ exact

/-- The exact result is a non-negative real number and the computed one agrees with it up to `k`
relative errors. -/
def Agrees (A : Rounding) (k : ℕ) (x : Fl) (y : Rd A) : Prop :=
  ∃ a b : ℝ, x = .fin a ∧ y = .fin b ∧ 0 ≤ a ∧ Within A k a b

/-- The exact result is a positive real number and the computed one agrees with it up to `k`
relative errors. -/
def AgreesPos (A : Rounding) (k : ℕ) (x : Fl) (y : Rd A) : Prop :=
  ∃ a b : ℝ, x = .fin a ∧ y = .fin b ∧ 0 < a ∧ Within A k a b

end RockPhy
