import Mathlib.Analysis.Calculus.Deriv.Basic
import Mathlib.Analysis.SpecialFunctions.Trigonometric.Basic
import Mathlib.MeasureTheory.Integral.IntervalIntegral.Basic

/-!
# Specification: oscillating viscous flow in a round tube

A fluid of density `ρ` and viscosity `η` in a tube of radius `a` is driven by the force
`Re (X e^{iωt})` per unit volume.  All quantities are complex amplitudes, factors of `e^{iωt}`.
-/

namespace RockPhy.Spec

open Set Complex

/-- The Bessel function `Jₙ`. -/
noncomputable def besselJ (n : ℕ) (z : ℂ) : ℂ :=
  ∑' k : ℕ, (-1) ^ k / (k.factorial * (k + n).factorial : ℝ) * (z / 2) ^ (2 * k + n)

/-- `v r` is the velocity at distance `r` from the axis and `s r` its derivative.  Newton's second law
for a ring of fluid is `iωρ v = X + (η r v')' / r`; the fluid sticks to the wall. -/
structure OscillatingFlow (a η ρ ω : ℝ) (X : ℂ) (v s : ℝ → ℂ) : Prop where
  cont : ContinuousOn v (Icc 0 a)
  cont' : ContinuousOn s (Icc 0 a)
  wall : v a = 0
  shear : ∀ r ∈ Ioo 0 a, HasDerivAt v (s r) r
  balance : ∀ r ∈ Ioo 0 a, HasDerivAt (fun x : ℝ => η * x * s x) ((I * ω * ρ * v r - X) * r) r

/-- Velocity averaged over the cross section. -/
noncomputable def meanVelocity (a : ℝ) (v : ℝ → ℂ) : ℂ :=
  (∫ r in 0..a, v r * (2 * Real.pi * r : ℝ)) / (Real.pi * a ^ 2 : ℝ)

/-- Friction between a unit length of the wall and the fluid. -/
noncomputable def wallFriction (a η : ℝ) (s : ℝ → ℂ) : ℂ := -(2 * Real.pi * a * η : ℝ) * s a

/-- `F` is the factor by which the friction of every flow of this frequency exceeds the friction
`8 π η V` of a steady flow with the same mean velocity. -/
def IsFrictionFactor (a η ρ ω : ℝ) (F : ℂ) : Prop :=
  ∀ X v s, OscillatingFlow a η ρ ω X v s → wallFriction a η s = F * (8 * Real.pi * η * meanVelocity a v)

end RockPhy.Spec
