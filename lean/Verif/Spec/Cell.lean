import Mathlib.Analysis.Calculus.Deriv.Basic
import Mathlib.Analysis.Complex.Basic

/-! # Specification: a spherical cell of porous rock filled with two fluids

Slow oscillations, with the factor `exp (i ω t)`, of a fluid filled porous rock that depend on the
distance `r` from a centre only (Biot's equations without inertia).  `u` is the displacement of the
frame, `w` that of the fluid relative to the frame (volume per area), `p` the fluid pressure, `σ`
the radial stress, tension positive.  The frame has moduli `Kd` and `G`, Biot coefficient `β`,
storage modulus `S` and permeability `κ`, the fluid viscosity `η`. -/

namespace RockPhy.Spec

open Complex

/-- Biot's equations between the radii `lo` and `hi`. -/
structure PoroRegion (Kd G β S κ η ω lo hi : ℝ) (u w p σ : ℝ → ℂ) : Prop where
  displacement : ContinuousOn u (Set.Icc lo hi)
  flow : ContinuousOn w (Set.Icc lo hi)
  pressure : ContinuousOn p (Set.Icc lo hi)
  stress : ContinuousOn σ (Set.Icc lo hi)
  equations : ∀ r ∈ Set.Ioo lo hi, ∃ u' w' p' σ' e ζ τ : ℂ,
    HasDerivAt u u' r ∧ HasDerivAt w w' r ∧ HasDerivAt p p' r ∧ HasDerivAt σ σ' r ∧
    -- dilatation of the frame and increase of fluid content
    e = u' + 2 * u r / r ∧ ζ = -(w' + 2 * w r / r) ∧
    -- radial and tangential stress
    σ r = (Kd - 2 / 3 * G) * e + 2 * G * u' - β * p r ∧
    τ = (Kd - 2 / 3 * G) * e + 2 * G * (u r / r) - β * p r ∧
    -- equilibrium
    σ' + 2 / r * (σ r - τ) = 0 ∧
    -- storage
    p r = S * (ζ - β * e) ∧
    -- Darcy's law
    I * ω * w r = -(κ / η) * p'

/-- A sphere of radius `a` filled with fluid 1 in a shell up to radius `b` filled with fluid 2.
Displacements, pressure and stress are continuous, and no fluid leaves the cell. -/
structure PoroCell (Kd G β S1 S2 η1 η2 κ a b ω : ℝ)
    (u1 w1 p1 σ1 u2 w2 p2 σ2 : ℝ → ℂ) : Prop where
  inner : PoroRegion Kd G β S1 κ η1 ω 0 a u1 w1 p1 σ1
  outer : PoroRegion Kd G β S2 κ η2 ω a b u2 w2 p2 σ2
  centre : u1 0 = 0 ∧ w1 0 = 0
  displacement : u1 a = u2 a
  flow : w1 a = w2 a
  pressure : p1 a = p2 a
  stress : σ1 a = σ2 a
  closed : w2 b = 0

/-- The cell has the bulk modulus `K`: the stress on its surface is `K` times its relative increase
of volume, whatever the motion, and there is a motion that changes its volume. -/
def CellModulus (Kd G β S1 S2 η1 η2 κ a b ω : ℝ) (K : ℂ) : Prop :=
  (∀ u1 w1 p1 σ1 u2 w2 p2 σ2 : ℝ → ℂ,
    PoroCell Kd G β S1 S2 η1 η2 κ a b ω u1 w1 p1 σ1 u2 w2 p2 σ2 → σ2 b = K * (3 * u2 b / b)) ∧
  ∃ u1 w1 p1 σ1 u2 w2 p2 σ2 : ℝ → ℂ,
    PoroCell Kd G β S1 S2 η1 η2 κ a b ω u1 w1 p1 σ1 u2 w2 p2 σ2 ∧ u2 b ≠ 0

/-- Resistance of the pores to more fluid, in pressure over fluid content, in a rock whose frame gives
way: `S` is the resistance when the frame does not, `Md` and `Ms` are the modulus of the frame alone
and of the saturated rock against the strain that is free. -/
noncomputable def fillModulus (S Md Ms : ℝ) : ℝ := S * Md / Ms

end RockPhy.Spec
