import Mathlib.Analysis.Calculus.Deriv.Basic

/-!
# Specification: a sphere with a concentric coat under radial load

Linear elasticity with spherical symmetry.  `u r` is the radial displacement, `σ r` the radial and
`τ r` the tangential stress at distance `r` from the centre.  The strains are `u'` and `u / r`.
-/

namespace RockPhy.Spec

open Set

/-- A material with moduli `K`, `G` occupies `lo < r < hi`: the stresses follow from the strains by
Hooke's law, and the radial momentum balance `σ' + 2 (σ - τ) / r = 0` holds. -/
def RadialEquilibrium (K G : ℝ) (u σ τ : ℝ → ℝ) (lo hi : ℝ) : Prop :=
  ∀ r ∈ Ioo lo hi, ∃ e : ℝ, HasDerivAt u e r ∧
    σ r = K * (e + 2 * (u r / r)) + 4 / 3 * G * (e - u r / r) ∧
    τ r = K * (e + 2 * (u r / r)) - 2 / 3 * G * (e - u r / r) ∧
    HasDerivAt σ (-2 * (σ r - τ r) / r) r

/-- A core of radius `a` with moduli `Kc`, `Gc` inside a coat with moduli `Ks`, `Gs` and outer
radius `b`.  The displacement is continuous and vanishes at the centre; the traction is continuous
through the interface and up to the surface. -/
structure CoatedSphere (Kc Gc Ks Gs a b : ℝ) (u σ τ : ℝ → ℝ) : Prop where
  core : RadialEquilibrium Kc Gc u σ τ 0 a
  coat : RadialEquilibrium Ks Gs u σ τ a b
  centre : u 0 = 0
  displacement : ContinuousOn u (Icc 0 b)
  traction : ContinuousOn σ (Ioc 0 b)

/-- The surface of a sphere of radius `b` responds like that of a homogeneous sphere with bulk
modulus `K`: the pressure is `3 K` times the relative change of the radius. -/
def RespondsLike (K b : ℝ) (u σ : ℝ → ℝ) : Prop := σ b = 3 * K * (u b / b)

end RockPhy.Spec
