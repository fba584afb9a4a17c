import Mathlib.Data.Real.Basic
import Mathlib.Algebra.Order.Field.Basic

/-!
# Specification: two-phase averages

`hsMean f a b z` is the Hashin-Shtrikman type average of two moduli `a` (fraction `f`) and `b`
(fraction `1-f`) embedded in a comparison medium described by `z`: the harmonic mean of
`a + z` and `b + z`, minus `z`.  `z = 0` is the Reuss average.
-/

namespace RockPhy.Spec

noncomputable def hsMean (f a b z : ℝ) : ℝ := (f / (a + z) + (1 - f) / (b + z))⁻¹ - z

/-- Bulk comparison parameter of a medium with shear modulus `G`. -/
noncomputable def hsBulk (G : ℝ) : ℝ := 4 * G / 3

/-- Shear comparison parameter of a medium with moduli `K`, `G`. -/
noncomputable def hsShear (K G : ℝ) : ℝ := G / 6 * ((9 * K + 8 * G) / (K + 2 * G))

/-- Arithmetic (Voigt) average of two phases. -/
def voigt2 (f a b : ℝ) : ℝ := f * a + (1 - f) * b

/-- Harmonic (Reuss) average of two phases. -/
noncomputable def reuss2 (f a b : ℝ) : ℝ := (f / a + (1 - f) / b)⁻¹

/-- The self-consistent equations for a solid `(Ks, Gs)` with a fraction `φ` of empty spherical
pores (Mavko et al., Rock Physics Handbook): the effective moduli `(K, G)` appear on both sides. -/
def SelfConsistent (φ Ks Gs K G : ℝ) : Prop :=
  1 / K = 1 / Ks + (1 / K + 3 / (4 * G)) * φ ∧
  1 / G = 1 / Gs + (15 * K + 20 * G) / (9 * K + 8 * G) * φ / G

end RockPhy.Spec
