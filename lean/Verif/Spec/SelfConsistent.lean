import Mathlib.Data.Real.Basic
import Mathlib.Algebra.Order.Field.Basic

/-!
# Specification: self-consistent moduli of two phases

Both phases are spherical grains in a medium that has the moduli of the mixture.  `P` and `Q` are
the ratios of the strain in such a grain to the mean strain, for a change of volume and for shear
(Mavko et al., Rock Physics Handbook, section 4.8).
-/

namespace RockPhy.Spec

/-- Volume strain in a sphere of bulk modulus `Ki` in a medium `(K, G)`. -/
noncomputable def sphereP (K G Ki : ℝ) : ℝ := (K + 4 / 3 * G) / (Ki + 4 / 3 * G)

/-- Shear strain in a sphere of shear modulus `Gi` in a medium `(K, G)`. -/
noncomputable def sphereQ (K G Gi : ℝ) : ℝ :=
  (G + G / 6 * ((9 * K + 8 * G) / (K + 2 * G))) / (Gi + G / 6 * ((9 * K + 8 * G) / (K + 2 * G)))

/-- `(K, G)` are self-consistent moduli of a fraction `f` of `(Ki, Gi)` in `(Km, Gm)`: the two phases
together disturb the medium `(K, G)` as little as no grain at all. -/
def SelfConsistent2 (f Ki Gi Km Gm K G : ℝ) : Prop :=
  f * (Ki - K) * sphereP K G Ki + (1 - f) * (Km - K) * sphereP K G Km = 0 ∧
  f * (Gi - G) * sphereQ K G Gi + (1 - f) * (Gm - G) * sphereQ K G Gm = 0

end RockPhy.Spec
