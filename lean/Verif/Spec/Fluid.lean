import Mathlib.Data.Real.Basic
import Mathlib.Algebra.Order.Field.Basic

/-! # Specification: fluid substitution -/

namespace RockPhy.Spec

/-- A rock to which Gassmann's theory applies: the frame is softer than the mineral, the fluid
is softer than the mineral, and there is some pore space. -/
structure GassmannRock (Kdry K0 Kf φ : ℝ) : Prop where
  dry_nonneg : 0 ≤ Kdry
  dry_lt : Kdry < K0
  fluid_pos : 0 < Kf
  fluid_lt : Kf < K0
  por_pos : 0 < φ

/-- Gassmann's relation between the dry and the saturated bulk modulus. -/
def GassmannEq (Kdry K0 Kf φ Ksat : ℝ) : Prop :=
  Ksat / (K0 - Ksat) = Kdry / (K0 - Kdry) + Kf / (φ * (K0 - Kf))

end RockPhy.Spec

namespace RockPhy.Spec

/-- Biot's elastic coefficients (Johnson and Plona's form, Rock Physics Handbook 6.1). -/
noncomputable def biotR (Kd K0 Kf φ : ℝ) : ℝ := φ ^ 2 * K0 / (1 - φ - Kd / K0 + φ * K0 / Kf)

noncomputable def biotQ (Kd K0 Kf φ : ℝ) : ℝ :=
  (1 - φ - Kd / K0) * φ * K0 / (1 - φ - Kd / K0 + φ * K0 / Kf)

noncomputable def biotP (Kd G K0 Kf φ : ℝ) : ℝ :=
  ((1 - φ) * (1 - φ - Kd / K0) * K0 + φ * K0 / Kf * Kd) / (1 - φ - Kd / K0 + φ * K0 / Kf)
    + 4 * G / 3

/-- Biot's mass coefficients for tortuosity `a`: coupling, fluid and solid. -/
def biotRho12 (ρf φ a : ℝ) : ℝ := (1 - a) * φ * ρf

def biotRho22 (ρf φ a : ℝ) : ℝ := a * φ * ρf

def biotRho11 (ρ0 ρf φ a : ℝ) : ℝ := (1 - φ) * ρ0 - (1 - a) * φ * ρf

/-- Determinant of `stiffness - x * mass` for the coupled compressional motion of frame and
fluid: `x` is a squared P velocity exactly when it vanishes. -/
noncomputable def biotDet (Kd G K0 Kf ρ0 ρf φ a x : ℝ) : ℝ :=
  (biotP Kd G K0 Kf φ - x * biotRho11 ρ0 ρf φ a) * (biotR Kd K0 Kf φ - x * biotRho22 ρf φ a)
    - (biotQ Kd K0 Kf φ - x * biotRho12 ρf φ a) ^ 2

end RockPhy.Spec
