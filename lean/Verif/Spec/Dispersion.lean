import Mathlib.Analysis.RCLike.Sqrt
import Mathlib.Analysis.SpecialFunctions.Complex.Analytic
import Verif.Spec.Fluid
import Verif.Num

/-! # Specification: waves in a porous, fluid filled rock

Biot's theory in terms of the frame, fluid and mineral constants.  A plane wave has a complex
squared slowness `s`; its phase velocity is `1 / Re √s` and its inverse quality factor
`Im (1/s) / Re (1/s)`. -/

namespace RockPhy.Spec

open Complex Fl Filter

/-- A result that is a finite number near the limit point and converges to `v`. -/
def TendsTo (g : ℝ → Fl) (l : Filter ℝ) (v : ℝ) : Prop :=
  ∃ r : ℝ → ℝ, (∀ᶠ f in l, g f = fin (r f)) ∧ Tendsto r l (nhds v)

/-- Biot's effective stress coefficient. -/
noncomputable def biotCoef (Kd K0 : ℝ) : ℝ := 1 - Kd / K0
/-- Fluid storage modulus. -/
noncomputable def storage (Kd K0 Kf φ : ℝ) : ℝ := ((biotCoef Kd K0 - φ) / K0 + φ / Kf)⁻¹
/-- Undrained P-wave modulus. -/
noncomputable def undrained (Kd G K0 Kf φ : ℝ) : ℝ :=
  Kd + 4 / 3 * G + biotCoef Kd K0 ^ 2 * storage Kd K0 Kf φ
/-- Density of the saturated rock. -/
def bulkDensity (ρ0 ρf φ : ℝ) : ℝ := (1 - φ) * ρ0 + φ * ρf

/-- Inertia and viscous drag of the pore fluid at angular frequency `ω`; `F` corrects the
viscosity for the profile of the flow in the pores. -/
noncomputable def drag (ρf η φ κ τ ω : ℝ) (F : ℂ) : ℂ := τ * ρf / φ - I * (η * F / (ω * κ))

/-- Determinant of the wave equations of the two P waves at squared slowness `s`. -/
noncomputable def biotWave (Kd G K0 Kf ρ0 ρf φ : ℝ) (q s : ℂ) : ℂ :=
  (undrained Kd G K0 Kf φ * s - bulkDensity ρ0 ρf φ) * (storage Kd K0 Kf φ * s - q)
    - (biotCoef Kd K0 * storage Kd K0 Kf φ * s - ρf) ^ 2

/-- Flow correction for a pore parameter `ζ` when the ratio of Bessel functions is `T`. -/
noncomputable def flowCorrection (ζ : ℝ) (T : ℂ) : ℂ := 1 / 4 * (ζ * T / (1 + 2 * I * T / ζ))

/-- The flow correction used by the code at pore parameter `ζ`: one below `0.1`, the limit of the
Bessel ratio above `1000`, the computed ratio between. -/
def IsFlow (jv0 jv1 : ℂ → ℂ) (ζ : ℝ) (F : ℂ) : Prop :=
  (ζ < 0.1 ∧ F = 1)
  ∨ (0.1 ≤ ζ ∧ ζ ≤ 1000 ∧ jv0 (ζ * Complex.exp (-I * Real.pi / 4)) ≠ 0 ∧
      ∃ T, T = Complex.exp (3 * Real.pi / 4 * I) * (jv1 (ζ * Complex.exp (-I * Real.pi / 4))
        / jv0 (ζ * Complex.exp (-I * Real.pi / 4))) ∧ 1 + 2 * I * T / ζ ≠ 0 ∧ F = flowCorrection ζ T)
  ∨ (1000 < ζ ∧ F = flowCorrection ζ ((1 + I) / √2))

/-- Phase velocity of the wave of squared slowness `s`. -/
noncomputable def phaseVelocity (s : ℂ) : ℝ := 1 / s.sqrt.re

/-! ## Patchy saturation -/

/-- A rock saturated with fluid 1 in spheres of radius `a`, a volume fraction `s` of the rock, and
with fluid 2 elsewhere. -/
structure PatchRock (Kd G K0 φ ρ0 ρ1 ρ2 Kf1 Kf2 η1 η2 κ a s : ℝ) : Prop where
  inner : GassmannRock Kd K0 Kf1 φ
  outer : GassmannRock Kd K0 Kf2 φ
  dry : 0 < Kd
  shear : 0 ≤ G
  dens : 0 < (1 - φ) * ρ0 + φ * s * ρ1 + φ * (1 - s) * ρ2
  visc1 : 0 < η1
  visc2 : 0 < η2
  perm : 0 < κ
  radius : 0 < a
  sat : 0 < s
  sat_lt : s < 1

/-- Modulus of a fluid mixture whose parts are at the same pressure. -/
noncomputable def wood (s Kf1 Kf2 : ℝ) : ℝ := 1 / (s / Kf1 + (1 - s) / Kf2)

/-- The pressure `p` with derivative `p'` obeys the radial diffusion equation at frequency `ω` with
diffusivity `d`: `(r² p')' = (i ω / d) r² p`. -/
def RadialDiffusion (ω d : ℝ) (p p' : ℝ → ℂ) : Prop :=
  ∀ r : ℝ, 0 < r → HasDerivAt p (p' r) r ∧
    HasDerivAt (fun r : ℝ => (r : ℂ) ^ 2 * p' r) (I * ω / d * ((r : ℂ) ^ 2 * p r)) r

/-- Hydraulic diffusivity of a rock with permeability `κ`, saturated bulk modulus `K`, in White's form,
which leaves the rigidity of the frame out of account. -/
noncomputable def diffusivity (Kd K0 Kf φ K κ η : ℝ) : ℝ :=
  κ / η * (storage Kd K0 Kf φ * Kd / K)

end RockPhy.Spec
