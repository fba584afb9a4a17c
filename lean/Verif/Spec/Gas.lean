import Mathlib.Analysis.SpecialFunctions.Pow.Deriv
import Mathlib.Analysis.SpecialFunctions.ExpDeriv
import Mathlib.Analysis.SpecialFunctions.Sqrt

/-! # Specification: Batzle and Wang's real gas

The compressibility factor `Z` and the ratio of heat capacities as functions of the reduced
temperature and pressure. -/

namespace RockPhy.Spec

/-- Compressibility factor at reduced temperature `T` as a function of reduced pressure `p`. -/
noncomputable def zFactor (T p : ℝ) : ℝ :=
  (0.03 + 0.00527 * (3.5 - T) ^ 3) * p + (0.642 * T - 0.007 * T ^ 4 - 0.52)
    + 0.109 * (3.85 - T) ^ 2 * Real.exp (-(0.45 + 8 * (0.56 - 1 / T) ^ 2) * p ^ (1.2 : ℝ) / T)

/-- Ratio of the heat capacities at constant pressure and at constant volume. -/
noncomputable def heatRatio (p : ℝ) : ℝ :=
  0.85 + 5.6 / (p + 2) + 27.1 / (p + 3.5) ^ 2 - 8.7 * Real.exp (-0.65 * (p + 1))

/-- Density (g/cm³) from the equation of state `p M = ρ Z R T` with `M = 28.8 G` g/mol, `p` in MPa
and `Ta` in K. -/
noncomputable def gasDensity (Tr pc G Ta p : ℝ) : ℝ :=
  28.8 * G * p / (zFactor Tr (p / pc) * 8.3145 * Ta)

theorem zFactor_hasDerivAt {T p : ℝ} (hp : 0 < p) :
    HasDerivAt (zFactor T) ((0.03 + 0.00527 * (3.5 - T) ^ 3)
      + 0.109 * (3.85 - T) ^ 2 * (Real.exp (-(0.45 + 8 * (0.56 - 1 / T) ^ 2) * p ^ (1.2 : ℝ) / T)
        * (-(0.45 + 8 * (0.56 - 1 / T) ^ 2) * (1.2 * p ^ (0.2 : ℝ)) / T))) p := by
  have h1 : HasDerivAt (fun x : ℝ => x ^ (1.2 : ℝ)) (1.2 * p ^ (0.2 : ℝ)) p := by
    have := Real.hasDerivAt_rpow_const (x := p) (p := 1.2) (Or.inl hp.ne')
    rwa [show (1.2 : ℝ) - 1 = 0.2 by norm_num] at this
  have h2 := (((h1.const_mul (-(0.45 + 8 * (0.56 - 1 / T) ^ 2))).div_const T).exp).const_mul
    (0.109 * (3.85 - T) ^ 2)
  have h3 := (((hasDerivAt_id p).const_mul (0.03 + 0.00527 * (3.5 - T) ^ 3)).add_const
    (0.642 * T - 0.007 * T ^ 4 - 0.52)).add h2
  rw [mul_one] at h3
  exact h3

/-- Batzle and Wang's velocity of pure water (m/s), `T` in °C, `P` in MPa. -/
noncomputable def waterVelocity (T P : ℝ) : ℝ :=
  (1402.85 + 4.871 * T - 0.04783 * T ^ 2 + 1.487e-4 * T ^ 3 - 2.197e-7 * T ^ 4)
    + (1.524 - 0.0111 * T + 2.747e-4 * T ^ 2 - 6.503e-7 * T ^ 3 + 7.987e-10 * T ^ 4) * P
    + (3.437e-3 + 1.739e-4 * T - 2.135e-6 * T ^ 2 - 1.455e-8 * T ^ 3 + 5.23e-11 * T ^ 4) * P ^ 2
    + (-1.197e-5 - 1.628e-6 * T + 1.237e-8 * T ^ 2 + 1.327e-10 * T ^ 3 - 4.614e-13 * T ^ 4) * P ^ 3

/-- Batzle and Wang's density of pure water (g/cm³). -/
noncomputable def waterDensity (T P : ℝ) : ℝ :=
  1 + 1e-6 * (-80 * T - 3.3 * T ^ 2 + 0.00175 * T ^ 3 + 489 * P - 2 * T * P + 0.016 * T ^ 2 * P
    - 1.3e-5 * T ^ 3 * P - 0.333 * P ^ 2 - 0.002 * T * P ^ 2)

/-- Batzle and Wang's density of brine with salinity `S` (weight fraction). -/
noncomputable def brineDensity (T P S : ℝ) : ℝ :=
  waterDensity T P + S * (0.668 + 0.44 * S + 1e-6 * (300 * P - 2400 * P * S
    + T * (80 + 3 * T - 3300 * S - 13 * P + 47 * P * S)))

/-- Batzle and Wang's velocity of brine. -/
noncomputable def brineVelocity (T P S : ℝ) : ℝ :=
  waterVelocity T P + S * (1170 - 9.6 * T + 0.055 * T ^ 2 - 8.5e-5 * T ^ 3 + 2.6 * P
    - 0.0029 * T * P - 0.0476 * P ^ 2) + S ^ (1.5 : ℝ) * (780 - 10 * P + 0.16 * P ^ 2) - 820 * S ^ 2

/-- Batzle and Wang's velocity of an oil (m/s) of density `r` (g/cm³) at standard conditions. -/
noncomputable def oilVelocity (r T P : ℝ) : ℝ :=
  2096 * √(r / (2.6 - r)) - 3.7 * T + 4.64 * P + 0.0115 * (4.12 * √(1.08 / r - 1) - 1) * T * P

/-- Batzle and Wang's density of a dead oil of density `r` at standard conditions. -/
noncomputable def oilDensity (r T P : ℝ) : ℝ :=
  (r + (0.00277 * P - 1.71e-7 * P ^ 3) * (r - 1.15) ^ 2 + 3.49e-4 * P)
    / (0.972 + 3.81e-4 * (T + 17.78) ^ (1.175 : ℝ))

/-- Volume of an oil with `Rg` litres of gas of gravity `G` dissolved per litre, relative to the
volume of the oil at standard conditions. -/
noncomputable def oilVolume (r G Rg T : ℝ) : ℝ :=
  0.972 + 0.00038 * (2.4 * Rg * √(G / r) + T + 17.8) ^ (1.175 : ℝ)

/-- Litres of gas of gravity `G` one litre of oil can hold. -/
noncomputable def oilMaxGas (r G T P : ℝ) : ℝ :=
  0.02123 * G * (P * Real.exp (4.072 / r - 0.00377 * T)) ^ (1.205 : ℝ)

end RockPhy.Spec
