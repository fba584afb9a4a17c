import Mathlib.Analysis.SpecialFunctions.Exp

/-! # Specification: depth trends, one depth at a time -/

namespace RockPhy.Spec

/-- Segmented velocity trend with a break at 2630 m. -/
noncomputable def yuTrend (z : ℝ) : ℝ :=
  if z ≤ 2630 then 1707.998 + 0.66 * z else 1200.84 + 0.853 * z

/-- Segmented velocity trend with breaks at 1393, 2000 and 3500 m; meant for depths below 5300 m. -/
noncomputable def japsenTrend (z : ℝ) : ℝ :=
  if z < 1393 then 1550 + 0.6 * z
  else if z < 2000 then -400 + 2 * z
  else if z < 3500 then 2600 + 0.5 * z
  else 3475 + 0.25 * z

/-- Mechanical compaction trend, porosity in percent. -/
noncomputable def mechPor (z : ℝ) : ℝ := 45 * Real.exp (-0.00025 * z)

/-- Chemical compaction trend, porosity in percent. -/
noncomputable def chemPor (z : ℝ) : ℝ := 25 - 0.013 * (z - 2500)

end RockPhy.Spec
