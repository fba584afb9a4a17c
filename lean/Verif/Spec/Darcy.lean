import Mathlib.Data.Real.Basic

/-!
# Permeability in SI units (C114)
-/

namespace RockPhy.Spec

/-- A micrometre in metres. -/
noncomputable def micrometre : ℝ := 1 / 10 ^ 6

/-- A millidarcy in square metres: 9.869233e-16. -/
noncomputable def millidarcy : ℝ := 9.869233 / 10 ^ 16

/-- The permeability of slits of the given aperture: flow between parallel plates. -/
noncomputable def slits (aperture porosity tortuosity2 : ℝ) : ℝ :=
  aperture ^ 2 * porosity / (12 * tortuosity2)

/-- The permeability of tubes of the given radius: flow in a circular pipe. -/
noncomputable def tubes (radius porosity tortuosity2 : ℝ) : ℝ :=
  radius ^ 2 * porosity / (8 * tortuosity2)

end RockPhy.Spec
