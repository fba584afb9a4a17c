import Mathlib.Analysis.SpecialFunctions.Trigonometric.Basic
import Mathlib.Analysis.SpecialFunctions.Pow.Real

/-! # Specification: first-order reflectivity

Textbook formulas in terms of averages and differences of the two half spaces. -/

namespace RockPhy.Spec

/-- Aki and Richards' first-order P reflectivity at the angle `θ` (radians): `a`, `b`, `r` are the
average P velocity, S velocity and density, `da`, `db`, `dr` the differences lower minus upper. -/
noncomputable def akiRichards (a b r da db dr θ : ℝ) : ℝ :=
  1 / 2 * (1 - 4 * (b / a) ^ 2 * Real.sin θ ^ 2) * (dr / r) + 1 / (2 * Real.cos θ ^ 2) * (da / a)
    - 4 * (b / a) ^ 2 * Real.sin θ ^ 2 * (db / b)

/-- Aki and Richards' first-order converted reflectivity for the ray parameter `p`; `ci` and `cj`
are the cosines of the P and of the S direction. -/
noncomputable def akiRichardsPS (a b r db dr p ci cj : ℝ) : ℝ :=
  -(p * a / (2 * cj)) * ((1 - 2 * b ^ 2 * p ^ 2 + 2 * b ^ 2 * (ci / a) * (cj / b)) * (dr / r)
    - (4 * b ^ 2 * p ^ 2 - 4 * b ^ 2 * (ci / a) * (cj / b)) * (db / b))

/-- First-order reflectivity from S to P; same arguments as for P to S (the two differ by the factor
`(cj/a) (b/ci)`). -/
noncomputable def akiRichardsSP (a b r db dr p ci cj : ℝ) : ℝ :=
  cj / a * (b / ci) * akiRichardsPS a b r db dr p ci cj

/-- First-order SV reflectivity at the S angle `j`. -/
noncomputable def akiRichardsSS (b r db dr j : ℝ) : ℝ :=
  -(1 / 2 * (1 - 4 * Real.sin j ^ 2)) * (dr / r)
    - (1 / (2 * Real.cos j ^ 2) - 4 * Real.sin j ^ 2) * (db / b)

/-- Reflection coefficient `R` of an SH wave coming in at the angle `j1` in the medium `(b1, r1)` and
going on at the angle `j2` in `(b2, r2)`: displacement `1 + R = T` and shear traction are
continuous. -/
def IsReflectionSH (b1 r1 b2 r2 j1 j2 R : ℝ) : Prop :=
  ∃ T, 1 + R = T ∧
    r1 * b1 * Real.cos j1 * (1 - R) = r2 * b2 * Real.cos j2 * T

/-- First-order SH reflectivity at the S angle `j`. -/
noncomputable def firstOrderSH (b r db dr j : ℝ) : ℝ :=
  -(1 / 2) * (dr / r + db / b) + 1 / 2 * Real.tan j ^ 2 * (db / b)

/-- A P reflectivity `A + B sin² θ + C sin² θ tan² θ`. -/
noncomputable def threeTerm (A B C θ : ℝ) : ℝ :=
  A + B * Real.sin θ ^ 2 + C * Real.sin θ ^ 2 * Real.tan θ ^ 2

/-- Rüger's P reflectivity over a horizontally transverse isotropic medium, for the angle of
incidence `θ` and the azimuth `φ` from the symmetry axis.  Relative contrasts of the vertical
impedance `z`, P velocity `v` and shear modulus `g`; twice the S to P velocity ratio `q`; differences
`δ`, `ε`, `γ` of the anisotropy parameters. -/
noncomputable def ruger (z v g q δ ε γ θ φ : ℝ) : ℝ :=
  z / 2 + 1 / 2 * (v - q ^ 2 * g + (δ + 2 * q ^ 2 * γ) * Real.cos φ ^ 2) * Real.sin θ ^ 2
    + 1 / 2 * (v + ε * Real.cos φ ^ 4 + δ * Real.sin φ ^ 2 * Real.cos φ ^ 2) * Real.sin θ ^ 2
      * Real.tan θ ^ 2

/-- Contrast of a quantity relative to its average. -/
noncomputable def relContrast (x1 x2 : ℝ) : ℝ := (x2 - x1) / ((x1 + x2) / 2)

/-- Connolly's elastic impedance at the angle `θ` (radians) for the velocity ratio `S = Vs/Vp`. -/
noncomputable def elasticImpedance (S θ a b r : ℝ) : ℝ :=
  a ^ (1 / Real.cos θ ^ 2) * b ^ (-8 * S ^ 2 * Real.sin θ ^ 2)
    * r ^ (1 - 4 * S ^ 2 * Real.sin θ ^ 2)

/-- Poisson's ratio of a medium with the velocities `a` and `b`. -/
noncomputable def poissonRatio (a b : ℝ) : ℝ := (a ^ 2 - 2 * b ^ 2) / (2 * (a ^ 2 - b ^ 2))

/-- Shuey's AVO gradient, in terms of Poisson's ratios `σ1` and `σ2`: with the relative contrasts
`u = Δα/α` and `v = Δρ/ρ`, intercept `R = (u + v)/2` and `B = u/(u + v)`, the gradient is
`(B - 2 (1 + B) (1 - 2σ)/(1 - σ)) R + Δσ/(1 - σ)²`. -/
noncomputable def shueyGradient (u v σ1 σ2 : ℝ) : ℝ :=
  (u / (u + v) - 2 * (1 + u / (u + v)) * ((1 - 2 * ((σ1 + σ2) / 2)) / (1 - (σ1 + σ2) / 2)))
      * ((u + v) / 2) + (σ2 - σ1) / (1 - (σ1 + σ2) / 2) ^ 2

end RockPhy.Spec
