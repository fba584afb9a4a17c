import Verif.Spec.Eshelby
import Mathlib.MeasureTheory.Integral.IntervalIntegral.Basic

/-!
# Specification: elastic contacts in a random pack of spheres

Independent of the model.  A pack of equal spheres of radius `R` with porosity `phi` has `Cn`
contacts per sphere whose directions are uniform over the unit sphere.  Grain centres move with
the average strain.  The stress of the pack is the sum over contacts of branch vector times
contact force (Love and Weber).  What is left is the law of a single contact.
-/

namespace RockPhy.Spec

open Matrix Real

/-- A direction, from its height `z` and longitude `t`. -/
noncomputable def direction (z t : ℝ) : Fin 3 → ℝ :=
  ![√(1 - z ^ 2) * cos t, √(1 - z ^ 2) * sin t, z]

/-- The average of a quantity over all directions (area of the unit sphere is uniform in height
and longitude). -/
noncomputable def sphereAvg (q : (Fin 3 → ℝ) → ℝ) : ℝ :=
  1 / (4 * π) * ∫ z in (-1 : ℝ)..1, ∫ t in (0 : ℝ)..(2 * π), q (direction z t)

/-- Contacts per unit volume: spheres per unit volume times `Cn / 2`. -/
noncomputable def contactDensity (Cn phi R : ℝ) : ℝ := Cn / 2 * ((1 - phi) / (4 / 3 * π * R ^ 3))

/-- The stress carried by contacts with branch vector `2 R n` and force `F n`. -/
noncomputable def packStress (Cn phi R : ℝ) (F : (Fin 3 → ℝ) → Fin 3 → ℝ) : Strain :=
  Matrix.of fun i j => contactDensity Cn phi R * sphereAvg fun n => 2 * R * n i * F n j

/-- The force at a contact in direction `n` when the pack takes the additional strain `e`: each
centre moves by `R e n` relative to the contact, against a normal stiffness `Sn` and a tangential
stiffness `St`. -/
noncomputable def contactForce (R Sn St : ℝ) (e : Strain) (n : Fin 3 → ℝ) : Fin 3 → ℝ :=
  let u := R • e.mulVec n
  (Sn * (n ⬝ᵥ u)) • n + St • (u - (n ⬝ᵥ u) • n)

/-- `K` and `G` are the moduli of a pack with these contact stiffnesses. -/
def PackModuli (Cn phi R Sn St K G : ℝ) : Prop :=
  ∀ e : Strain, e.IsSymm → packStress Cn phi R (contactForce R Sn St e) = hooke K G e

/-- The pressure that contacts pushed together by the normal force `F` balance. -/
def PackPressure (Cn phi R F p : ℝ) : Prop :=
  packStress Cn phi R (fun n => F • n) = p • (1 : Strain)

/-- Hertz's law with a bonded disc of radius `a` (Digby 1981; `a = 0` is Hertz 1882): the normal
force of two spheres of shear modulus `G` and Poisson's ratio `v` in contact over a disc of
radius `b`. -/
noncomputable def hertzForce (G v R a b : ℝ) : ℝ :=
  8 * G / (3 * R * (1 - v)) * √(b ^ 2 - a ^ 2) * (b ^ 2 + a ^ 2 / 2)

/-- The displacement of each centre towards the contact. -/
noncomputable def hertzApproach (R a b : ℝ) : ℝ := b * √(b ^ 2 - a ^ 2) / R

/-- `Sn` is the normal stiffness: the rate of change of force with approach. -/
def IsNormalStiffness (G v R a b Sn : ℝ) : Prop :=
  ∃ F' d' : ℝ, HasDerivAt (hertzForce G v R a) F' b ∧ HasDerivAt (hertzApproach R a) d' b ∧
    d' ≠ 0 ∧ F' = Sn * d'

/-- Mindlin's tangential stiffness of a disc of radius `b` that does not slip. -/
noncomputable def mindlinStiffness (G v b : ℝ) : ℝ := 8 * b * G / (2 - v)

/-- The cement at one contact when it fills the gap `r^2 / R` between the two spheres out to the
distance `a` from the contact point. -/
noncomputable def lensVolume (R a : ℝ) : ℝ := ∫ r in (0 : ℝ)..a, 2 * π * r * (r ^ 2 / R)

/-- Cement placed at the contacts only: the lenses fill the lost pore space. -/
def CementAtContacts (Cn phi phic R a : ℝ) : Prop :=
  contactDensity Cn phic R * lensVolume R a = phic - phi

/-- Cement coating every grain with thickness `h` fills the lost pore space, and closes the gap
out to the distance `a` at which half of it is `h`. -/
def CementCoating (phi phic R a : ℝ) : Prop :=
  ∃ h : ℝ, (1 - phic) / (4 / 3 * π * R ^ 3) * (4 * π * R ^ 2 * h) = phic - phi ∧
    a ^ 2 / (2 * R) = h

/-- Dvorkin and Nur's (1996) dimensionless normal stiffness of a cemented contact with relative
cement radius `x = a / R`. -/
noncomputable def dvorkinNurNormal (L x : ℝ) : ℝ :=
  -0.024153 * L ^ (-1.3646 : ℝ) * x ^ 2 + 0.20405 * L ^ (-0.89008 : ℝ) * x
    + 0.00024649 * L ^ (-1.9864 : ℝ)

/-- Their dimensionless shear stiffness; `v` is Poisson's ratio of the grains. -/
noncomputable def dvorkinNurShear (v L x : ℝ) : ℝ :=
  -0.01 * (2.26 * v ^ 2 + 2.07 * v + 2.3) * L ^ (0.079 * v ^ 2 + 0.1754 * v - 1.342) * x ^ 2
    + (0.0573 * v ^ 2 + 0.0937 * v + 0.202) * L ^ (0.0274 * v ^ 2 + 0.0529 * v - 0.8765) * x
    + 0.0001 * (9.654 * v ^ 2 + 4.945 * v + 3.1) * L ^ (0.01867 * v ^ 2 + 0.4011 * v - 1.8186)

/-- Their parameter for normal loading: `2 Gc (1 - v) (1 - vc) / (π G (1 - 2 vc))`. -/
noncomputable def cementLambdaN (G v Gc vc : ℝ) : ℝ :=
  2 * Gc / (π * G) * ((1 - v) * (1 - vc) / (1 - 2 * vc))

end RockPhy.Spec
