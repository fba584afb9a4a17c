import Verif.Spec.Elastic

/-!
# Specification: exact reflection of plane waves between anisotropic half-spaces

Independent of the model.  The `x3` axis points down, across the interface.  Medium 1 lies above
the interface and carries the incident wave.  All waves share the horizontal slowness `(p1, p2)`
(Snell's law), and differ in the vertical slowness `q`.  A wave is a displacement polarisation `u`;
at the interface only its displacement and its traction on horizontal planes matter.
-/

namespace RockPhy.Spec

open Matrix

/-- A plane wave of slowness `s` and polarisation `u` obeys the equation of motion in the medium
of stiffness `C` and density `ρ` (Christoffel's equation). -/
def IsWave (C : Matrix (Fin 6) (Fin 6) ℝ) (ρ : ℝ) (s u : Fin 3 → ℝ) : Prop :=
  christoffel C s *ᵥ u = ρ • u

/-- Voigt strain of the wave (per unit `i ω`). -/
def waveStrain (s u : Fin 3 → ℝ) : Fin 6 → ℝ := (dirMatrix s)ᵀ *ᵥ u

/-- Traction of the wave on horizontal planes (per unit `i ω`). -/
def traction (C : Matrix (Fin 6) (Fin 6) ℝ) (s u : Fin 3 → ℝ) : Fin 3 → ℝ :=
  dirMatrix ![0, 0, 1] *ᵥ (C *ᵥ waveStrain s u)

/-- Power the wave carries downwards through a horizontal plane, up to a positive factor. -/
def downFlux (C : Matrix (Fin 6) (Fin 6) ℝ) (s u : Fin 3 → ℝ) : ℝ := u ⬝ᵥ traction C s u

/-- A P wave of unit displacement: polarised within 45 degrees of its slowness, and towards it. -/
structure IsP (C : Matrix (Fin 6) (Fin 6) ℝ) (ρ : ℝ) (s u : Fin 3 → ℝ) : Prop where
  wave : IsWave C ρ s u
  unit : u ⬝ᵥ u = 1
  toward : 0 < s ⬝ᵥ u
  along : s ⬝ᵥ s ≤ 2 * (s ⬝ᵥ u) ^ 2

/-- A shear wave of any displacement, possibly zero: polarised at 45 degrees or more from its
slowness. -/
structure IsS (C : Matrix (Fin 6) (Fin 6) ℝ) (ρ : ℝ) (s u : Fin 3 → ℝ) : Prop where
  wave : IsWave C ρ s u
  across : 2 * (s ⬝ᵥ u) ^ 2 ≤ (s ⬝ᵥ s) * (u ⬝ᵥ u)

/-- The waves at an interface: amplitude of the transmitted P wave; vertical slownesses and
displacements of the incident and reflected P waves, of two reflected shear waves, of the
transmitted P wave and of two transmitted shear waves. -/
structure Waves where
  T : ℝ
  (qi qr qs qs' qt qd qd' : ℝ)
  (ui ur us us' ut ud ud' : Fin 3 → ℝ)

/-- A P wave of unit displacement comes down on a welded interface; `R` and `w.T` are the
displacements of the reflected and transmitted P waves.  In each medium there may be shear waves
of two different vertical slownesses (shear waves of one slowness count as one).  Up and down are
decided by the flow of energy. -/
structure IsScattering (C₁ : Matrix (Fin 6) (Fin 6) ℝ) (ρ₁ : ℝ) (C₂ : Matrix (Fin 6) (Fin 6) ℝ)
    (ρ₂ p1 p2 R : ℝ) (w : Waves) : Prop where
  incident : IsP C₁ ρ₁ ![p1, p2, w.qi] w.ui
  incident_down : 0 ≤ downFlux C₁ ![p1, p2, w.qi] w.ui
  reflected : IsP C₁ ρ₁ ![p1, p2, w.qr] w.ur
  reflected_up : downFlux C₁ ![p1, p2, w.qr] w.ur ≤ 0
  shear_up : IsS C₁ ρ₁ ![p1, p2, w.qs] w.us
  shear_up_flux : downFlux C₁ ![p1, p2, w.qs] w.us ≤ 0
  shear_up' : IsS C₁ ρ₁ ![p1, p2, w.qs'] w.us'
  shear_up_flux' : downFlux C₁ ![p1, p2, w.qs'] w.us' ≤ 0
  shear_up_ne : w.qs ≠ w.qs'
  transmitted : IsP C₂ ρ₂ ![p1, p2, w.qt] w.ut
  transmitted_down : 0 ≤ downFlux C₂ ![p1, p2, w.qt] w.ut
  shear_down : IsS C₂ ρ₂ ![p1, p2, w.qd] w.ud
  shear_down_flux : 0 ≤ downFlux C₂ ![p1, p2, w.qd] w.ud
  shear_down' : IsS C₂ ρ₂ ![p1, p2, w.qd'] w.ud'
  shear_down_flux' : 0 ≤ downFlux C₂ ![p1, p2, w.qd'] w.ud'
  shear_down_ne : w.qd ≠ w.qd'
  displacement : w.ui + R • w.ur + w.us + w.us' = w.T • w.ut + w.ud + w.ud'
  tractions : traction C₁ ![p1, p2, w.qi] w.ui + R • traction C₁ ![p1, p2, w.qr] w.ur
      + traction C₁ ![p1, p2, w.qs] w.us + traction C₁ ![p1, p2, w.qs'] w.us'
    = w.T • traction C₂ ![p1, p2, w.qt] w.ut + traction C₂ ![p1, p2, w.qd] w.ud
      + traction C₂ ![p1, p2, w.qd'] w.ud'

/-- `R` is an exact P-to-P displacement reflection coefficient at horizontal slowness
`(p1, p2)`. -/
def ReflectsPP (C₁ : Matrix (Fin 6) (Fin 6) ℝ) (ρ₁ : ℝ) (C₂ : Matrix (Fin 6) (Fin 6) ℝ)
    (ρ₂ p1 p2 R : ℝ) : Prop := ∃ w, IsScattering C₁ ρ₁ C₂ ρ₂ p1 p2 R w

end RockPhy.Spec
