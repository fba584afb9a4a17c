import Mathlib.Analysis.Calculus.Deriv.Basic
import Mathlib.MeasureTheory.Integral.IntervalIntegral.Basic
import Mathlib.Analysis.SpecialFunctions.Trigonometric.Basic

/-!
# Specification: slow viscous flow through tubes and slits, and through rocks made of them

A Newtonian fluid of viscosity `η` is driven by the pressure drop `g` per unit length.
-/

namespace RockPhy.Spec

open Set MeasureTheory

/-- Steady flow along a round tube of radius `R`; `v r` is the velocity at distance `r` from the
axis.  `s` is the shear rate, the force balance on a ring is `(η r v')' = -g r`, and the fluid sticks
to the wall. -/
def TubeFlow (R g η : ℝ) (v : ℝ → ℝ) : Prop :=
  ∃ s : ℝ → ℝ, ContinuousOn v (Icc 0 R) ∧ ContinuousOn s (Icc 0 R) ∧ v R = 0 ∧
    ∀ r ∈ Ioo 0 R, HasDerivAt v (s r) r ∧ HasDerivAt (fun x => η * x * s x) (-g * r) r

/-- Volume carried through the cross section of the tube per unit time. -/
noncomputable def tubeFlux (R : ℝ) (v : ℝ → ℝ) : ℝ := ∫ r in 0..R, v r * (2 * Real.pi * r)

/-- Steady flow between two parallel walls at `x = -w/2` and `x = w/2`: `(η v')' = -g`. -/
def SlitFlow (w g η : ℝ) (v : ℝ → ℝ) : Prop :=
  ∃ s : ℝ → ℝ, ContinuousOn v (Icc (-w / 2) (w / 2)) ∧ v (-w / 2) = 0 ∧ v (w / 2) = 0 ∧
    ∀ x ∈ Ioo (-w / 2) (w / 2), HasDerivAt v (s x) x ∧ HasDerivAt (fun y => η * s y) (-g) x

/-- Volume carried per unit time and unit breadth of the slit. -/
noncomputable def slitFlux (w : ℝ) (v : ℝ → ℝ) : ℝ := ∫ x in (-w / 2)..(w / 2), v x

/-- A rock whose pores are `n` tubes of radius `R` per unit cross section, each `τ` times as long as
the rock. -/
structure TubeBundle where
  n : ℝ
  R : ℝ
  τ : ℝ
  n_pos : 0 < n
  R_pos : 0 < R
  τ_pos : 0 < τ

/-- Pore volume and pore surface per unit volume of rock. -/
noncomputable def TubeBundle.porosity (b : TubeBundle) : ℝ := b.n * (Real.pi * b.R ^ 2) * b.τ

noncomputable def TubeBundle.surface (b : TubeBundle) : ℝ := b.n * (2 * Real.pi * b.R) * b.τ

/-- Darcy's law with permeability `k`: whatever the pressure gradient `G` along the rock and the
viscosity `η`, the flow through a unit cross section is `k G / η`.  Along a tube the same pressure
drop is spread over a length `τ` times larger. -/
def TubeBundle.IsPermeability (b : TubeBundle) (k : ℝ) : Prop :=
  ∀ G η : ℝ, 0 < η → ∀ v, TubeFlow b.R (G / b.τ) η v → b.n * tubeFlux b.R v = k * G / η

/-- A rock whose pores are slits of width `w`; `n` is the total breadth of the slits per unit cross
section. -/
structure SlitBundle where
  n : ℝ
  w : ℝ
  τ : ℝ
  n_pos : 0 < n
  w_pos : 0 < w
  τ_pos : 0 < τ

noncomputable def SlitBundle.porosity (b : SlitBundle) : ℝ := b.n * b.w * b.τ

noncomputable def SlitBundle.surface (b : SlitBundle) : ℝ := b.n * 2 * b.τ

def SlitBundle.IsPermeability (b : SlitBundle) (k : ℝ) : Prop :=
  ∀ G η : ℝ, 0 < η → ∀ v, SlitFlow b.w (G / b.τ) η v → b.n * slitFlux b.w v = k * G / η

/-- `S` is the surface per unit volume of a pack of spheres of porosity `φ` whose diameters have the
distribution `μ`: there are `N` grains per unit volume, their volumes add up to `1 - φ` and their
surfaces to `S`. -/
def GrainSurface (μ : Measure ℝ) (φ S : ℝ) : Prop :=
  ∃ N : ℝ, N * ∫ D, Real.pi * D ^ 3 / 6 ∂μ = 1 - φ ∧ S = N * ∫ D, Real.pi * D ^ 2 ∂μ

/-- The distribution `μ` of diameters has mean `d`, coefficient of variation `C` and skewness `γ`. -/
structure SizeDistribution (μ : Measure ℝ) (d C γ : ℝ) : Prop where
  prob : IsProbabilityMeasure μ
  positive : ∀ᵐ D ∂μ, 0 < D
  finite : Integrable (fun D => D ^ 3) μ
  mean : ∫ D, D ∂μ = d
  spread : ∫ D, (D - d) ^ 2 ∂μ = (C * d) ^ 2
  skew : ∫ D, (D - d) ^ 3 ∂μ = γ * (C * d) ^ 3

end RockPhy.Spec
