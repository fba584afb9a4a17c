import Mathlib.MeasureTheory.Integral.IntegralEqImproper
import Verif.Spec.Elastic

/-!
# Specification: Eshelby's ellipsoidal inclusion

Independent of the model.  Eshelby (1957) in the notation of Mura (Micromechanics of Defects in
Solids, section 11): the strain inside an ellipsoid that would deform by the eigenstrain `t` if it
were free is `S t`, where the tensor `S` is built from elliptic integrals over the semi-axes.  An
inclusion of other moduli under a remote strain `e0` is reduced to that case by choosing the
eigenstrain which gives the right stress.
-/

namespace RockPhy.Spec

open MeasureTheory Set Matrix

/-- `sqrt((b1^2+s)(b2^2+s)(b3^2+s))`. -/
noncomputable def shell (b : Fin 3 → ℝ) (s : ℝ) : ℝ :=
  √((b 0 ^ 2 + s) * (b 1 ^ 2 + s) * (b 2 ^ 2 + s))

/-- Mura's `I_i`. -/
noncomputable def muraI (b : Fin 3 → ℝ) (i : Fin 3) : ℝ :=
  2 * Real.pi * (b 0 * b 1 * b 2) * ∫ s in Ioi (0 : ℝ), 1 / ((b i ^ 2 + s) * shell b s)

/-- Mura's `I_ij`. -/
noncomputable def muraII (b : Fin 3 → ℝ) (i j : Fin 3) : ℝ :=
  2 * Real.pi * (b 0 * b 1 * b 2)
    * ∫ s in Ioi (0 : ℝ), 1 / ((b i ^ 2 + s) * (b j ^ 2 + s) * shell b s)

/-- The components `S_iijj` of Eshelby's tensor for an ellipsoid with semi-axes `b` along the
coordinate axes, in an isotropic solid of Poisson's ratio `v`. -/
noncomputable def eshelbyNormal (v : ℝ) (b : Fin 3 → ℝ) (i j : Fin 3) : ℝ :=
  if i = j then
    3 / (8 * Real.pi * (1 - v)) * b i ^ 2 * muraII b i i
      + (1 - 2 * v) / (8 * Real.pi * (1 - v)) * muraI b i
  else
    1 / (8 * Real.pi * (1 - v)) * b j ^ 2 * muraII b i j
      - (1 - 2 * v) / (8 * Real.pi * (1 - v)) * muraI b i

/-- The components `S_ijij`, `i ≠ j`. -/
noncomputable def eshelbyShear (v : ℝ) (b : Fin 3 → ℝ) (i j : Fin 3) : ℝ :=
  (b i ^ 2 + b j ^ 2) / (16 * Real.pi * (1 - v)) * muraII b i j
    + (1 - 2 * v) / (16 * Real.pi * (1 - v)) * (muraI b i + muraI b j)

/-- Eshelby's tensor applied to an eigenstrain; all components `S_ijkl` that do not appear are
zero. -/
noncomputable def eshelby (v : ℝ) (b : Fin 3 → ℝ) (t : Strain) : Strain :=
  Matrix.of fun i j =>
    if i = j then ∑ k, eshelbyNormal v b i k * t k k
    else eshelbyShear v b i j * (t i j + t j i)

/-- Hooke's law of an isotropic solid: the stress of the strain `e`. -/
noncomputable def hooke (K G : ℝ) (e : Strain) : Strain :=
  ((K - 2 * G / 3) * e.trace) • (1 : Strain) + (2 * G) • e

/-- Poisson's ratio from the bulk and shear modulus. -/
noncomputable def poisson (K G : ℝ) : ℝ := (3 * K - 2 * G) / (2 * (3 * K + G))

/-- `e` is the strain inside an ellipsoid of moduli `Ki`, `Gi` and semi-axes `b` embedded in an
unbounded solid of moduli `K`, `G` that is strained by `e0` far away: some eigenstrain `t`
placed in the ellipsoid of an otherwise homogeneous body produces the same strain and the same
stress. -/
def IsInclusionStrain (K G Ki Gi : ℝ) (b : Fin 3 → ℝ) (e0 e : Strain) : Prop :=
  ∃ t : Strain, t.IsSymm ∧ e = e0 + eshelby (poisson K G) b t ∧
    hooke Ki Gi e = hooke K G (e - t)

/-- Scalar product of two strains. -/
def strainProduct (e e' : Strain) : ℝ := ∑ i, ∑ j, e i j * e' i j

/-- Five orthonormal strains without volume change. -/
noncomputable def shears : Fin 5 → Strain :=
  ![!![1 / √2, 0, 0; 0, -1 / √2, 0; 0, 0, 0],
    !![-1 / √6, 0, 0; 0, -1 / √6, 0; 0, 0, 2 / √6],
    !![0, 1 / √2, 0; 1 / √2, 0, 0; 0, 0, 0],
    !![0, 0, 1 / √2; 0, 0, 0; 1 / √2, 0, 0],
    !![0, 0, 0; 0, 0, 1 / √2; 0, 1 / √2, 0]]

/-- `P` and `Q` are the strain concentration factors of randomly oriented ellipsoids: a remote
volume strain is concentrated `P` times, and the five independent shear strains are
concentrated `Q` times on average. -/
def IsConcentration (K G Ki Gi : ℝ) (b : Fin 3 → ℝ) (P Q : ℝ) : Prop :=
  (∃ e, IsInclusionStrain K G Ki Gi b 1 e) ∧
  (∀ m, ∃ e, IsInclusionStrain K G Ki Gi b (shears m) e) ∧
  (∀ e, IsInclusionStrain K G Ki Gi b 1 e → e.trace = 3 * P) ∧
  (∀ e : Fin 5 → Strain, (∀ m, IsInclusionStrain K G Ki Gi b (shears m) (e m)) →
    ∑ m, strainProduct (shears m) (e m) = 5 * Q)

/-- `s` is the mean stress of a solid with a small volume fraction `phi` of aligned, non
interacting ellipsoids, under the remote strain `e0`: every inclusion replaces the stress of
the host by its own at its actual strain. -/
def IsDiluteStress (K G Ki Gi : ℝ) (b : Fin 3 → ℝ) (phi : ℝ) (e0 s : Strain) : Prop :=
  ∃ e, IsInclusionStrain K G Ki Gi b e0 e ∧
    s = hooke K G e0 + phi • (hooke Ki Gi e - hooke K G e)

/-- A spheroid: two equal semi-axes, the third one `a` times as long. -/
def spheroid (a : ℝ) : Fin 3 → ℝ := ![1, 1, a]

end RockPhy.Spec
