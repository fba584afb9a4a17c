import Mathlib.Analysis.SpecialFunctions.Trigonometric.Basic
import Mathlib.Data.Matrix.Basic
import Mathlib.LinearAlgebra.Matrix.Notation
import Mathlib.LinearAlgebra.Matrix.Symmetric
import Mathlib.LinearAlgebra.Matrix.Trace
import Mathlib.LinearAlgebra.Matrix.Determinant.Basic

/-!
# Specification: linear elasticity in Voigt notation

Independent of the model.  A stiffness matrix is judged by its strain energy as a function
of a symmetric 3x3 strain tensor, so material symmetry is invariance of that energy under
rotations of the strain.
-/

namespace RockPhy.Spec

open Matrix

/-- A strain tensor (only symmetric ones are meaningful). -/
abbrev Strain := Matrix (Fin 3) (Fin 3) ℝ

/-- Voigt vector `(e11, e22, e33, 2 e23, 2 e13, 2 e12)` of a strain. -/
def voigt (e : Strain) : Fin 6 → ℝ :=
  ![e 0 0, e 1 1, e 2 2, 2 * e 1 2, 2 * e 0 2, 2 * e 0 1]

/-- Twice the strain energy density, `e : C : e`. -/
def energy (C : Matrix (Fin 6) (Fin 6) ℝ) (e : Strain) : ℝ :=
  ∑ i, ∑ j, voigt e i * C i j * voigt e j

/-- Rotation by `t` about the `x3` axis. -/
noncomputable def rot3 (t : ℝ) : Matrix (Fin 3) (Fin 3) ℝ :=
  !![Real.cos t, -Real.sin t, 0; Real.sin t, Real.cos t, 0; 0, 0, 1]

/-- Rotation by `t` about the `x1` axis. -/
noncomputable def rot1 (t : ℝ) : Matrix (Fin 3) (Fin 3) ℝ :=
  !![1, 0, 0; 0, Real.cos t, -Real.sin t; 0, Real.sin t, Real.cos t]

/-- Transverse isotropy with a vertical (`x3`) symmetry axis. -/
def IsVTI (C : Matrix (Fin 6) (Fin 6) ℝ) : Prop :=
  ∀ (t : ℝ) (e : Strain), e.IsSymm → energy C (rot3 t * e * (rot3 t)ᵀ) = energy C e

/-- Transverse isotropy with a horizontal (`x1`) symmetry axis. -/
def IsHTI (C : Matrix (Fin 6) (Fin 6) ℝ) : Prop :=
  ∀ (t : ℝ) (e : Strain), e.IsSymm → energy C (rot1 t * e * (rot1 t)ᵀ) = energy C e

/-- Isotropy: the energy is invariant under every orthogonal change of axes. -/
def IsIsotropic (C : Matrix (Fin 6) (Fin 6) ℝ) : Prop :=
  ∀ (R : Matrix (Fin 3) (Fin 3) ℝ) (e : Strain), R * Rᵀ = 1 → e.IsSymm →
    energy C (R * e * Rᵀ) = energy C e

/-- Orthorhombic: the energy is invariant under the reflections of the coordinate planes. -/
def IsOrtho (C : Matrix (Fin 6) (Fin 6) ℝ) : Prop :=
  ∀ (d : Fin 3 → ℝ) (e : Strain), (∀ i, d i = 1 ∨ d i = -1) → e.IsSymm →
    energy C (Matrix.diagonal d * e * Matrix.diagonal d) = energy C e

/-- Stability: every non-zero symmetric strain costs positive energy. -/
def IsStable (C : Matrix (Fin 6) (Fin 6) ℝ) : Prop :=
  ∀ e : Strain, e.IsSymm → e ≠ 0 → 0 < energy C e

/-- Voigt vector `(s11, s22, s33, s23, s13, s12)` of a stress. -/
def voigtStress (s : Matrix (Fin 3) (Fin 3) ℝ) : Fin 6 → ℝ :=
  ![s 0 0, s 1 1, s 2 2, s 1 2, s 0 2, s 0 1]

/-- Twice the energy density of a stress, `s : S : s`, for a compliance matrix `S`. -/
def stressEnergy (S : Matrix (Fin 6) (Fin 6) ℝ) (s : Matrix (Fin 3) (Fin 3) ℝ) : ℝ :=
  ∑ i, ∑ j, voigtStress s i * S i j * voigtStress s j

/-- A compliance that is transversely isotropic about `x3`: the energy of a stress does not change
when the stress is turned about that axis. -/
def IsVTICompliance (S : Matrix (Fin 6) (Fin 6) ℝ) : Prop :=
  ∀ (t : ℝ) (s : Matrix (Fin 3) (Fin 3) ℝ), s.IsSymm →
    stressEnergy S (rot3 t * s * (rot3 t)ᵀ) = stressEnergy S s

/-- `K` is the bulk modulus and `G` the shear modulus of an isotropic energy:
`e : C : e = (K - 2G/3) (tr e)^2 + 2 G tr (e^2)`. -/
def HasModuli (C : Matrix (Fin 6) (Fin 6) ℝ) (K G : ℝ) : Prop :=
  ∀ e : Strain, e.IsSymm →
    energy C e = (K - 2 * G / 3) * (Matrix.trace e) ^ 2 + 2 * G * Matrix.trace (e * e)

end RockPhy.Spec

namespace RockPhy.Spec

/-- The orthorhombic pattern with nine free constants. -/
def orthoMatrix (C11 C22 C33 C12 C13 C23 C44 C55 C66 : ℝ) : Matrix (Fin 6) (Fin 6) ℝ :=
  !![C11, C12, C13, 0, 0, 0;
     C12, C22, C23, 0, 0, 0;
     C13, C23, C33, 0, 0, 0;
     0, 0, 0, C44, 0, 0;
     0, 0, 0, 0, C55, 0;
     0, 0, 0, 0, 0, C66]

/-- The VTI stiffness pattern: `C22=C11`, `C23=C13`, `C55=C44`, `C12=C11-2C66`. -/
def vtiMatrix (C11 C33 C13 C44 C66 : ℝ) : Matrix (Fin 6) (Fin 6) ℝ :=
  orthoMatrix C11 C11 C33 (C11 - 2 * C66) C13 C13 C44 C44 C66

/-- The HTI stiffness pattern: `C22=C33`, `C12=C13`, `C66=C55`, `C23=C33-2C44`. -/
def htiMatrix (C11 C33 C13 C44 C55 : ℝ) : Matrix (Fin 6) (Fin 6) ℝ :=
  orthoMatrix C11 C33 C33 C13 C13 (C33 - 2 * C44) C44 C55 C55

/-- The isotropic stiffness with bulk modulus `K` and shear modulus `G`. -/
noncomputable def isoMatrix (K G : ℝ) : Matrix (Fin 6) (Fin 6) ℝ :=
  orthoMatrix (K + 4 * G / 3) (K + 4 * G / 3) (K + 4 * G / 3) (K - 2 * G / 3) (K - 2 * G / 3)
    (K - 2 * G / 3) G G G

end RockPhy.Spec

namespace RockPhy.Spec

open Matrix

/-- The 3x6 matrix turning a direction `n` into the Voigt strain operator. -/
def dirMatrix (n : Fin 3 → ℝ) : Matrix (Fin 3) (Fin 6) ℝ :=
  !![n 0, 0, 0, 0, n 2, n 1;
     0, n 1, 0, n 2, 0, n 0;
     0, 0, n 2, n 1, n 0, 0]

/-- Christoffel matrix of the stiffness `C` for a plane wave travelling along `n`.  The
squared phase velocities times density are its eigenvalues. -/
def christoffel (C : Matrix (Fin 6) (Fin 6) ℝ) (n : Fin 3 → ℝ) : Matrix (Fin 3) (Fin 3) ℝ :=
  dirMatrix n * C * (dirMatrix n)ᵀ

/-- `a`, `b`, `c` are the eigenvalues, with multiplicity, of the 3x3 matrix `M`. -/
def HasSpectrum (M : Matrix (Fin 3) (Fin 3) ℝ) (a b c : ℝ) : Prop :=
  ∀ x : ℝ, (M - x • (1 : Matrix (Fin 3) (Fin 3) ℝ)).det = (a - x) * (b - x) * (c - x)

end RockPhy.Spec

namespace RockPhy.Spec

/-- The rotation invariant `C_iijj`. -/
def invIIJJ (C : Matrix (Fin 6) (Fin 6) ℝ) : ℝ :=
  C 0 0 + C 1 1 + C 2 2 + 2 * (C 0 1 + C 0 2 + C 1 2)

/-- The rotation invariant `C_ijij`. -/
def invIJIJ (C : Matrix (Fin 6) (Fin 6) ℝ) : ℝ :=
  C 0 0 + C 1 1 + C 2 2 + 2 * (C 3 3 + C 4 4 + C 5 5)

/-- Bulk modulus of the orientation average of `C`. -/
noncomputable def avgK (C : Matrix (Fin 6) (Fin 6) ℝ) : ℝ := invIIJJ C / 9

/-- Shear modulus of the orientation average of `C`. -/
noncomputable def avgG (C : Matrix (Fin 6) (Fin 6) ℝ) : ℝ := (3 * invIJIJ C - invIIJJ C) / 30

/-- Exchange of the coordinate axes 1 and 3 on Voigt indices. -/
def swap13 : Fin 6 → Fin 6 := ![2, 1, 0, 5, 4, 3]

/-- Exchange of the coordinate axes 2 and 3 on Voigt indices. -/
def swap23 : Fin 6 → Fin 6 := ![0, 2, 1, 3, 5, 4]

end RockPhy.Spec
