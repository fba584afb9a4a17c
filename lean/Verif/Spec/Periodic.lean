import Verif.Spec.Composite
import Mathlib.Analysis.Fourier.AddCircleMulti

/-! # Periodic composites

Specification used by property C92: a body that repeats a unit cell, made of isotropic phases, in
elastic equilibrium.  Derivatives are taken in the weak sense, through Fourier coefficients: the
derivative along axis `i` multiplies the coefficient of wave number `k` by `2π √-1 kᵢ`. -/

namespace RockPhy.Spec

open MeasureTheory UnitAddTorus

/-- The unit cell with opposite faces identified. -/
abbrev Cell := UnitAddTorus (Fin 3)

/-- Volume on the unit cell. -/
noncomputable def cellVolume : Measure Cell := Measure.pi fun _ => AddCircle.haarAddCircle

noncomputable instance : IsProbabilityMeasure cellVolume := by
  unfold cellVolume; infer_instance

/-- The Fourier coefficient of a real field. -/
noncomputable def coeff (f : Cell → ℝ) (k : Fin 3 → ℤ) : ℂ :=
  ∫ x, mFourier (-k) x * (f x : ℂ) ∂cellVolume

/-- A field of finite energy. -/
def FiniteEnergy (e : Cell → Tensor) : Prop := ∀ i j, MemLp (fun x => e x i j) 2 cellVolume

/-- `e` is the strain of a displacement that differs from a linear one by a periodic one: off zero
wave number its coefficients are the symmetric parts of `k ⊗ V(k)`.  (`V` is `2π √-1` times the
coefficient of the periodic displacement.) -/
def Compatible (e : Cell → Tensor) : Prop :=
  ∃ V : (Fin 3 → ℤ) → Fin 3 → ℂ, ∀ k ≠ 0, ∀ i j,
    coeff (fun x => e x i j) k = ((k i : ℂ) * V k j + (k j : ℂ) * V k i) / 2

/-- The divergence of the field `s` vanishes. -/
def Equilibrium (s : Cell → Tensor) : Prop :=
  ∀ k : Fin 3 → ℤ, ∀ i, ∑ j, (k j : ℂ) * coeff (fun x => s x i j) k = 0

/-- The stress of the strain field `e` in a composite. -/
noncomputable def stress {n : ℕ} (phase : Cell → Fin n) (K G : Fin n → ℝ) (e : Cell → Tensor) :
    Cell → Tensor :=
  fun x => isoStress (K (phase x)) (G (phase x)) (e x)

/-- The composite in equilibrium under the mean strain `E` carries the mean stress `S`. -/
def Response {n : ℕ} (phase : Cell → Fin n) (K G : Fin n → ℝ) (E S : Tensor) : Prop :=
  ∃ e : Cell → Tensor, (∀ x i j, e x i j = e x j i) ∧ FiniteEnergy e ∧ Compatible e ∧
    Equilibrium (stress phase K G e) ∧ average cellVolume e = E ∧
    average cellVolume (stress phase K G e) = S

/-- The composite is isotropic with bulk modulus `Ke` and shear modulus `Ge`. -/
def IsotropicComposite {n : ℕ} (phase : Cell → Fin n) (K G : Fin n → ℝ) (Ke Ge : ℝ) : Prop :=
  ∀ E : Tensor, (∀ i j, E i j = E j i) → Response phase K G E (isoStress Ke Ge E)

/-- `C` gives the mean stress of the composite for every mean strain. -/
def Stiffness {n : ℕ} (phase : Cell → Fin n) (K G : Fin n → ℝ) (C : Tensor → Tensor) : Prop :=
  ∀ E : Tensor, (∀ i j, E i j = E j i) → Response phase K G E (C E)

/-- `D` gives the mean strain of the composite for every mean stress. -/
def Compliance {n : ℕ} (phase : Cell → Fin n) (K G : Fin n → ℝ) (D : Tensor → Tensor) : Prop :=
  ∀ S : Tensor, (∀ i j, S i j = S j i) → Response phase K G (D S) S

/-- Five orthogonal symmetric tensors without trace. -/
def dev5 : Fin 5 → Tensor
  | 0 => !![0, 1, 0; 1, 0, 0; 0, 0, 0]
  | 1 => !![0, 0, 1; 0, 0, 0; 1, 0, 0]
  | 2 => !![0, 0, 0; 0, 0, 1; 0, 1, 0]
  | 3 => !![1, 0, 0; 0, -1, 0; 0, 0, 0]
  | 4 => !![1, 0, 0; 0, 1, 0; 0, 0, -2]

/-- The inverse of their squared norms. -/
noncomputable def wt5 : Fin 5 → ℝ
  | 4 => 1 / 6
  | _ => 1 / 2

/-- The bulk modulus of the rotational mean of a stiffness: a unit strain in all directions gives the
mean normal stress `3 K`. -/
noncomputable def voigtBulk (C : Tensor → Tensor) : ℝ := (C 1).trace / 9

/-- The shear modulus of the rotational mean of a stiffness: one tenth of the trace of the stiffness
on the five dimensional space of tensors without trace. -/
noncomputable def voigtShear (C : Tensor → Tensor) : ℝ :=
  (∑ a, wt5 a * contract (C (dev5 a)) (dev5 a)) / 10

/-- The bulk modulus of the rotational mean of a compliance. -/
noncomputable def reussBulk (D : Tensor → Tensor) : ℝ := 1 / (D 1).trace

/-- The shear modulus of the rotational mean of a compliance. -/
noncomputable def reussShear (D : Tensor → Tensor) : ℝ :=
  5 / (2 * ∑ a, wt5 a * contract (dev5 a) (D (dev5 a)))

end RockPhy.Spec
