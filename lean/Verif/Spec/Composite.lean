import Mathlib.MeasureTheory.Integral.Bochner.SumMeasure
import Mathlib.MeasureTheory.Function.L2Space

/-! # What a composite and its effective moduli are

Specification used by property C91.  A composite occupies a space `Ω` with a probability measure `μ`
(volume divided by total volume).  Each point belongs to one of `n` isotropic phases.  Nothing is
assumed about the geometry. -/

namespace RockPhy.Spec

open MeasureTheory

/-- Symmetric or general second rank tensors. -/
abbrev Tensor := Matrix (Fin 3) (Fin 3) ℝ

/-- Isotropic Hooke's law with bulk modulus `K` and shear modulus `G`. -/
noncomputable def isoStress (K G : ℝ) (e : Tensor) : Tensor :=
  (K * e.trace) • 1 + (2 * G) • (e - (e.trace / 3) • 1)

/-- The double contraction of two tensors. -/
def contract (s e : Tensor) : ℝ := ∑ i, ∑ j, s i j * e i j

variable {Ω : Type*} [MeasurableSpace Ω] {n : ℕ}

/-- The volume average of a tensor field. -/
noncomputable def average (μ : Measure Ω) (e : Ω → Tensor) : Tensor :=
  fun i j => ∫ x, e x i j ∂μ

/-- A strain field of finite energy with mean `E` that satisfies Hill's condition: the mean work of
the stress on the strain is the work of the mean stress on the mean strain.  (Every strain of a body
in equilibrium whose boundary is displaced by `E x`, or which is periodic, or which carries a
uniform traction, satisfies it.) -/
structure Admissible (μ : Measure Ω) (phase : Ω → Fin n) (K G : Fin n → ℝ) (E : Tensor)
    (e : Ω → Tensor) : Prop where
  symm : ∀ x i j, e x i j = e x j i
  energy : ∀ i j, MemLp (fun x => e x i j) 2 μ
  mean : average μ e = E
  hill : ∫ x, contract (isoStress (K (phase x)) (G (phase x)) (e x)) (e x) ∂μ
    = contract (average μ fun x => isoStress (K (phase x)) (G (phase x)) (e x)) E

/-- `Ke` and `Ge` are effective moduli of the composite: for every mean strain there is an
admissible field whose mean stress is the one of a homogeneous isotropic body with these moduli. -/
def EffectiveModuli (μ : Measure Ω) (phase : Ω → Fin n) (K G : Fin n → ℝ) (Ke Ge : ℝ) : Prop :=
  ∀ E : Tensor, (∀ i j, E i j = E j i) → ∃ e, Admissible μ phase K G E e ∧
    average μ (fun x => isoStress (K (phase x)) (G (phase x)) (e x)) = isoStress Ke Ge E

/-- The volume fraction of each phase. -/
noncomputable def fraction (μ : Measure Ω) (phase : Ω → Fin n) (i : Fin n) : ℝ :=
  μ.real (phase ⁻¹' {i})

end RockPhy.Spec
