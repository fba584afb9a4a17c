import Mathlib.Data.Matrix.Mul
import Mathlib.Data.Real.Basic
import Mathlib.LinearAlgebra.Matrix.Symmetric

/-!
# Specification: linear poroelasticity

Independent of the model.  A porous rock of one homogeneous mineral is loaded by a stress (six
Voigt components, tension positive) and a pore pressure.  Its strain and the change of its pore
volume (per unit bulk volume) are linear in both.  Three facts are used, and no formula of
Gassmann, Brown or Korringa: the drained compliance is known; if stress and pore pressure are
equal the rock shrinks like a solid piece of mineral; and Betti's reciprocity holds.
-/

namespace RockPhy.Spec

open Matrix

/-- Hydrostatic unit tension, or the trace direction: `(1, 1, 1, 0, 0, 0)`. -/
def hydro : Fin 6 → ℝ := ![1, 1, 1, 0, 0, 0]

/-- The response of a rock with drained compliance `S`, mineral bulk modulus `K0` and porosity
`phi` to pairs of stress and pore pressure. -/
structure PorousResponse (S : Matrix (Fin 6) (Fin 6) ℝ) (K0 phi : ℝ) where
  strain : ((Fin 6 → ℝ) × ℝ) →ₗ[ℝ] (Fin 6 → ℝ)
  pore : ((Fin 6 → ℝ) × ℝ) →ₗ[ℝ] ℝ
  /-- Without pore pressure the strain is given by the drained compliance. -/
  drained : ∀ s, strain (s, 0) = S.mulVec s
  /-- Under equal confining and pore pressure every length shrinks by `p / (3 K0)` and the pores
  keep their share of the volume. -/
  unjacketed : ∀ p : ℝ, strain (-p • hydro, p) = (-p / (3 * K0)) • hydro ∧
    pore (-p • hydro, p) = phi * (-p / K0)
  /-- The work of one load on the displacement of another is symmetric. -/
  betti : ∀ x y, x.1 ⬝ᵥ strain y + x.2 * pore y = y.1 ⬝ᵥ strain x + y.2 * pore x

/-- `T` is the undrained compliance of such a rock when its pores are full of a fluid of bulk
modulus `Kf`: no fluid leaves, so the pores change volume exactly as the fluid does. -/
def IsUndrainedCompliance (S : Matrix (Fin 6) (Fin 6) ℝ) (K0 phi Kf : ℝ)
    (T : Matrix (Fin 6) (Fin 6) ℝ) : Prop :=
  Nonempty (PorousResponse S K0 phi) ∧ ∀ r : PorousResponse S K0 phi,
    (∀ s, ∃ p, r.pore (s, p) = phi * (-p / Kf)) ∧
    ∀ s p, r.pore (s, p) = phi * (-p / Kf) → r.strain (s, p) = T.mulVec s

/-- There is at most one undrained compliance. -/
theorem IsUndrainedCompliance.unique {S T T' : Matrix (Fin 6) (Fin 6) ℝ} {K0 phi Kf : ℝ}
    (h : IsUndrainedCompliance S K0 phi Kf T) (h' : IsUndrainedCompliance S K0 phi Kf T') :
    T = T' := by
  obtain ⟨⟨r⟩, h⟩ := h
  refine Matrix.mulVec_injective (funext fun s => ?_)
  obtain ⟨p, hp⟩ := (h r).1 s
  rw [← (h r).2 s p hp, ← (h'.2 r).2 s p hp]

end RockPhy.Spec
