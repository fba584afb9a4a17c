import Verif.Num
import Mathlib.LinearAlgebra.Matrix.NonsingularInverse

/-! # Specification: what is assumed of `np.linalg.inv` -/

namespace RockPhy.Spec

open Fl

/-- `linv` returns the inverse of every invertible 6x6 real matrix (exact arithmetic). -/
def InvOracle (linv : Mat6 Fl → Except PyErr (Mat6 Fl)) : Prop :=
  ∀ A B : Matrix (Fin 6) (Fin 6) ℝ, A * B = 1 → linv (A.map fin) = .ok (B.map fin)

/-- The real part of an entry. -/
def entry : Fl → ℝ
  | fin r => r
  | bad => 0

/-- Some function meets the assumption, so theorems that assume it are not vacuous. -/
theorem InvOracle.exists : ∃ linv, InvOracle linv := by
  refine ⟨fun M => .ok ((M.map entry)⁻¹.map fin), fun A B hAB => ?_⟩
  have e : (A.map fin).map entry = A := by ext i j; simp [entry]
  show Except.ok ((((A.map fin).map entry)⁻¹).map fin) = _
  rw [e, Matrix.inv_eq_right_inv hAB]

end RockPhy.Spec
