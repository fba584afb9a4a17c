import Mathlib.Analysis.Matrix.Spectrum
import Mathlib.Analysis.Matrix.PosDef

/-! # Lemmas: simultaneous diagonalisation of a definite and a symmetric form -/

namespace RockPhy.Scat

open Matrix

variable {n : Type*} [Fintype n] [DecidableEq n]

/-- A real symmetric matrix is diagonal in some orthonormal basis. -/
theorem orthogonal_diag {A : Matrix n n ℝ} (hA : A.IsSymm) :
    ∃ (U : Matrix n n ℝ) (a : n → ℝ), Uᵀ * U = 1 ∧ Uᵀ * A * U = diagonal a := by
  have h : A.IsHermitian := by
    rw [IsHermitian, conjTranspose_eq_transpose_of_trivial]; exact hA
  refine ⟨h.eigenvectorUnitary, h.eigenvalues, ?_, ?_⟩
  · have := (Matrix.mem_unitaryGroup_iff'.mp h.eigenvectorUnitary.2)
    rwa [star_eq_conjTranspose, conjTranspose_eq_transpose_of_trivial] at this
  · have := h.conjStarAlgAut_star_eigenvectorUnitary
    rw [Unitary.conjStarAlgAut_star_apply] at this
    rw [star_eq_conjTranspose, conjTranspose_eq_transpose_of_trivial] at this
    rw [this]
    rfl

/-- A definite and a symmetric matrix are diagonal in a common basis. -/
theorem pencil {A B : Matrix n n ℝ} (hA : A.IsSymm) (hp : ∀ x : n → ℝ, x ≠ 0 → 0 < x ⬝ᵥ (A *ᵥ x))
    (hB : B.IsSymm) :
    ∃ (P : Matrix n n ℝ) (l : n → ℝ), Pᵀ * A * P = 1 ∧ Pᵀ * B * P = diagonal l := by
  obtain ⟨U, a, hU, ha⟩ := orthogonal_diag hA
  have pos : ∀ i, 0 < a i := by
    intro i
    have e : (U *ᵥ Pi.single i 1) ⬝ᵥ (A *ᵥ (U *ᵥ Pi.single i 1)) = a i := by
      have : (U *ᵥ Pi.single i 1) ⬝ᵥ (A *ᵥ (U *ᵥ Pi.single i 1))
          = Pi.single i 1 ⬝ᵥ ((Uᵀ * A * U) *ᵥ Pi.single i 1) := by
        rw [← mulVec_mulVec, ← mulVec_mulVec, dotProduct_mulVec _ Uᵀ, vecMul_transpose]
      rw [this, ha]
      simp
    rw [← e]
    refine hp _ fun h0 => ?_
    have : Uᵀ *ᵥ (U *ᵥ Pi.single i (1 : ℝ)) = Pi.single i 1 := by
      rw [mulVec_mulVec, hU, one_mulVec]
    rw [h0, mulVec_zero] at this
    have := congrFun this i
    simp at this
  obtain ⟨V, l, hV, hl⟩ := orthogonal_diag (A := (U * diagonal fun i => (√(a i))⁻¹)ᵀ * B *
    (U * diagonal fun i => (√(a i))⁻¹)) (by
      simp only [IsSymm, transpose_mul, transpose_transpose, hB.eq, Matrix.mul_assoc])
  refine ⟨U * (diagonal fun i => (√(a i))⁻¹) * V, l, ?_, ?_⟩
  · have e : (U * diagonal fun i => (√(a i))⁻¹)ᵀ * A * (U * diagonal fun i => (√(a i))⁻¹) = 1 := by
      rw [transpose_mul, diagonal_transpose]
      have : (diagonal fun i => (√(a i))⁻¹) * Uᵀ * A * (U * diagonal fun i => (√(a i))⁻¹)
          = (diagonal fun i => (√(a i))⁻¹) * (Uᵀ * A * U) * (diagonal fun i => (√(a i))⁻¹) := by
        simp only [Matrix.mul_assoc]
      rw [this, ha, diagonal_mul_diagonal, diagonal_mul_diagonal, ← diagonal_one]
      congr 1
      funext i
      have := Real.mul_self_sqrt (pos i).le
      have h0 := (Real.sqrt_pos.mpr (pos i)).ne'
      field_simp
      nlinarith
    calc _ = Vᵀ * ((U * diagonal fun i => (√(a i))⁻¹)ᵀ * A * (U * diagonal fun i => (√(a i))⁻¹)) * V := by
          rw [transpose_mul]; simp only [Matrix.mul_assoc]
      _ = 1 := by rw [e, Matrix.mul_one, hV]
  · rw [← hl, transpose_mul]
    simp only [Matrix.mul_assoc]

end RockPhy.Scat
