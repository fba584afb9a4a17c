import Verif.Lemmas.Scattering
import Verif.Lemmas.Pencil

/-! # Lemmas: the six plane waves of a medium at a given horizontal slowness -/

namespace RockPhy.Scat

open Spec Matrix

/-- Numbering of the six waves. -/
abbrev Ix := Fin 3 ⊕ Fin 3

section

variable (C : Matrix (Fin 6) (Fin 6) ℝ) (ρ p1 p2 : ℝ)

/-- Stiffness against vertical gradients. -/
def vert : Matrix (Fin 3) (Fin 3) ℝ := dirMatrix ![0, 0, 1] * C * (dirMatrix ![0, 0, 1])ᵀ
/-- Stiffness against horizontal gradients. -/
def horz : Matrix (Fin 3) (Fin 3) ℝ := dirMatrix ![p1, p2, 0] * C * (dirMatrix ![p1, p2, 0])ᵀ
/-- Traction due to horizontal gradients. -/
def mixed : Matrix (Fin 3) (Fin 3) ℝ := dirMatrix ![0, 0, 1] * C * (dirMatrix ![p1, p2, 0])ᵀ

/-- No wave travels horizontally, and the medium resists vertical gradients. -/
structure Subcritical : Prop where
  symm : C.IsSymm
  vert_pos : ∀ u : Fin 3 → ℝ, u ≠ 0 → 0 < u ⬝ᵥ (vert C *ᵥ u)
  horz_lt : ∀ u : Fin 3 → ℝ, u ≠ 0 → u ⬝ᵥ (horz C p1 p2 *ᵥ u) < ρ * (u ⬝ᵥ u)

/-- The definite form of the eigenvalue problem for the vertical slowness. -/
def aprod (u v u' v' : Fin 3 → ℝ) : ℝ :=
  ρ * (u ⬝ᵥ u') - u ⬝ᵥ (horz C p1 p2 *ᵥ u') + v ⬝ᵥ (vert C *ᵥ v')

/-- The six waves. -/
structure Modes where
  q : Ix → ℝ
  u : Ix → Fin 3 → ℝ
  ne : ∀ i, q i ≠ 0
  wave : ∀ i, IsWave C ρ ![p1, p2, q i] (u i)
  cross_eq : ∀ i j, cross C ![p1, p2, q i] (u i) C ![p1, p2, q j] (u j)
    = if i = j then (q i)⁻¹ else 0
  ortho : ∀ i j, aprod C ρ p1 p2 (u i) (q i • u i) (u j) (q j • u j) = if i = j then 1 else 0
  span : ∀ u0 v0, ∃ c : Ix → ℝ, u0 = ∑ i, c i • u i ∧ v0 = ∑ i, c i • q i • u i

end

variable {C : Matrix (Fin 6) (Fin 6) ℝ} {ρ p1 p2 : ℝ}

theorem dir_split (p1 p2 q : ℝ) :
    dirMatrix ![p1, p2, q] = dirMatrix ![p1, p2, 0] + q • dirMatrix ![0, 0, 1] := by
  ext i j
  fin_cases i <;> fin_cases j <;> simp [dirMatrix]

theorem traction_split (C : Matrix (Fin 6) (Fin 6) ℝ) (p1 p2 q : ℝ) (u : Fin 3 → ℝ) :
    traction C ![p1, p2, q] u = mixed C p1 p2 *ᵥ u + vert C *ᵥ (q • u) := by
  rw [traction, waveStrain, dir_split p1 p2 q, mixed, vert]
  simp only [transpose_add, transpose_smul, add_mulVec, smul_mulVec, mulVec_add, mulVec_smul,
    mulVec_mulVec, Matrix.mul_assoc]

theorem christoffel_split (h : C.IsSymm) (p1 p2 q : ℝ) (u : Fin 3 → ℝ) :
    christoffel C ![p1, p2, q] *ᵥ u = horz C p1 p2 *ᵥ u
      + q • ((mixed C p1 p2 + (mixed C p1 p2)ᵀ) *ᵥ u + vert C *ᵥ (q • u)) := by
  rw [christoffel, dir_split, mixed, vert, horz]
  simp only [transpose_mul, transpose_transpose, h.eq]
  simp only [transpose_add, transpose_smul, add_mulVec, mulVec_smul,
    Matrix.mul_assoc, Matrix.add_mul, Matrix.mul_add, Matrix.smul_mul, Matrix.mul_smul, smul_add,
    smul_mulVec, smul_smul]
  abel

theorem vert_symm (h : C.IsSymm) : (vert C).IsSymm := by
  simp only [vert, IsSymm, transpose_mul, transpose_transpose, h.eq, Matrix.mul_assoc]

theorem horz_symm (h : C.IsSymm) : (horz C p1 p2).IsSymm := by
  simp only [horz, IsSymm, transpose_mul, transpose_transpose, h.eq, Matrix.mul_assoc]

theorem elim_ne {u v : Fin 3 → ℝ} (h : Sum.elim u v ≠ 0) : u ≠ 0 ∨ v ≠ 0 := by
  by_contra hn
  push Not at hn
  rw [hn.1, hn.2] at h
  exact h (by funext i; rcases i with i | i <;> rfl)

theorem sum_elim_dot (u v u' v' : Fin 3 → ℝ) :
    Sum.elim u v ⬝ᵥ Sum.elim u' v' = u ⬝ᵥ u' + v ⬝ᵥ v' := by
  simp [dotProduct, Fintype.sum_sum_type]

/-- A medium without horizontal waves has six waves at every horizontal slowness. -/
theorem Subcritical.modes (h : Subcritical C ρ p1 p2) : Nonempty (Modes C ρ p1 p2) := by
  have hT := vert_symm h.symm
  have hQ := horz_symm (p1 := p1) (p2 := p2) h.symm
  let A : Matrix Ix Ix ℝ := fromBlocks (ρ • 1 - horz C p1 p2) 0 0 (vert C)
  let B : Matrix Ix Ix ℝ := fromBlocks (mixed C p1 p2 + (mixed C p1 p2)ᵀ) (vert C) (vert C) 0
  have hA : A.IsSymm := by
    simp only [A, IsSymm, fromBlocks_transpose, transpose_sub, transpose_smul, transpose_one, hQ.eq,
      hT.eq, transpose_zero]
  have hB : B.IsSymm := by
    simp only [B, IsSymm, fromBlocks_transpose, transpose_add, transpose_transpose, hT.eq,
      transpose_zero]
    rw [add_comm]
  have eA : ∀ u v u' v' : Fin 3 → ℝ, Sum.elim u v ⬝ᵥ (A *ᵥ Sum.elim u' v')
      = aprod C ρ p1 p2 u v u' v' := by
    intro u v u' v'
    simp only [A, fromBlocks_mulVec, aprod]
    simp only [Sum.elim_comp_inl, Sum.elim_comp_inr, zero_mulVec, add_zero, zero_add, sum_elim_dot,
      sub_mulVec, smul_mulVec, one_mulVec, dotProduct_sub, dotProduct_smul, smul_eq_mul]
  have eB : ∀ u v : Fin 3 → ℝ, B *ᵥ Sum.elim u v
      = Sum.elim ((mixed C p1 p2 + (mixed C p1 p2)ᵀ) *ᵥ u + vert C *ᵥ v) (vert C *ᵥ u) := by
    intro u v
    simp only [B, fromBlocks_mulVec, Sum.elim_comp_inl, Sum.elim_comp_inr, zero_mulVec, add_zero]
  have eA' : ∀ u v : Fin 3 → ℝ, A *ᵥ Sum.elim u v
      = Sum.elim (ρ • u - horz C p1 p2 *ᵥ u) (vert C *ᵥ v) := by
    intro u v
    simp only [A, fromBlocks_mulVec, Sum.elim_comp_inl, Sum.elim_comp_inr, zero_mulVec, add_zero,
      zero_add, sub_mulVec, smul_mulVec, one_mulVec]
  have pos : ∀ x : Ix → ℝ, x ≠ 0 → 0 < x ⬝ᵥ (A *ᵥ x) := by
    intro x hx
    have ex : x = Sum.elim (x ∘ Sum.inl) (x ∘ Sum.inr) := (Sum.elim_comp_inl_inr x).symm
    rw [ex] at hx ⊢
    rw [eA, aprod]
    generalize x ∘ Sum.inl = u at *
    generalize x ∘ Sum.inr = v at *
    have a1 : ∀ u : Fin 3 → ℝ, u ⬝ᵥ (horz C p1 p2 *ᵥ u) ≤ ρ * (u ⬝ᵥ u) := by
      intro u
      by_cases hu : u = 0
      · simp [hu]
      · exact (h.horz_lt u hu).le
    have a2 : ∀ v : Fin 3 → ℝ, 0 ≤ v ⬝ᵥ (vert C *ᵥ v) := by
      intro v
      by_cases hv : v = 0
      · simp [hv]
      · exact (h.vert_pos v hv).le
    rcases elim_ne hx with hu | hv
    · linarith [h.horz_lt u hu, a2 v]
    · linarith [h.vert_pos v hv, a1 u]
  obtain ⟨P, l, hPA, hPB⟩ := pencil hA pos hB
  have hr : P * (Pᵀ * A) = 1 := mul_eq_one_comm.mp hPA
  have hBP : B * P = A * P * diagonal l := by
    have k : (A * P) * Pᵀ = 1 := by
      have := mul_eq_one_comm.mp ((Matrix.mul_assoc _ _ _).symm.trans hPA : Pᵀ * (A * P) = 1)
      exact this
    calc B * P = ((A * P) * Pᵀ) * (B * P) := by rw [k, Matrix.one_mul]
      _ = A * P * (Pᵀ * B * P) := by simp only [Matrix.mul_assoc]
      _ = _ := by rw [hPB]
  let u : Ix → Fin 3 → ℝ := fun i a => P (Sum.inl a) i
  let v : Ix → Fin 3 → ℝ := fun i a => P (Sum.inr a) i
  have ecol : ∀ i, P *ᵥ Pi.single i 1 = Sum.elim (u i) (v i) := by
    intro i
    rw [mulVec_single_one]
    funext a
    rcases a with a | a <;> rfl
  have eig : ∀ i, B *ᵥ Sum.elim (u i) (v i) = l i • (A *ᵥ Sum.elim (u i) (v i)) := by
    intro i
    rw [← ecol, mulVec_mulVec, hBP, ← mulVec_mulVec, ← mulVec_mulVec, ← mulVec_smul, ← mulVec_smul]
    congr 2
    rw [diagonal_mulVec_single, mul_one]
    funext a
    by_cases h : a = i
    · subst h; simp
    · simp [Pi.single_eq_of_ne h]
  have orth : ∀ i j, Sum.elim (u i) (v i) ⬝ᵥ (A *ᵥ Sum.elim (u j) (v j)) = if i = j then 1 else 0 := by
    intro i j
    rw [← ecol, ← ecol, ← vecMul_transpose, ← dotProduct_mulVec, mulVec_mulVec, mulVec_mulVec, hPA,
      one_mulVec, single_one_dotProduct, Pi.single_apply]
  have inj : ∀ w : Fin 3 → ℝ, vert C *ᵥ w = 0 → w = 0 := by
    intro w hw
    by_contra hn
    have := h.vert_pos w hn
    rw [hw, dotProduct_zero] at this
    exact lt_irrefl _ this
  have eig1 : ∀ i, (mixed C p1 p2 + (mixed C p1 p2)ᵀ) *ᵥ u i + vert C *ᵥ v i
      = l i • (ρ • u i - horz C p1 p2 *ᵥ u i) := by
    intro i
    have := eig i
    rw [eB, eA'] at this
    funext a
    exact congrFun this (Sum.inl a)
  have uv : ∀ i, u i = l i • v i := by
    intro i
    have := eig i
    rw [eB, eA'] at this
    rw [← sub_eq_zero]
    refine inj _ ?_
    rw [mulVec_sub, mulVec_smul, sub_eq_zero]
    funext a
    exact congrFun this (Sum.inr a)
  have lne : ∀ i, l i ≠ 0 := by
    intro i h0
    have hu : u i = 0 := by rw [uv i, h0, zero_smul]
    have hv : v i = 0 := by
      refine inj _ ?_
      have := eig1 i
      rwa [h0, zero_smul, hu, mulVec_zero, zero_add] at this
    have := orth i i
    rw [eA, hu, hv, aprod] at this
    simp at this
  have vu : ∀ i, v i = (l i)⁻¹ • u i := by
    intro i
    rw [uv i, smul_smul, inv_mul_cancel₀ (lne i), one_smul]
  refine ⟨⟨fun i => (l i)⁻¹, u, fun i => inv_ne_zero (lne i), ?_, ?_, ?_, ?_⟩⟩
  · intro i
    rw [IsWave, christoffel_split h.symm, ← vu, eig1, smul_smul, inv_mul_cancel₀ (lne i), one_smul]
    abel
  · intro i j
    have e : Sum.elim (u i) (v i) ⬝ᵥ (B *ᵥ Sum.elim (u j) (v j)) = if i = j then l j else 0 := by
      rw [eig, dotProduct_smul, orth, smul_eq_mul, mul_ite, mul_one, mul_zero]
    rw [eB, sum_elim_dot] at e
    rw [cross, traction_split, traction_split, ← vu, ← vu, inv_inv]
    have e' : (if i = j then l i else 0) = if i = j then l j else 0 := by
      by_cases h : i = j
      · rw [if_pos h, if_pos h, h]
      · rw [if_neg h, if_neg h]
    have e3 : u j ⬝ᵥ (mixed C p1 p2 *ᵥ u i) = u i ⬝ᵥ ((mixed C p1 p2)ᵀ *ᵥ u j) := by
      rw [dotProduct_mulVec (u i), vecMul_transpose, dotProduct_comm]
    have e4 : u j ⬝ᵥ (vert C *ᵥ v i) = v i ⬝ᵥ (vert C *ᵥ u j) := by
      rw [dotProduct_mulVec (v i), ← mulVec_transpose, hT.eq, dotProduct_comm]
    rw [e', ← e, dotProduct_add, dotProduct_add, e3, e4, add_mulVec, dotProduct_add, dotProduct_add]
    ring
  · intro i j
    rw [← vu, ← vu, ← eA]
    exact orth i j
  · intro u0 v0
    refine ⟨(Pᵀ * A) *ᵥ Sum.elim u0 v0, ?_⟩
    have k : Sum.elim u0 v0 = P *ᵥ ((Pᵀ * A) *ᵥ Sum.elim u0 v0) := by
      rw [mulVec_mulVec, hr, one_mulVec]
    generalize (Pᵀ * A) *ᵥ Sum.elim u0 v0 = c at k
    constructor
    · funext a
      have := congrFun k (Sum.inl a)
      simp only [Sum.elim_inl] at this
      rw [this, Finset.sum_apply]
      simp only [mulVec, dotProduct, Pi.smul_apply, smul_eq_mul, u, mul_comm]
    · simp only [← vu]
      funext a
      have := congrFun k (Sum.inr a)
      simp only [Sum.elim_inr] at this
      rw [this, Finset.sum_apply]
      simp only [mulVec, dotProduct, Pi.smul_apply, smul_eq_mul, v, mul_comm]

end RockPhy.Scat
