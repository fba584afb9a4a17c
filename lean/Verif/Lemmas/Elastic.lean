import Verif.Spec.Elastic
import Verif.Num
import Mathlib.LinearAlgebra.Matrix.NonsingularInverse

/-! Helper lemmas for the elasticity specification. -/

namespace RockPhy.Spec

open Matrix

theorem energy_expand (C : Matrix (Fin 6) (Fin 6) ℝ) (e : Strain) :
    energy C e =
      e 0 0 * C 0 0 * e 0 0 + e 0 0 * C 0 1 * e 1 1 + e 0 0 * C 0 2 * e 2 2
      + e 0 0 * C 0 3 * (2 * e 1 2) + e 0 0 * C 0 4 * (2 * e 0 2) + e 0 0 * C 0 5 * (2 * e 0 1)
      + (e 1 1 * C 1 0 * e 0 0 + e 1 1 * C 1 1 * e 1 1 + e 1 1 * C 1 2 * e 2 2
      + e 1 1 * C 1 3 * (2 * e 1 2) + e 1 1 * C 1 4 * (2 * e 0 2) + e 1 1 * C 1 5 * (2 * e 0 1))
      + (e 2 2 * C 2 0 * e 0 0 + e 2 2 * C 2 1 * e 1 1 + e 2 2 * C 2 2 * e 2 2
      + e 2 2 * C 2 3 * (2 * e 1 2) + e 2 2 * C 2 4 * (2 * e 0 2) + e 2 2 * C 2 5 * (2 * e 0 1))
      + (2 * e 1 2 * C 3 0 * e 0 0 + 2 * e 1 2 * C 3 1 * e 1 1 + 2 * e 1 2 * C 3 2 * e 2 2
      + 2 * e 1 2 * C 3 3 * (2 * e 1 2) + 2 * e 1 2 * C 3 4 * (2 * e 0 2)
      + 2 * e 1 2 * C 3 5 * (2 * e 0 1))
      + (2 * e 0 2 * C 4 0 * e 0 0 + 2 * e 0 2 * C 4 1 * e 1 1 + 2 * e 0 2 * C 4 2 * e 2 2
      + 2 * e 0 2 * C 4 3 * (2 * e 1 2) + 2 * e 0 2 * C 4 4 * (2 * e 0 2)
      + 2 * e 0 2 * C 4 5 * (2 * e 0 1))
      + (2 * e 0 1 * C 5 0 * e 0 0 + 2 * e 0 1 * C 5 1 * e 1 1 + 2 * e 0 1 * C 5 2 * e 2 2
      + 2 * e 0 1 * C 5 3 * (2 * e 1 2) + 2 * e 0 1 * C 5 4 * (2 * e 0 2)
      + 2 * e 0 1 * C 5 5 * (2 * e 0 1)) := by
  simp only [energy, voigt, Fin.sum_univ_succ, Fin.sum_univ_zero]
  simp [Matrix.cons_val_zero, Matrix.cons_val_one, Fin.succ]
  ring

end RockPhy.Spec

namespace RockPhy.Spec

open Matrix

theorem energy_ortho (C11 C22 C33 C12 C13 C23 C44 C55 C66 : ℝ) (e : Strain) :
    energy (orthoMatrix C11 C22 C33 C12 C13 C23 C44 C55 C66) e =
      C11 * e 0 0 ^ 2 + C22 * e 1 1 ^ 2 + C33 * e 2 2 ^ 2
      + 2 * C12 * e 0 0 * e 1 1 + 2 * C13 * e 0 0 * e 2 2 + 2 * C23 * e 1 1 * e 2 2
      + 4 * C44 * e 1 2 ^ 2 + 4 * C55 * e 0 2 ^ 2 + 4 * C66 * e 0 1 ^ 2 := by
  rw [energy_expand]
  simp [orthoMatrix]
  ring

theorem symm_entries {e : Strain} (h : e.IsSymm) :
    e 1 0 = e 0 1 ∧ e 2 0 = e 0 2 ∧ e 2 1 = e 1 2 :=
  ⟨h.apply 0 1, h.apply 0 2, h.apply 1 2⟩

theorem rot3_conj (t : ℝ) (e : Strain) (h : e.IsSymm) :
    let c := Real.cos t
    let s := Real.sin t
    let r := rot3 t * e * (rot3 t)ᵀ
    r 0 0 = c ^ 2 * e 0 0 - 2 * c * s * e 0 1 + s ^ 2 * e 1 1 ∧
    r 1 1 = s ^ 2 * e 0 0 + 2 * c * s * e 0 1 + c ^ 2 * e 1 1 ∧
    r 2 2 = e 2 2 ∧
    r 1 2 = s * e 0 2 + c * e 1 2 ∧
    r 0 2 = c * e 0 2 - s * e 1 2 ∧
    r 0 1 = c * s * e 0 0 + (c ^ 2 - s ^ 2) * e 0 1 - c * s * e 1 1 := by
  obtain ⟨h1, h2, h3⟩ := symm_entries h
  intro c s r
  refine ⟨?_, ?_, ?_, ?_, ?_, ?_⟩ <;>
  · simp only [r, c, s, Matrix.mul_apply, Fin.sum_univ_three, Matrix.transpose_apply, h1, h2, h3]
    simp [rot3]
    try ring

theorem rot1_conj (t : ℝ) (e : Strain) (h : e.IsSymm) :
    let c := Real.cos t
    let s := Real.sin t
    let r := rot1 t * e * (rot1 t)ᵀ
    r 0 0 = e 0 0 ∧
    r 1 1 = c ^ 2 * e 1 1 - 2 * c * s * e 1 2 + s ^ 2 * e 2 2 ∧
    r 2 2 = s ^ 2 * e 1 1 + 2 * c * s * e 1 2 + c ^ 2 * e 2 2 ∧
    r 1 2 = c * s * e 1 1 + (c ^ 2 - s ^ 2) * e 1 2 - c * s * e 2 2 ∧
    r 0 2 = s * e 0 1 + c * e 0 2 ∧
    r 0 1 = c * e 0 1 - s * e 0 2 := by
  obtain ⟨h1, h2, h3⟩ := symm_entries h
  intro c s r
  refine ⟨?_, ?_, ?_, ?_, ?_, ?_⟩ <;>
  · simp only [r, c, s, Matrix.mul_apply, Fin.sum_univ_three, Matrix.transpose_apply, h1, h2, h3]
    simp [rot1]
    try ring

theorem isVTI_vtiMatrix (C11 C33 C13 C44 C66 : ℝ) : IsVTI (vtiMatrix C11 C33 C13 C44 C66) := by
  intro t e he
  obtain ⟨h1, h2, h3, h4, h5, h6⟩ := rot3_conj t e he
  have hcs : Real.sin t ^ 2 = 1 - Real.cos t ^ 2 := by
    linear_combination Real.sin_sq_add_cos_sq t
  simp only [vtiMatrix, energy_ortho, h1, h2, h3, h4, h5, h6]
  generalize Real.cos t = c at *
  generalize Real.sin t = s at *
  have h4' : s ^ 4 = (1 - c ^ 2) ^ 2 := by rw [← hcs]; ring
  ring_nf
  simp only [hcs, h4']
  ring

theorem stressEnergy_ortho (C11 C22 C33 C12 C13 C23 C44 C55 C66 : ℝ)
    (s : Matrix (Fin 3) (Fin 3) ℝ) :
    stressEnergy (orthoMatrix C11 C22 C33 C12 C13 C23 C44 C55 C66) s =
      C11 * s 0 0 ^ 2 + C22 * s 1 1 ^ 2 + C33 * s 2 2 ^ 2
      + 2 * C12 * s 0 0 * s 1 1 + 2 * C13 * s 0 0 * s 2 2 + 2 * C23 * s 1 1 * s 2 2
      + C44 * s 1 2 ^ 2 + C55 * s 0 2 ^ 2 + C66 * s 0 1 ^ 2 := by
  simp [stressEnergy, Fin.sum_univ_succ, orthoMatrix, voigtStress]
  ring

theorem isVTICompliance_ortho (S11 S12 S13 S33 S44 : ℝ) :
    IsVTICompliance (orthoMatrix S11 S11 S33 S12 S13 S13 S44 S44 (2 * (S11 - S12))) := by
  intro t e he
  obtain ⟨h1, h2, h3, h4, h5, h6⟩ := rot3_conj t e he
  have hcs : Real.sin t ^ 2 = 1 - Real.cos t ^ 2 := by
    linear_combination Real.sin_sq_add_cos_sq t
  simp only [stressEnergy_ortho, h1, h2, h3, h4, h5, h6]
  generalize Real.cos t = c at *
  generalize Real.sin t = s at *
  have h4' : s ^ 4 = (1 - c ^ 2) ^ 2 := by rw [← hcs]; ring
  ring_nf
  simp only [hcs, h4']
  ring

theorem isHTI_htiMatrix (C11 C33 C13 C44 C55 : ℝ) : IsHTI (htiMatrix C11 C33 C13 C44 C55) := by
  intro t e he
  obtain ⟨h1, h2, h3, h4, h5, h6⟩ := rot1_conj t e he
  have hcs : Real.sin t ^ 2 = 1 - Real.cos t ^ 2 := by
    linear_combination Real.sin_sq_add_cos_sq t
  simp only [htiMatrix, energy_ortho, h1, h2, h3, h4, h5, h6]
  generalize Real.cos t = c at *
  generalize Real.sin t = s at *
  have h4' : s ^ 4 = (1 - c ^ 2) ^ 2 := by rw [← hcs]; ring
  ring_nf
  simp only [hcs, h4']
  ring

theorem hasModuli_isoMatrix (K G : ℝ) : HasModuli (isoMatrix K G) K G := by
  intro e he
  obtain ⟨h1, h2, h3⟩ := symm_entries he
  rw [isoMatrix, energy_ortho]
  simp [Matrix.trace, Matrix.diag, Matrix.mul_apply, Fin.sum_univ_three, h1, h2, h3]
  ring

theorem HasModuli.isIsotropic {C : Matrix (Fin 6) (Fin 6) ℝ} {K G : ℝ} (h : HasModuli C K G) :
    IsIsotropic C := by
  intro R e hR he
  have hR' : Rᵀ * R = 1 := mul_eq_one_comm.mp hR
  have hs : (R * e * Rᵀ).IsSymm := by
    unfold Matrix.IsSymm
    rw [Matrix.transpose_mul, Matrix.transpose_mul, Matrix.transpose_transpose, he.eq,
      Matrix.mul_assoc]
  rw [h _ hs, h _ he]
  have t1 : Matrix.trace (R * e * Rᵀ) = Matrix.trace e := by
    rw [Matrix.trace_mul_comm, ← Matrix.mul_assoc, hR', Matrix.one_mul]
  have t2 : Matrix.trace (R * e * Rᵀ * (R * e * Rᵀ)) = Matrix.trace (e * e) := by
    have : R * e * Rᵀ * (R * e * Rᵀ) = R * (e * e) * Rᵀ := by
      calc R * e * Rᵀ * (R * e * Rᵀ) = R * e * (Rᵀ * R) * e * Rᵀ := by
            simp only [Matrix.mul_assoc]
        _ = R * (e * e) * Rᵀ := by rw [hR', Matrix.mul_one]; simp only [Matrix.mul_assoc]
    rw [this, Matrix.trace_mul_comm, ← Matrix.mul_assoc, hR', Matrix.one_mul]
  rw [t1, t2]

theorem isOrtho_orthoMatrix (C11 C22 C33 C12 C13 C23 C44 C55 C66 : ℝ) :
    IsOrtho (orthoMatrix C11 C22 C33 C12 C13 C23 C44 C55 C66) := by
  intro d e hd he
  have h : ∀ i, d i ^ 2 = 1 := fun i => by rcases hd i with h | h <;> rw [h] <;> norm_num
  have h0 := h 0
  have h1 := h 1
  have h2 := h 2
  rw [energy_ortho, energy_ortho]
  simp only [Matrix.mul_diagonal, Matrix.diagonal_mul]
  have e00 : d 0 * e 0 0 * d 0 = e 0 0 := by linear_combination e 0 0 * h0
  have e11 : d 1 * e 1 1 * d 1 = e 1 1 := by linear_combination e 1 1 * h1
  have e22 : d 2 * e 2 2 * d 2 = e 2 2 := by linear_combination e 2 2 * h2
  have e12 : (d 1 * e 1 2 * d 2) ^ 2 = e 1 2 ^ 2 := by
    linear_combination e 1 2 ^ 2 * d 2 ^ 2 * h1 + e 1 2 ^ 2 * h2
  have e02 : (d 0 * e 0 2 * d 2) ^ 2 = e 0 2 ^ 2 := by
    linear_combination e 0 2 ^ 2 * d 2 ^ 2 * h0 + e 0 2 ^ 2 * h2
  have e01 : (d 0 * e 0 1 * d 1) ^ 2 = e 0 1 ^ 2 := by
    linear_combination e 0 1 ^ 2 * d 1 ^ 2 * h0 + e 0 1 ^ 2 * h1
  rw [e00, e11, e22, e12, e02, e01]

theorem isSymm_orthoMatrix (C11 C22 C33 C12 C13 C23 C44 C55 C66 : ℝ) :
    (orthoMatrix C11 C22 C33 C12 C13 C23 C44 C55 C66).IsSymm := by
  apply Matrix.IsSymm.ext
  intro i j
  fin_cases i <;> fin_cases j <;> rfl

theorem sum3_sq_eq_zero {a b c : ℝ} (h : a ^ 2 + b ^ 2 + c ^ 2 = 0) : a = 0 ∧ b = 0 ∧ c = 0 := by
  refine ⟨?_, ?_, ?_⟩ <;> nlinarith [sq_nonneg a, sq_nonneg b, sq_nonneg c]

theorem strain_eq_zero {e : Strain} (he : e.IsSymm) (h0 : e 0 0 = 0) (h1 : e 1 1 = 0)
    (h2 : e 2 2 = 0) (h12 : e 1 2 = 0) (h02 : e 0 2 = 0) (h01 : e 0 1 = 0) : e = 0 := by
  obtain ⟨k1, k2, k3⟩ := symm_entries he
  ext i j
  fin_cases i <;> fin_cases j <;> simp [h0, h1, h2, h12, h02, h01, k1, k2, k3]

/-- Symmetric strain with the given entries. -/
def mkStrain (a b c d f g : ℝ) : Strain := !![a, g, f; g, b, d; f, d, c]

theorem mkStrain_symm (a b c d f g : ℝ) : (mkStrain a b c d f g).IsSymm := by
  apply Matrix.IsSymm.ext; intro i j; fin_cases i <;> fin_cases j <;> rfl

theorem energy_ortho_mk (C11 C22 C33 C12 C13 C23 C44 C55 C66 a b c d f g : ℝ) :
    energy (orthoMatrix C11 C22 C33 C12 C13 C23 C44 C55 C66) (mkStrain a b c d f g) =
      C11 * a ^ 2 + C22 * b ^ 2 + C33 * c ^ 2 + 2 * C12 * a * b + 2 * C13 * a * c + 2 * C23 * b * c
      + 4 * C44 * d ^ 2 + 4 * C55 * f ^ 2 + 4 * C66 * g ^ 2 := by
  rw [energy_ortho]; rfl

theorem mkStrain_ne_zero {a b c d f g : ℝ}
    (h : a ≠ 0 ∨ b ≠ 0 ∨ c ≠ 0 ∨ d ≠ 0 ∨ f ≠ 0 ∨ g ≠ 0) : mkStrain a b c d f g ≠ 0 := by
  intro h0
  have e : ∀ i j, mkStrain a b c d f g i j = 0 := fun i j => by rw [h0]; rfl
  have e1 := e 0 0
  have e2 := e 1 1
  have e3 := e 2 2
  have e4 := e 1 2
  have e5 := e 0 2
  have e6 := e 0 1
  simp only [mkStrain] at e1 e2 e3 e4 e5 e6
  rcases h with h | h | h | h | h | h
  exacts [h e1, h e2, h e3, h e4, h e5, h e6]

theorem isStable_vtiMatrix_iff (C11 C33 C13 C44 C66 : ℝ) :
    IsStable (vtiMatrix C11 C33 C13 C44 C66) ↔
      0 < C44 ∧ 0 < C66 ∧ 0 < C33 ∧ C13 ^ 2 < C33 * (C11 - C66) := by
  constructor
  · intro h
    have p44 := h _ (mkStrain_symm 0 0 0 1 0 0) (mkStrain_ne_zero (by simp))
    have p66 := h _ (mkStrain_symm 0 0 0 0 0 1) (mkStrain_ne_zero (by simp))
    have p33 := h _ (mkStrain_symm 0 0 1 0 0 0) (mkStrain_ne_zero (by simp))
    rw [vtiMatrix, energy_ortho_mk] at p44 p66 p33
    have h33 : 0 < C33 := by linarith
    have p := h _ (mkStrain_symm C33 C33 (-2 * C13) 0 0 0)
      (mkStrain_ne_zero (Or.inl h33.ne'))
    rw [vtiMatrix, energy_ortho_mk] at p
    refine ⟨by linarith, by linarith, h33, ?_⟩
    have : 0 < 4 * C33 * (C33 * (C11 - C66) - C13 ^ 2) := by
      convert p using 1; ring
    have := (pos_iff_pos_of_mul_pos this).mp (by positivity : (0:ℝ) < 4 * C33)
    linarith
  · rintro ⟨h44, h66, h33, h13⟩ e he hne
    have hE : C33 * energy (vtiMatrix C11 C33 C13 C44 C66) e
        = (C33 * (C11 - C66) - C13 ^ 2) * (e 0 0 + e 1 1) ^ 2
          + (C33 * e 2 2 + C13 * (e 0 0 + e 1 1)) ^ 2
          + C33 * C66 * (e 0 0 - e 1 1) ^ 2
          + 4 * C33 * C44 * (e 1 2 ^ 2 + e 0 2 ^ 2) + 4 * C33 * C66 * e 0 1 ^ 2 := by
      rw [vtiMatrix, energy_ortho]; ring
    have hd : 0 < C33 * (C11 - C66) - C13 ^ 2 := by linarith
    have q1 : 0 ≤ (C33 * (C11 - C66) - C13 ^ 2) * (e 0 0 + e 1 1) ^ 2 := by positivity
    have q2 : 0 ≤ (C33 * e 2 2 + C13 * (e 0 0 + e 1 1)) ^ 2 := by positivity
    have q3 : 0 ≤ C33 * C66 * (e 0 0 - e 1 1) ^ 2 := by positivity
    have q4 : 0 ≤ 4 * C33 * C44 * (e 1 2 ^ 2 + e 0 2 ^ 2) := by positivity
    have q5 : 0 ≤ 4 * C33 * C66 * e 0 1 ^ 2 := by positivity
    by_contra hn
    have hle : C33 * energy (vtiMatrix C11 C33 C13 C44 C66) e ≤ 0 :=
      mul_nonpos_of_nonneg_of_nonpos h33.le (not_lt.mp hn)
    rw [hE] at hle
    have z1 : e 0 0 + e 1 1 = 0 := by
      have : (C33 * (C11 - C66) - C13 ^ 2) * (e 0 0 + e 1 1) ^ 2 = 0 := by linarith
      exact pow_eq_zero_iff two_ne_zero |>.mp ((mul_eq_zero.mp this).resolve_left hd.ne')
    have z3 : e 0 0 - e 1 1 = 0 := by
      have : C33 * C66 * (e 0 0 - e 1 1) ^ 2 = 0 := by linarith
      exact pow_eq_zero_iff two_ne_zero |>.mp ((mul_eq_zero.mp this).resolve_left (by positivity))
    have z2 : C33 * e 2 2 = 0 := by
      have : (C33 * e 2 2 + C13 * (e 0 0 + e 1 1)) ^ 2 = 0 := by linarith
      have := pow_eq_zero_iff two_ne_zero |>.mp this
      rw [z1] at this; linarith
    have z4 : e 1 2 ^ 2 + e 0 2 ^ 2 + 0 ^ 2 = 0 := by
      have : 4 * C33 * C44 * (e 1 2 ^ 2 + e 0 2 ^ 2) = 0 := by linarith
      have := (mul_eq_zero.mp this).resolve_left (by positivity)
      linarith
    have z5 : e 0 1 = 0 := by
      have : 4 * C33 * C66 * e 0 1 ^ 2 = 0 := by linarith
      exact pow_eq_zero_iff two_ne_zero |>.mp ((mul_eq_zero.mp this).resolve_left (by positivity))
    obtain ⟨z6, z7, -⟩ := sum3_sq_eq_zero z4
    exact hne (strain_eq_zero he (by linarith) (by linarith)
      ((mul_eq_zero.mp z2).resolve_left h33.ne') z6 z7 z5)

theorem isoMatrix_eq_vtiMatrix (K G : ℝ) :
    isoMatrix K G = vtiMatrix (K + 4 * G / 3) (K + 4 * G / 3) (K - 2 * G / 3) G G := by
  have h : K + 4 * G / 3 - 2 * G = K - 2 * G / 3 := by ring
  rw [isoMatrix, vtiMatrix, h]

theorem isStable_isoMatrix_iff (K G : ℝ) : IsStable (isoMatrix K G) ↔ 0 < K ∧ 0 < G := by
  rw [isoMatrix_eq_vtiMatrix, isStable_vtiMatrix_iff]
  have e : (K + 4 * G / 3) * (K + 4 * G / 3 - G) - (K - 2 * G / 3) ^ 2 = 3 * G * K := by ring
  constructor
  · rintro ⟨h1, -, h3, h4⟩
    refine ⟨?_, h1⟩
    have : 0 < 3 * G * K := by linarith
    exact (pos_iff_pos_of_mul_pos this).mp (by positivity : (0:ℝ) < 3 * G)
  · rintro ⟨hK, hG⟩
    have : 0 < 3 * G * K := by positivity
    exact ⟨hG, hG, by positivity, by linarith⟩

/-- Exchanging the axes 1 and 3 turns the HTI energy into a VTI one. -/
theorem energy_hti_swap (C11 C33 C13 C44 C55 : ℝ) (e : Strain) (he : e.IsSymm) :
    energy (htiMatrix C11 C33 C13 C44 C55) e
      = energy (vtiMatrix C33 C11 C13 C55 C44) (e.submatrix (Equiv.swap 0 2) (Equiv.swap 0 2)) := by
  obtain ⟨h1, h2, h3⟩ := symm_entries he
  rw [htiMatrix, vtiMatrix, energy_ortho, energy_ortho]
  have s0 : Equiv.swap (0 : Fin 3) 2 0 = 2 := by decide
  have s1 : Equiv.swap (0 : Fin 3) 2 1 = 1 := by decide
  have s2 : Equiv.swap (0 : Fin 3) 2 2 = 0 := by decide
  simp only [Matrix.submatrix_apply, s0, s1, s2, h1, h2, h3]
  ring

theorem isStable_htiMatrix_iff (C11 C33 C13 C44 C55 : ℝ) :
    IsStable (htiMatrix C11 C33 C13 C44 C55) ↔
      0 < C55 ∧ 0 < C44 ∧ 0 < C11 ∧ C13 ^ 2 < C11 * (C33 - C44) := by
  rw [← isStable_vtiMatrix_iff]
  have inv : ∀ e : Strain, (e.submatrix (Equiv.swap (0 : Fin 3) 2) (Equiv.swap (0 : Fin 3) 2)).submatrix
      (Equiv.swap (0 : Fin 3) 2) (Equiv.swap (0 : Fin 3) 2) = e := by
    intro e; ext i j; simp
  have symm : ∀ e : Strain, e.IsSymm →
      (e.submatrix (Equiv.swap (0 : Fin 3) 2) (Equiv.swap (0 : Fin 3) 2)).IsSymm :=
    fun e he => he.submatrix _
  have ne : ∀ e : Strain, e ≠ 0 →
      e.submatrix (Equiv.swap (0 : Fin 3) 2) (Equiv.swap (0 : Fin 3) 2) ≠ 0 := by
    intro e h0 h1
    apply h0
    rw [← inv e, h1]
    rfl
  constructor
  · intro h e he h0
    have := h _ (symm e he) (ne e h0)
    rwa [energy_hti_swap _ _ _ _ _ _ (symm e he), inv] at this
  · intro h e he h0
    rw [energy_hti_swap _ _ _ _ _ _ he]
    exact h _ (symm e he) (ne e h0)

end RockPhy.Spec
