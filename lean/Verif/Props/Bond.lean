import Verif.Lemmas.Anisotropy

/-! # Property C38 (`Anisotropy.Bond_trans`) -/

namespace RockPhy.Anisotropy

open Fl Spec Matrix

theorem matmul6_map (A B : Matrix (Fin 6) (Fin 6) ℝ) :
    matmul6 (A.map fin) (B.map fin) = (A * B).map fin := by
  ext i j
  simp only [matmul6, Matrix.map_apply, Matrix.mul_apply, Fin.sum_univ_succ, Fin.sum_univ_zero,
    fl, fin_inj]
  simp only [Fin.succ_zero_eq_one, Fin.succ_one_eq_two]
  have e1 : Fin.succ (2 : Fin 5) = 3 := rfl
  have e2 : (Fin.succ (Fin.succ (2 : Fin 4))) = 4 := rfl
  have e3 : (Fin.succ (Fin.succ (Fin.succ (2 : Fin 3)))) = 5 := rfl
  rw [e1, e2, e3]
  ring

/-- The Bond matrix as the code assembles it, over the reals. -/
def rBond (b11 b12 b13 b21 b22 b23 b31 b32 b33 : ℝ) : Matrix (Fin 6) (Fin 6) ℝ :=
  !![b11 ^ 2, b12 ^ 2, b13 ^ 2, b12 * b13, b13 * b11, b11 * b12;
     b21 ^ 2, b22 ^ 2, b23 ^ 2, b22 * b23, b23 * b21, b21 * b22;
     b31 ^ 2, b32 ^ 2, b33 ^ 2, b32 * b33, b33 * b31, b31 * b32;
     b21 * b31, b22 * b32, b23 * b33,
      b22 * b33 + b23 * b32, b21 * b33 + b23 * b31, b22 * b31 + b21 * b32;
     b31 * b11, b32 * b12, b33 * b13,
      b12 * b33 + b13 * b32, b11 * b33 + b13 * b31, b11 * b32 + b12 * b31;
     b11 * b21, b12 * b22, b13 * b23,
      b22 * b13 + b12 * b23, b11 * b23 + b13 * b21, b22 * b11 + b12 * b21]

theorem bondMatrix_fin (b11 b12 b13 b21 b22 b23 b31 b32 b33 : ℝ) :
    bondMatrix (fin b11) (fin b12) (fin b13) (fin b21) (fin b22) (fin b23) (fin b31) (fin b32)
      (fin b33) = (rBond b11 b12 b13 b21 b22 b23 b31 b32 b33).map fin := by
  ext i j
  simp only [bondMatrix, fl]
  fin_cases i <;> fin_cases j <;> rfl

/-- Direction cosines about `x3`. -/
noncomputable def B3 (a : ℝ) : Matrix (Fin 6) (Fin 6) ℝ :=
  rBond (Real.cos a) (Real.sin a) 0 (-Real.sin a) (Real.cos a) 0 0 0 1

/-- Direction cosines about `x1`. -/
noncomputable def B1 (a : ℝ) : Matrix (Fin 6) (Fin 6) ℝ :=
  rBond 1 0 0 0 (Real.cos a) (-Real.sin a) 0 (Real.sin a) (Real.cos a)

theorem Bond_trans_eval3 (C : Matrix (Fin 6) (Fin 6) ℝ) {th a : ℝ}
    (ha : th * (Real.pi / 180) = a) :
    Bond_trans (C.map fin) (fin th) 3 = .ok ((B3 a * C * (B3 a)ᵀ).map fin) := by
  have h1 : Real.cos (Real.pi / 2 - a) = Real.sin a := Real.cos_pi_div_two_sub a
  have h2 : Real.cos (a + Real.pi / 2) = -Real.sin a := Real.cos_add_pi_div_two a
  unfold Bond_trans
  fl_eval [ha, h1, h2, bondMatrix_fin, if_true]
  rw [← Matrix.transpose_map, matmul6_map, matmul6_map]
  rfl

theorem Bond_trans_eval1 (C : Matrix (Fin 6) (Fin 6) ℝ) {th a : ℝ}
    (ha : th * (Real.pi / 180) = a) :
    Bond_trans (C.map fin) (fin th) 1 = .ok ((B1 a * C * (B1 a)ᵀ).map fin) := by
  have h1 : Real.cos (Real.pi / 2 - a) = Real.sin a := Real.cos_pi_div_two_sub a
  have h2 : Real.cos (a + Real.pi / 2) = -Real.sin a := Real.cos_add_pi_div_two a
  unfold Bond_trans
  rw [if_neg (by decide), if_pos rfl]
  fl_eval [ha, h1, h2, bondMatrix_fin]
  rw [← Matrix.transpose_map, matmul6_map, matmul6_map]
  rfl

theorem energy_conj (M C : Matrix (Fin 6) (Fin 6) ℝ) (e e' : Strain)
    (h : Mᵀ *ᵥ voigt e' = voigt e) : energy (M * C * Mᵀ) e' = energy C e := by
  have q : ∀ (A : Matrix (Fin 6) (Fin 6) ℝ) (x : Strain),
      energy A x = voigt x ⬝ᵥ (A *ᵥ voigt x) := by
    intro A x
    unfold energy
    simp only [dotProduct, Matrix.mulVec, Finset.mul_sum]
    simp only [mul_assoc]
  rw [q, q, ← h, ← Matrix.mulVec_mulVec, ← Matrix.mulVec_mulVec, Matrix.dotProduct_mulVec,
    ← Matrix.mulVec_transpose]

theorem eq_one_or_neg_one {c : ℝ} (h : c ^ 2 = 1) : c = 1 ∨ c = -1 := by
  have : (c - 1) * (c + 1) = 0 := by linear_combination h
  rcases mul_eq_zero.mp this with h | h
  · left; linarith
  · right; linarith

/-- `sin` and `cos` of a multiple of a quarter turn. -/
theorem quarter_cases {a : ℝ} (h : Real.sin (2 * a) = 0) :
    (Real.sin a = 0 ∧ (Real.cos a = 1 ∨ Real.cos a = -1)) ∨
    (Real.cos a = 0 ∧ (Real.sin a = 1 ∨ Real.sin a = -1)) := by
  have sc := Real.sin_sq_add_cos_sq a
  rw [Real.sin_two_mul] at h
  rcases mul_eq_zero.mp h with h | h
  · have h : Real.sin a = 0 := by simpa using h
    rw [h] at sc
    exact Or.inl ⟨h, eq_one_or_neg_one (by linarith)⟩
  · rw [h] at sc
    exact Or.inr ⟨h, eq_one_or_neg_one (by linarith)⟩

theorem B3_iso_zero (K a : ℝ) : B3 a * isoMatrix K 0 * (B3 a)ᵀ = isoMatrix K 0 := by
  have sc := Real.sin_sq_add_cos_sq a
  ext i j
  simp only [Matrix.mul_apply, Fin.sum_univ_succ, Fin.sum_univ_zero, Matrix.transpose_apply]
  fin_cases i <;> fin_cases j <;> simp [B3, rBond, isoMatrix, orthoMatrix] <;>
    first
      | ring1
      | linear_combination K * sc
      | linear_combination K * (Real.sin a ^ 2 + Real.cos a ^ 2 + 1) * sc

theorem B1_iso_zero (K a : ℝ) : B1 a * isoMatrix K 0 * (B1 a)ᵀ = isoMatrix K 0 := by
  have sc := Real.sin_sq_add_cos_sq a
  ext i j
  simp only [Matrix.mul_apply, Fin.sum_univ_succ, Fin.sum_univ_zero, Matrix.transpose_apply]
  fin_cases i <;> fin_cases j <;> simp [B1, rBond, isoMatrix, orthoMatrix] <;>
    first
      | ring1
      | linear_combination K * sc
      | linear_combination K * (Real.sin a ^ 2 + Real.cos a ^ 2 + 1) * sc

set_option maxHeartbeats 2000000 in
theorem B3_iso_quarter (K G : ℝ) {a : ℝ} (h : Real.sin (2 * a) = 0) :
    B3 a * isoMatrix K G * (B3 a)ᵀ = isoMatrix K G := by
  rcases quarter_cases h with ⟨hs, hc | hc⟩ | ⟨hc, hs | hs⟩ <;>
  · ext i j
    simp only [Matrix.mul_apply, Fin.sum_univ_succ, Fin.sum_univ_zero, Matrix.transpose_apply,
      B3, hs, hc]
    fin_cases i <;> fin_cases j <;> simp [rBond, isoMatrix, orthoMatrix]

set_option maxHeartbeats 2000000 in
theorem B1_iso_quarter (K G : ℝ) {a : ℝ} (h : Real.sin (2 * a) = 0) :
    B1 a * isoMatrix K G * (B1 a)ᵀ = isoMatrix K G := by
  rcases quarter_cases h with ⟨hs, hc | hc⟩ | ⟨hc, hs | hs⟩ <;>
  · ext i j
    simp only [Matrix.mul_apply, Fin.sum_univ_succ, Fin.sum_univ_zero, Matrix.transpose_apply,
      B1, hs, hc]
    fin_cases i <;> fin_cases j <;> simp [rBond, isoMatrix, orthoMatrix]

end RockPhy.Anisotropy

namespace RockPhy.Props

open Fl Spec Matrix Anisotropy

/-! ## C38: Bond transformation -/

/-- An axis other than 1 or 3 raises `UnboundLocalError`. -/
theorem C38_axis_error (C : Mat6 Fl) (th : Fl) (axis : Int) (h1 : axis ≠ 1) (h3 : axis ≠ 3) :
    Bond_trans C th axis = .error .UnboundLocalError := by
  unfold Bond_trans
  rw [if_neg h3, if_neg h1]
  rfl

/-- A symmetric stiffness stays symmetric, for every angle and both axes. -/
theorem C38_symmetric (C : Matrix (Fin 6) (Fin 6) ℝ) (hC : C.IsSymm) (th : ℝ) (axis : Int)
    (hax : axis = 1 ∨ axis = 3) :
    ∃ C' : Matrix (Fin 6) (Fin 6) ℝ,
      Bond_trans (C.map fin) (fin th) axis = .ok (C'.map fin) ∧ C'.IsSymm := by
  have sym : ∀ M : Matrix (Fin 6) (Fin 6) ℝ, (M * C * Mᵀ).IsSymm := fun M => by
    unfold Matrix.IsSymm
    rw [Matrix.transpose_mul, Matrix.transpose_mul, Matrix.transpose_transpose, hC.eq,
      Matrix.mul_assoc]
  rcases hax with rfl | rfl
  · exact ⟨_, Bond_trans_eval1 C rfl, sym _⟩
  · exact ⟨_, Bond_trans_eval3 C rfl, sym _⟩

/-- For multiples of a quarter turn the result is the stiffness in the rotated frame about
`x3`: it assigns to the rotated strain the energy `C` assigned to the original strain. -/
theorem C38_quarter_turn_axis3 (C : Matrix (Fin 6) (Fin 6) ℝ) (th : ℝ)
    (hq : Real.sin (2 * (th * (Real.pi / 180))) = 0) :
    ∃ C' : Matrix (Fin 6) (Fin 6) ℝ,
      Bond_trans (C.map fin) (fin th) 3 = .ok (C'.map fin) ∧
      ∀ e : Strain, e.IsSymm →
        energy C' ((rot3 (th * (Real.pi / 180)))ᵀ * e * rot3 (th * (Real.pi / 180))) = energy C e := by
  refine ⟨_, Bond_trans_eval3 C rfl, fun e he => ?_⟩
  apply energy_conj
  set a := th * (Real.pi / 180)
  obtain ⟨h01, h02, h12⟩ := symm_entries he
  rcases quarter_cases hq with ⟨hs, hc | hc⟩ | ⟨hc, hs | hs⟩ <;>
  · ext i
    simp only [B3, rot3, hs, hc, Matrix.mulVec, dotProduct, Fin.sum_univ_succ, Fin.sum_univ_zero,
      voigt, Matrix.mul_apply, Matrix.transpose_apply]
    fin_cases i <;> simp [rBond] <;> linarith

/-- The same about `x1`. -/
theorem C38_quarter_turn_axis1 (C : Matrix (Fin 6) (Fin 6) ℝ) (th : ℝ)
    (hq : Real.sin (2 * (th * (Real.pi / 180))) = 0) :
    ∃ C' : Matrix (Fin 6) (Fin 6) ℝ,
      Bond_trans (C.map fin) (fin th) 1 = .ok (C'.map fin) ∧
      ∀ e : Strain, e.IsSymm →
        energy C' (rot1 (th * (Real.pi / 180)) * e * (rot1 (th * (Real.pi / 180)))ᵀ) = energy C e := by
  refine ⟨_, Bond_trans_eval1 C rfl, fun e he => ?_⟩
  apply energy_conj
  set a := th * (Real.pi / 180)
  obtain ⟨h01, h02, h12⟩ := symm_entries he
  rcases quarter_cases hq with ⟨hs, hc | hc⟩ | ⟨hc, hs | hs⟩ <;>
  · ext i
    simp only [B1, rot1, hs, hc, Matrix.mulVec, dotProduct, Fin.sum_univ_succ, Fin.sum_univ_zero,
      voigt, Matrix.mul_apply, Matrix.transpose_apply]
    fin_cases i <;> simp [rBond] <;> linarith

/-- 90 degrees is such an angle. -/
example : Real.sin (2 * (90 * (Real.pi / 180))) = 0 := by
  rw [show 2 * (90 * (Real.pi / 180)) = Real.pi by ring, Real.sin_pi]

/-- At zero angle the transformation is the identity on every matrix. -/
theorem C38_zero_angle (C : Matrix (Fin 6) (Fin 6) ℝ) (axis : Int) (hax : axis = 1 ∨ axis = 3) :
    Bond_trans (C.map fin) (fin 0) axis = .ok (C.map fin) := by
  have h3 : B3 0 = 1 := by
    ext i j; fin_cases i <;> fin_cases j <;> simp [B3, rBond]
  have h1 : B1 0 = 1 := by
    ext i j; fin_cases i <;> fin_cases j <;> simp [B1, rBond]
  rcases hax with rfl | rfl
  · rw [Bond_trans_eval1 C (zero_mul _), h1]; simp
  · rw [Bond_trans_eval3 C (zero_mul _), h3]; simp

/-- The defect.  Rotating an isotropic stiffness should return it unchanged; the code does so
exactly when the angle is a multiple of a quarter turn or the shear modulus is zero.  For any
other angle the returned `C11` (axis 3) or `C22` (axis 1) is too small by
`3/4 G sin(2 theta)^2`. -/
theorem C38_isotropic_changes (K G th : ℝ) (axis : Int) (hax : axis = 1 ∨ axis = 3) :
    Bond_trans (utils.write_iso (fin K) (fin G)) (fin th) axis
        = .ok (utils.write_iso (fin K) (fin G))
      ↔ G = 0 ∨ Real.sin (2 * (th * (Real.pi / 180))) = 0 := by
  rw [utils.write_iso_eval]
  set a := th * (Real.pi / 180) with ha
  have sc := Real.sin_sq_add_cos_sq a
  have e00 : (B3 a * isoMatrix K G * (B3 a)ᵀ) 0 0
      = K + 4 * G / 3 - 3 / 4 * G * Real.sin (2 * a) ^ 2 := by
    simp only [Matrix.mul_apply, Fin.sum_univ_succ, Fin.sum_univ_zero, Matrix.transpose_apply]
    simp [B3, rBond, isoMatrix, orthoMatrix]
    rw [Real.sin_two_mul]
    have hc : Real.cos a ^ 2 = 1 - Real.sin a ^ 2 := by linarith
    linear_combination ((K + 4 * G / 3) * (Real.sin a ^ 2 + Real.cos a ^ 2 + 1)) * sc
  have e11 : (B1 a * isoMatrix K G * (B1 a)ᵀ) 1 1
      = K + 4 * G / 3 - 3 / 4 * G * Real.sin (2 * a) ^ 2 := by
    simp only [Matrix.mul_apply, Fin.sum_univ_succ, Fin.sum_univ_zero, Matrix.transpose_apply]
    simp [B1, rBond, isoMatrix, orthoMatrix]
    rw [Real.sin_two_mul]
    linear_combination ((K + 4 * G / 3) * (Real.sin a ^ 2 + Real.cos a ^ 2 + 1)) * sc
  constructor
  · intro h
    have key : 3 / 4 * G * Real.sin (2 * a) ^ 2 = 0 := by
      rcases hax with rfl | rfl
      · rw [Bond_trans_eval1 _ ha.symm] at h
        injection h with h
        have := congrFun (congrFun (map_fin_injective h) 1) 1
        rw [e11] at this
        have i11 : isoMatrix K G 1 1 = K + 4 * G / 3 := rfl
        rw [i11] at this; linarith
      · rw [Bond_trans_eval3 _ ha.symm] at h
        injection h with h
        have := congrFun (congrFun (map_fin_injective h) 0) 0
        rw [e00] at this
        have i00 : isoMatrix K G 0 0 = K + 4 * G / 3 := rfl
        rw [i00] at this; linarith
    rcases mul_eq_zero.mp key with h | h
    · left; linarith
    · right; exact pow_eq_zero_iff (two_ne_zero) |>.mp h
  · intro h
    have h3 : B3 a * isoMatrix K G * (B3 a)ᵀ = isoMatrix K G := by
      rcases h with rfl | h
      · exact B3_iso_zero K a
      · exact B3_iso_quarter K G h
    have h1 : B1 a * isoMatrix K G * (B1 a)ᵀ = isoMatrix K G := by
      rcases h with rfl | h
      · exact B1_iso_zero K a
      · exact B1_iso_quarter K G h
    rcases hax with rfl | rfl
    · rw [Bond_trans_eval1 _ ha.symm, h1]
    · rw [Bond_trans_eval3 _ ha.symm, h3]

/-- Witness of the violation: quartz-like stiffness rotated by 45 degrees about `x3`. -/
theorem C38_isotropic_violated :
    Bond_trans (utils.write_iso (fin 37) (fin 44)) (fin 45) 3
      ≠ .ok (utils.write_iso (fin 37) (fin 44)) := by
  rw [Ne, C38_isotropic_changes 37 44 45 3 (Or.inr rfl),
    show 2 * (45 * (Real.pi / 180)) = Real.pi / 2 by ring, Real.sin_pi_div_two]
  norm_num

end RockPhy.Props
