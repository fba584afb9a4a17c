import Verif.Lemmas.Utils

/-! # Properties C01, C02, C03 (`rockphypy/utils.py`) -/

namespace RockPhy.Props

open Fl Spec Matrix

/-! ## C01: velocity / modulus round trip -/

/-- `M_from_V(rho, *V(K, G, rho)) = (K, G)`. -/
theorem C01_moduli_roundtrip (K G rho : ℝ) (hrho : 0 < rho) (hG : 0 ≤ G)
    (hM : 0 ≤ K + 4 / 3 * G) :
    utils.M_from_V (fin rho) (utils.V (fin K) (fin G) (fin rho)).1
      (utils.V (fin K) (fin G) (fin rho)).2 = (fin K, fin G) := by
  rw [utils.V_eval hrho hG hM, utils.M_from_V_eval]
  have h1 : 0 ≤ (K + 4 / 3 * G) / rho := div_nonneg hM hrho.le
  have h2 : 0 ≤ G / rho := div_nonneg hG hrho.le
  have hr : rho ≠ 0 := hrho.ne'
  simp only [mul_pow, Real.sq_sqrt h1, Real.sq_sqrt h2]
  refine Prod.ext (fin_inj.mpr ?_) (fin_inj.mpr ?_)
  · norm_num; field
  · norm_num; field

example : (0 : ℝ) < 2.65 ∧ (0 : ℝ) ≤ 44 ∧ (0 : ℝ) ≤ 37 + 4 / 3 * 44 := by norm_num

/-- `V(*M_from_V(rho, vp, vs), rho) = (vp, vs)`. -/
theorem C01_velocity_roundtrip (rho vp vs : ℝ) (hrho : 0 < rho) (hvp : 0 ≤ vp) (hvs : 0 ≤ vs) :
    utils.V (utils.M_from_V (fin rho) (fin vp) (fin vs)).1
      (utils.M_from_V (fin rho) (fin vp) (fin vs)).2 (fin rho) = (fin vp, fin vs) := by
  have e1 : rho * 1000 * (vp ^ 2 - 4 * vs ^ 2 / 3) / 10 ^ 9
      + 4 / 3 * (rho * 1000 * vs ^ 2 / 10 ^ 9) = rho * vp ^ 2 / 10 ^ 6 := by ring
  rw [utils.M_from_V_eval, utils.V_eval hrho (by positivity) (by rw [e1]; positivity), e1]
  have e2 : rho * vp ^ 2 / 10 ^ 6 / rho = (vp / 10 ^ 3) ^ 2 := by field_simp
  have e3 : rho * 1000 * vs ^ 2 / 10 ^ 9 / rho = (vs / 10 ^ 3) ^ 2 := by field
  rw [e2, e3, Real.sqrt_sq (by positivity), Real.sqrt_sq (by positivity)]
  refine Prod.ext (fin_inj.mpr ?_) (fin_inj.mpr ?_) <;> norm_num

example : (0 : ℝ) < 2.65 ∧ (0 : ℝ) ≤ 6000 ∧ (0 : ℝ) ≤ 4000 := by norm_num

/-- A negative shear modulus (with positive density) has no real velocity: the square root
leaves the reals. -/
theorem C01_negative_shear_undefined (K G rho : ℝ) (hrho : 0 < rho) (hG : G < 0) :
    (utils.V (fin K) (fin G) (fin rho)).2 = bad := by
  have h : G / rho < 0 := div_neg_of_neg_of_pos hG hrho
  simp (disch := first | assumption | positivity) only [utils.V, fl, fl_sqrt_neg h]

/-! ## C02: Poisson's ratio and Lamé's parameter -/

/-- `poi(K, G)` lies strictly between -1 and 1/2. -/
theorem C02_poisson_bounds (K G : ℝ) (hK : 0 < K) (hG : 0 < G) :
    fin (-1) < utils.poi (fin K) (fin G) ∧ utils.poi (fin K) (fin G) < fin (1 / 2) := by
  rw [utils.poi_eval (by positivity), fin_lt, fin_lt]
  constructor
  · rw [lt_div_iff₀ (by positivity)]; linarith
  · rw [div_lt_iff₀ (by positivity)]; linarith

/-- `poi` only depends on the ratio of the two moduli. -/
theorem C02_poisson_scale (K G c : ℝ) (hK : 0 < K) (hG : 0 < G) (hc : 0 < c) :
    utils.poi (fin (c * K)) (fin (c * G)) = utils.poi (fin K) (fin G) := by
  rw [utils.poi_eval (by positivity), utils.poi_eval (by positivity), fin_inj]
  field_simp

/-- `lame = 2 G nu / (1 - 2 nu)` with `nu = poi(K, G)`. -/
theorem C02_lame_from_poisson (K G : ℝ) (hK : 0 < K) (hG : 0 < G) :
    ∃ nu : ℝ, utils.poi (fin K) (fin G) = fin nu ∧ 1 - 2 * nu ≠ 0 ∧
      utils.lame (fin K) (fin G) = fin (2 * G * nu / (1 - 2 * nu)) := by
  have hd : 6 * K + 2 * G ≠ 0 := by positivity
  have h1 : 1 - 2 * ((3 * K - 2 * G) / (6 * K + 2 * G)) = 6 * G / (6 * K + 2 * G) := by
    field_simp; ring
  have h2 : 6 * G / (6 * K + 2 * G) ≠ 0 := by positivity
  refine ⟨_, utils.poi_eval hd, ?_, ?_⟩
  · rw [h1]; exact h2
  · rw [utils.lame_eval, fin_inj, h1]; field

/-- Poisson's ratio from the moduli equals Poisson's ratio from the velocities of `V`:
`nu = (vp^2 - 2 vs^2) / (2 (vp^2 - vs^2))`. -/
theorem C02_poisson_from_velocity (K G rho : ℝ) (hK : 0 < K) (hG : 0 < G) (hr : 0 < rho) :
    ∃ vp vs : ℝ, utils.V (fin K) (fin G) (fin rho) = (fin vp, fin vs) ∧ vs < vp ∧
      utils.poi (fin K) (fin G) = fin ((vp ^ 2 - 2 * vs ^ 2) / (2 * (vp ^ 2 - vs ^ 2))) := by
  refine ⟨_, _, utils.V_eval hr hG.le (by positivity), ?_, ?_⟩
  · have : G / rho < (K + 4 / 3 * G) / rho := by
      apply div_lt_div_of_pos_right _ hr; linarith
    have := Real.sqrt_lt_sqrt (by positivity) this
    apply mul_lt_mul_of_pos_right this; norm_num
  · rw [utils.poi_eval (by positivity), fin_inj, mul_pow, mul_pow,
      Real.sq_sqrt (by positivity), Real.sq_sqrt (by positivity)]
    have : (0 : ℝ) < K + 4 / 3 * G - G := by linarith
    have h2 : (K + 4 / 3 * G) / rho * 1e3 ^ 2 - G / rho * 1e3 ^ 2
        = (K + 4 / 3 * G - G) / rho * 1e3 ^ 2 := by ring
    rw [h2]
    have h3 : K + 4 / 3 * G - G = (3 * K + G) / 3 := by ring
    rw [h3]
    field

example : (0 : ℝ) < 37 ∧ (0 : ℝ) < 44 ∧ (0 : ℝ) < 2.65 := by norm_num

/-! ## C03: stiffness matrices have the declared symmetry -/

/-- `write_VTI_matrix` returns a finite symmetric matrix whose energy is invariant under all
rotations about `x3`, with the five constants where they belong. -/
theorem C03_write_VTI (C11 C33 C13 C44 C66 : ℝ) :
    ∃ C : Matrix (Fin 6) (Fin 6) ℝ,
      utils.write_VTI_matrix (fin C11) (fin C33) (fin C13) (fin C44) (fin C66) = C.map fin ∧
      C.IsSymm ∧ IsVTI C ∧
      C 0 0 = C11 ∧ C 2 2 = C33 ∧ C 0 2 = C13 ∧ C 3 3 = C44 ∧ C 5 5 = C66 :=
  ⟨_, utils.write_VTI_matrix_eval .., isSymm_orthoMatrix .., isVTI_vtiMatrix _ _ _ _ _, rfl, rfl, rfl,
    rfl, rfl⟩

/-- `write_HTI_matrix` returns a finite symmetric matrix whose energy is invariant under all
rotations about `x1`. -/
theorem C03_write_HTI (C11 C33 C13 C44 C55 : ℝ) :
    ∃ C : Matrix (Fin 6) (Fin 6) ℝ,
      utils.write_HTI_matrix (fin C11) (fin C33) (fin C13) (fin C44) (fin C55) = C.map fin ∧
      C.IsSymm ∧ IsHTI C ∧
      C 0 0 = C11 ∧ C 2 2 = C33 ∧ C 0 2 = C13 ∧ C 3 3 = C44 ∧ C 4 4 = C55 :=
  ⟨_, utils.write_HTI_matrix_eval .., isSymm_orthoMatrix .., isHTI_htiMatrix _ _ _ _ _, rfl, rfl, rfl,
    rfl, rfl⟩

/-- `write_matrix` returns a finite symmetric orthorhombic matrix. -/
theorem C03_write_matrix (C11 C22 C33 C12 C13 C23 C44 C55 C66 : ℝ) :
    ∃ C : Matrix (Fin 6) (Fin 6) ℝ,
      utils.write_matrix (fin C11) (fin C22) (fin C33) (fin C12) (fin C13) (fin C23) (fin C44)
        (fin C55) (fin C66) = C.map fin ∧
      C.IsSymm ∧ IsOrtho C ∧
      C 0 0 = C11 ∧ C 1 1 = C22 ∧ C 2 2 = C33 ∧ C 0 1 = C12 ∧ C 0 2 = C13 ∧ C 1 2 = C23 ∧
      C 3 3 = C44 ∧ C 4 4 = C55 ∧ C 5 5 = C66 :=
  ⟨_, utils.write_matrix_eval .., isSymm_orthoMatrix .., isOrtho_orthoMatrix _ _ _ _ _ _ _ _ _, rfl, rfl, rfl,
    rfl, rfl, rfl, rfl, rfl, rfl⟩

/-- `write_iso(K, G)` is the isotropic stiffness with bulk modulus `K` and shear modulus `G`. -/
theorem C03_write_iso (K G : ℝ) :
    ∃ C : Matrix (Fin 6) (Fin 6) ℝ,
      utils.write_iso (fin K) (fin G) = C.map fin ∧ C.IsSymm ∧ HasModuli C K G ∧ IsIsotropic C :=
  ⟨_, utils.write_iso_eval .., isSymm_orthoMatrix .., hasModuli_isoMatrix _ _,
    (hasModuli_isoMatrix _ _).isIsotropic⟩

/-- The isotropic matrix is the VTI and the HTI matrix with the isotropic constants. -/
theorem C03_iso_is_VTI_and_HTI (K G : ℝ) :
    utils.write_iso (fin K) (fin G)
      = utils.write_VTI_matrix (fin (K + 4 * G / 3)) (fin (K + 4 * G / 3)) (fin (K - 2 * G / 3))
          (fin G) (fin G) ∧
    utils.write_iso (fin K) (fin G)
      = utils.write_HTI_matrix (fin (K + 4 * G / 3)) (fin (K + 4 * G / 3)) (fin (K - 2 * G / 3))
          (fin G) (fin G) := by
  rw [utils.write_iso_eval, utils.write_VTI_matrix_eval, utils.write_HTI_matrix_eval]
  have h : K + 4 * G / 3 - 2 * G = K - 2 * G / 3 := by ring
  simp only [isoMatrix, vtiMatrix, htiMatrix, h, and_self]

/-- The matrix written by `write_iso` is stable exactly for positive bulk and shear moduli. -/
theorem C03_iso_stable_iff (K G : ℝ) :
    (∃ C : Matrix (Fin 6) (Fin 6) ℝ, utils.write_iso (fin K) (fin G) = C.map fin ∧ IsStable C)
      ↔ 0 < K ∧ 0 < G := by
  have key := isStable_isoMatrix_iff K G
  constructor
  · rintro ⟨C, hC, hs⟩
    rw [utils.write_iso_eval] at hC
    have : C = isoMatrix K G := (map_fin_injective hC).symm
    exact key.mp (this ▸ hs)
  · intro h
    exact ⟨_, utils.write_iso_eval .., key.mpr h⟩

/-- The matrix written by `write_VTI_matrix` is stable exactly under the textbook conditions
`C44 > 0`, `C66 > 0`, `C33 > 0`, `C33 (C11 - C66) > C13^2`. -/
theorem C03_VTI_stable_iff (C11 C33 C13 C44 C66 : ℝ) :
    (∃ C : Matrix (Fin 6) (Fin 6) ℝ,
      utils.write_VTI_matrix (fin C11) (fin C33) (fin C13) (fin C44) (fin C66) = C.map fin ∧
      IsStable C)
      ↔ 0 < C44 ∧ 0 < C66 ∧ 0 < C33 ∧ C13 ^ 2 < C33 * (C11 - C66) := by
  have key := isStable_vtiMatrix_iff C11 C33 C13 C44 C66
  constructor
  · rintro ⟨C, hC, hs⟩
    rw [utils.write_VTI_matrix_eval] at hC
    rw [← map_fin_injective hC] at hs
    exact key.mp hs
  · intro h
    exact ⟨_, utils.write_VTI_matrix_eval .., key.mpr h⟩

/-- The matrix written by `write_HTI_matrix` is stable exactly under the same conditions with the
axes 1 and 3 exchanged. -/
theorem C03_HTI_stable_iff (C11 C33 C13 C44 C55 : ℝ) :
    (∃ C : Matrix (Fin 6) (Fin 6) ℝ,
      utils.write_HTI_matrix (fin C11) (fin C33) (fin C13) (fin C44) (fin C55) = C.map fin ∧
      IsStable C)
      ↔ 0 < C55 ∧ 0 < C44 ∧ 0 < C11 ∧ C13 ^ 2 < C11 * (C33 - C44) := by
  have key := isStable_htiMatrix_iff C11 C33 C13 C44 C55
  constructor
  · rintro ⟨C, hC, hs⟩
    rw [utils.write_HTI_matrix_eval] at hC
    rw [← map_fin_injective hC] at hs
    exact key.mp hs
  · intro h
    exact ⟨_, utils.write_HTI_matrix_eval .., key.mpr h⟩

/-- `write_VTI_compliance` returns, for every five constants, a finite symmetric matrix that is
transversely isotropic about `x3`, with the constants where they belong and
`S66 = 2 (S11 - S12)`. -/
theorem C03_write_VTI_compliance (S11 S12 S13 S33 S44 : ℝ) :
    ∃ S : Matrix (Fin 6) (Fin 6) ℝ,
      utils.write_VTI_compliance (fin S11) (fin S12) (fin S13) (fin S33) (fin S44) = S.map fin ∧
      S.IsSymm ∧ IsVTICompliance S ∧
      S 0 0 = S11 ∧ S 0 1 = S12 ∧ S 0 2 = S13 ∧ S 2 2 = S33 ∧ S 3 3 = S44 ∧
      S 5 5 = 2 * (S11 - S12) :=
  ⟨_, utils.write_VTI_compliance_eval .., isSymm_orthoMatrix .., isVTICompliance_ortho _ _ _ _ _,
    rfl, rfl, rfl, rfl, rfl, rfl⟩

/-- The factor 2 matters: a compliance with `S66 = S11 - S12` is not transversely isotropic. -/
example : ¬ IsVTICompliance (orthoMatrix 2 2 1 0 0 0 1 1 2) := by
  intro h
  have := h (Real.pi / 4) !![0, 1, 0; 1, 0, 0; 0, 0, 0] (by
    apply Matrix.IsSymm.ext; intro i j; fin_cases i <;> fin_cases j <;> rfl)
  obtain ⟨h1, h2, h3, h4, h5, h6⟩ := rot3_conj (Real.pi / 4) !![0, 1, 0; 1, 0, 0; 0, 0, 0] (by
    apply Matrix.IsSymm.ext; intro i j; fin_cases i <;> fin_cases j <;> rfl)
  have q : Real.sqrt 2 ^ 2 = 2 := Real.sq_sqrt (by norm_num)
  rw [stressEnergy_ortho, stressEnergy_ortho, h1, h2, h3, h4, h5, h6] at this
  simp only [Real.cos_pi_div_four, Real.sin_pi_div_four, Matrix.of_apply, Matrix.cons_val] at this
  simp at this
  nlinarith

/-- `write_VTI_compliance` fed with the entries of the inverse of a VTI stiffness rebuilds
that inverse: if `C` is the matrix of `write_VTI_matrix` and `S` is its inverse then
`write_VTI_compliance(S11,S12,S13,S33,S44) = S`. -/
theorem C03_VTI_compliance_inverse (C11 C33 C13 C44 C66 : ℝ) (C S : Matrix (Fin 6) (Fin 6) ℝ)
    (hC : utils.write_VTI_matrix (fin C11) (fin C33) (fin C13) (fin C44) (fin C66) = C.map fin)
    (hS : C * S = 1) :
    utils.write_VTI_compliance (fin (S 0 0)) (fin (S 0 1)) (fin (S 0 2)) (fin (S 2 2))
      (fin (S 3 3)) = S.map fin := by
  rw [utils.write_VTI_matrix_eval] at hC
  have hCeq : C = vtiMatrix C11 C33 C13 C44 C66 := (map_fin_injective hC).symm
  have hS' : S * C = 1 := mul_eq_one_comm.mp hS
  have hCs : Cᵀ = C := by rw [hCeq]; exact isSymm_orthoMatrix ..
  have hSs : Sᵀ = S := by
    have h1 : Sᵀ * C = 1 := by
      have := congrArg Matrix.transpose hS
      rwa [Matrix.transpose_mul, hCs, Matrix.transpose_one] at this
    calc Sᵀ = Sᵀ * (C * S) := by rw [hS, Matrix.mul_one]
      _ = S := by rw [← Matrix.mul_assoc, h1, Matrix.one_mul]
  let σ : Equiv.Perm (Fin 6) := Equiv.swap 0 1 * Equiv.swap 3 4
  have hCσ : C.submatrix σ σ = C := by
    rw [hCeq]; ext i j; fin_cases i <;> fin_cases j <;> rfl
  have hSσ : S.submatrix σ σ = S := by
    have h1 : C * S.submatrix σ σ = 1 := by
      conv_lhs => rw [← hCσ]
      rw [Matrix.submatrix_mul_equiv, hS, Matrix.submatrix_one_equiv]
    calc S.submatrix σ σ = S * C * S.submatrix σ σ := by rw [hS', Matrix.one_mul]
      _ = S := by rw [Matrix.mul_assoc, h1, Matrix.mul_one]
  have sw : ∀ i j, S (σ i) (σ j) = S i j := fun i j => congrFun (congrFun hSσ i) j
  have sy : ∀ i j, S j i = S i j := fun i j => congrFun (congrFun hSs i) j
  have e : ∀ i j, (C * S) i j = (1 : Matrix (Fin 6) (Fin 6) ℝ) i j := fun i j => by rw [hS]
  have row3 : ∀ j, C44 * S 3 j = (1 : Matrix (Fin 6) (Fin 6) ℝ) 3 j := fun j => by
    rw [← e 3 j, hCeq]
    simp [Matrix.mul_apply, Fin.sum_univ_succ, vtiMatrix, orthoMatrix]
  have row4 : ∀ j, C44 * S 4 j = (1 : Matrix (Fin 6) (Fin 6) ℝ) 4 j := fun j => by
    rw [← e 4 j, hCeq]
    simp [Matrix.mul_apply, Fin.sum_univ_succ, vtiMatrix, orthoMatrix]
  have row5 : ∀ j, C66 * S 5 j = (1 : Matrix (Fin 6) (Fin 6) ℝ) 5 j := fun j => by
    rw [← e 5 j, hCeq]
    simp [Matrix.mul_apply, Fin.sum_univ_succ, vtiMatrix, orthoMatrix]
  have h44 : C44 ≠ 0 := fun h => by have := row3 3; simp [h] at this
  have h66 : C66 ≠ 0 := fun h => by have := row5 5; simp [h] at this
  have z3 : ∀ j, j ≠ 3 → S 3 j = 0 := fun j hj => by
    have := row3 j
    rw [Matrix.one_apply_ne hj.symm] at this
    exact (mul_eq_zero.mp this).resolve_left h44
  have z4 : ∀ j, j ≠ 4 → S 4 j = 0 := fun j hj => by
    have := row4 j
    rw [Matrix.one_apply_ne hj.symm] at this
    exact (mul_eq_zero.mp this).resolve_left h44
  have z5 : ∀ j, j ≠ 5 → S 5 j = 0 := fun j hj => by
    have := row5 j
    rw [Matrix.one_apply_ne hj.symm] at this
    exact (mul_eq_zero.mp this).resolve_left h66
  have e00 := e 0 0
  have e10 := e 1 0
  have hz30 := z3 0 (by decide)
  have hz40 := z4 0 (by decide)
  have hz50 := z5 0 (by decide)
  rw [hCeq] at e00 e10
  simp [Matrix.mul_apply, Fin.sum_univ_succ, vtiMatrix, orthoMatrix] at e00 e10
  have s01 := sy 0 1
  have s55 : S 5 5 = 2 * (S 0 0 - S 0 1) := by
    have r := row5 5
    rw [Matrix.one_apply_eq] at r
    have : C66 * S 5 5 = C66 * (2 * (S 0 0 - S 0 1)) := by
      rw [r]; linear_combination e10 - e00 - 2 * C66 * s01
    exact mul_left_cancel₀ h66 this
  rw [utils.write_VTI_compliance_eval, ← s55]
  congr 1
  have a1 : S 1 1 = S 0 0 := sw 0 0
  have a2 : S 1 2 = S 0 2 := sw 0 2
  have a3 : S 4 4 = S 3 3 := sw 3 3
  have a4 : S 2 1 = S 0 2 := by rw [sy 1 2, a2]
  have a5 : S 2 0 = S 0 2 := sy 0 2
  have y3 : ∀ j, j ≠ 3 → S j 3 = 0 := fun j hj => by rw [sy 3 j, z3 j hj]
  have y4 : ∀ j, j ≠ 4 → S j 4 = 0 := fun j hj => by rw [sy 4 j, z4 j hj]
  have y5 : ∀ j, j ≠ 5 → S j 5 = 0 := fun j hj => by rw [sy 5 j, z5 j hj]
  ext i j
  fin_cases i <;> fin_cases j <;>
    simp [orthoMatrix, a1, a2, a3, a4, a5, s01, y3, y4, y5, z3, z4, z5]

/-- The hypotheses of `C03_VTI_compliance_inverse` are met by the matrix used in the
repository's own test of `write_VTI_compliance`. -/
example : ∃ C S : Matrix (Fin 6) (Fin 6) ℝ,
    utils.write_VTI_matrix (fin 40) (fin 20) (fin 10) (fin 5) (fin 15) = C.map fin ∧
    C * S = 1 := by
  refine ⟨_, orthoMatrix (7/240) (7/240) (1/16) (-1/240) (-1/80) (-1/80) (1/5) (1/5) (1/15),
    utils.write_VTI_matrix_eval .., ?_⟩
  ext i j
  fin_cases i <;> fin_cases j <;>
    norm_num [Matrix.mul_apply, Fin.sum_univ_succ, vtiMatrix, orthoMatrix, Matrix.one_apply]

end RockPhy.Props
