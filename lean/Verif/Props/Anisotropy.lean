import Verif.Lemmas.Anisotropy

/-! # Properties C04, C34-C38 (`rockphypy/Anisotropy.py`, `utils.v_to_c_VTI`) -/

namespace RockPhy.Props

open Fl Spec Matrix Anisotropy

/-! ## C04: stiffnesses from velocities -/

/-- Feeding `v_to_c_VTI` with the phase velocities of `vel_azi_VTI` at 0, 45 and 90 degrees
returns the stiffness matrix they were computed from. -/
theorem C04_stiffness_recovered (C11 C33 C13 C44 C66 den : ℝ) (hden : 0 < den) (h44 : 0 ≤ C44)
    (h33 : C44 ≤ C33) (h11 : C44 ≤ C11) (h66 : 0 ≤ C66) (h13 : 0 ≤ C13 + C44) :
    let C := utils.write_VTI_matrix (fin C11) (fin C33) (fin C13) (fin C44) (fin C66)
    let v := fun az : ℝ => vel_azi_VTI C (fin den) (fin az)
    utils.v_to_c_VTI (v 0).1 (v 45).1 (v 90).1 (v 0).2.2 (v 90).2.1 (fin den) = C := by
  intro C v
  have hC : C = (vtiMatrix C11 C33 C13 C44 C66).map fin := utils.write_VTI_matrix_eval _ _ _ _ _
  have a0 : (0 : ℝ) * (Real.pi / 180) = 0 := by ring
  have a45 : (45 : ℝ) * (Real.pi / 180) = Real.pi / 4 := by ring
  have a90 : (90 : ℝ) * (Real.pi / 180) = Real.pi / 2 := by ring
  have R0 : vtiR C11 C33 C13 C44 0 = C33 - C44 := by
    unfold vtiR
    rw [mul_zero, Real.sin_zero, Real.cos_zero,
      show ((C11 - C44) * 0 ^ 2 - (C33 - C44) * 1 ^ 2) ^ 2 + (C13 + C44) ^ 2 * 0 ^ 2
        = (C33 - C44) ^ 2 by ring]
    exact Real.sqrt_sq (by linarith)
  have R90 : vtiR C11 C33 C13 C44 (Real.pi / 2) = C11 - C44 := by
    unfold vtiR
    rw [show 2 * (Real.pi / 2) = Real.pi by ring, Real.sin_pi, Real.sin_pi_div_two,
      Real.cos_pi_div_two,
      show ((C11 - C44) * 1 ^ 2 - (C33 - C44) * 0 ^ 2) ^ 2 + (C13 + C44) ^ 2 * 0 ^ 2
        = (C11 - C44) ^ 2 by ring]
    exact Real.sqrt_sq (by linarith)
  have S0 : vtiS C11 C33 C44 0 = C33 + C44 := by
    unfold vtiS; rw [Real.sin_zero, Real.cos_zero]; ring
  have S90 : vtiS C11 C33 C44 (Real.pi / 2) = C11 + C44 := by
    unfold vtiS; rw [Real.sin_pi_div_two, Real.cos_pi_div_two]; ring
  have hs4 : Real.sin (Real.pi / 4) ^ 2 = 1 / 2 := by
    rw [Real.sin_pi_div_four, div_pow, Real.sq_sqrt (by norm_num)]; norm_num
  have hc4 : Real.cos (Real.pi / 4) ^ 2 = 1 / 2 := by
    rw [Real.cos_pi_div_four, div_pow, Real.sq_sqrt (by norm_num)]; norm_num
  have S45 : vtiS C11 C33 C44 (Real.pi / 4) = (C11 + C33) / 2 + C44 := by
    unfold vtiS; rw [hs4, hc4]; ring
  have R45 : vtiR C11 C33 C13 C44 (Real.pi / 4) ^ 2 = (C11 - C33) ^ 2 / 4 + (C13 + C44) ^ 2 := by
    unfold vtiR
    rw [Real.sq_sqrt (by positivity), hs4, hc4, show 2 * (Real.pi / 4) = Real.pi / 2 by ring,
      Real.sin_pi_div_two]
    ring
  have R45n : 0 ≤ vtiR C11 C33 C13 C44 (Real.pi / 4) := Real.sqrt_nonneg _
  have v0 : v 0 = (fin (Real.sqrt (0.5 / den * (C33 + C44 + (C33 - C44)))),
      fin (Real.sqrt (1 / den * C44)),
      fin (Real.sqrt (0.5 / den * (C33 + C44 - (C33 - C44))))) := by
    show vel_azi_VTI C (fin den) (fin 0) = _
    rw [hC, vel_azi_VTI_eval a0 hden]
    · simp [vtiMatrix, orthoMatrix, R0, S0]
    · simp [vtiMatrix, orthoMatrix, R0, S0]; linarith
    · simpa [vtiMatrix, orthoMatrix] using h44
  have v90 : v 90 = (fin (Real.sqrt (0.5 / den * (C11 + C44 + (C11 - C44)))),
      fin (Real.sqrt (1 / den * C66)),
      fin (Real.sqrt (0.5 / den * (C11 + C44 - (C11 - C44))))) := by
    show vel_azi_VTI C (fin den) (fin 90) = _
    rw [hC, vel_azi_VTI_eval a90 hden]
    · simp [vtiMatrix, orthoMatrix, R90, S90]
    · simp [vtiMatrix, orthoMatrix, R90, S90]; linarith
    · simpa [vtiMatrix, orthoMatrix] using h66
  have P45 : 0 ≤ vtiS C11 C33 C44 (Real.pi / 4) + vtiR C11 C33 C13 C44 (Real.pi / 4) := by
    rw [S45]; linarith
  have v45 : (v 45).1 = fin (Real.sqrt (0.5 / den * (vtiS C11 C33 C44 (Real.pi / 4)
      + vtiR C11 C33 C13 C44 (Real.pi / 4)))) := by
    show (vel_azi_VTI C (fin den) (fin 45)).1 = _
    rw [hC, vel_azi_VTI_VP a45 hden]
    · simp [vtiMatrix, orthoMatrix]
    · simpa [vtiMatrix, orthoMatrix] using P45
  rw [v0, v90, v45]
  dsimp only
  generalize vtiR C11 C33 C13 C44 (Real.pi / 4) = R at *
  rw [S45] at *
  have q1 : Real.sqrt (0.5 / den * (C11 + C44 + (C11 - C44))) ^ 2 = C11 / den := by
    rw [Real.sq_sqrt (mul_nonneg (by positivity) (by linarith))]; ring
  have q2 : Real.sqrt (0.5 / den * (C33 + C44 + (C33 - C44))) ^ 2 = C33 / den := by
    rw [Real.sq_sqrt (mul_nonneg (by positivity) (by linarith))]; ring
  have q3 : Real.sqrt (0.5 / den * (C33 + C44 - (C33 - C44))) ^ 2 = C44 / den := by
    rw [Real.sq_sqrt (mul_nonneg (by positivity) (by linarith))]; ring
  have q4 : Real.sqrt (1 / den * C66) ^ 2 = C66 / den := by
    rw [Real.sq_sqrt (by positivity)]; ring
  have q5 : Real.sqrt (0.5 / den * ((C11 + C33) / 2 + C44 + R)) ^ 2
      = 0.5 / den * ((C11 + C33) / 2 + C44 + R) :=
    Real.sq_sqrt (mul_nonneg (by positivity) P45)
  have q6 : Real.sqrt (0.5 / den * ((C11 + C33) / 2 + C44 + R)) ^ 4
      = (0.5 / den * ((C11 + C33) / 2 + C44 + R)) ^ 2 := by
    rw [show (4 : ℕ) = 2 * 2 by rfl, pow_mul, q5]
  have hd : den ≠ 0 := hden.ne'
  have m1 : ∀ x : ℝ, den * (x / den) = x := fun x => by field
  have hM : 4 * den ^ 2 * (0.5 / den * ((C11 + C33) / 2 + C44 + R)) ^ 2
      - 2 * den * (0.5 / den * ((C11 + C33) / 2 + C44 + R)) * (C11 + C33 + 2 * C44)
      + (C11 + C44) * (C33 + C44) = (C13 + C44) ^ 2 := by
    have e : den * (0.5 / den * ((C11 + C33) / 2 + C44 + R)) = ((C11 + C33) / 2 + C44 + R) / 2 := by
      field
    generalize 0.5 / den * ((C11 + C33) / 2 + C44 + R) = W at e
    have : 4 * den ^ 2 * W ^ 2 - 2 * den * W * (C11 + C33 + 2 * C44) + (C11 + C44) * (C33 + C44)
      = 4 * (den * W) ^ 2 - 2 * (den * W) * (C11 + C33 + 2 * C44) + (C11 + C44) * (C33 + C44) := by
      ring
    rw [this, e]
    linear_combination R45
  have hM0 : 0 ≤ (C13 + C44) ^ 2 := sq_nonneg _
  fl_eval [utils.v_to_c_VTI, q1, q2, q3, q4, q5, q6, m1, hM, Real.sqrt_sq h13]
  have e66 : (0.5 : ℝ) * (C11 - (C11 - 2 * den * (C66 / den))) = C66 := by field
  have e13 : -C44 + (C13 + C44) = C13 := by ring
  rw [e66, e13]

/-- The hypotheses are met by a shale-like medium. -/
example :
    let C := utils.write_VTI_matrix (fin 40) (fin 30) (fin 10) (fin 8) (fin 12)
    let v := fun az : ℝ => vel_azi_VTI C (fin 2.4) (fin az)
    utils.v_to_c_VTI (v 0).1 (v 45).1 (v 90).1 (v 0).2.2 (v 90).2.1 (fin 2.4) = C :=
  C04_stiffness_recovered 40 30 10 8 12 2.4 (by norm_num) (by norm_num) (by norm_num)
    (by norm_num) (by norm_num) (by norm_num)

/-! ## C34: Thomsen parameters -/

/-- For an isotropic stiffness `Thomsen` returns the isotropic velocities of `utils.V` at every
angle and zero anisotropy parameters. -/
theorem C34_Thomsen_isotropic (K G den th : ℝ) (hden : 0 < den) (hG : 0 < G) (hK : 0 < K) :
    Thomsen (fin (K + 4 / 3 * G)) (fin (K + 4 / 3 * G)) (fin (K - 2 / 3 * G)) (fin G) (fin G)
        (fin den) (fin th)
      = ((utils.V (fin K) (fin G) (fin den)).1, (utils.V (fin K) (fin G) (fin den)).2,
         (utils.V (fin K) (fin G) (fin den)).2, fin 0, fin 0, fin 0) := by
  have h1 : K + 4 / 3 * G - G ≠ 0 := by
    have : 0 < K + 4 / 3 * G - G := by linarith
    exact this.ne'
  rw [Thomsen_eval rfl hden (by positivity) hG h1, utils.V_eval hden hG.le (by positivity)]
  have e : K - 2 / 3 * G + G = K + 4 / 3 * G - G := by ring
  simp only [e, sub_self, mul_zero, zero_div, zero_mul, add_zero, mul_one]

/-- On a VTI stiffness the orthorhombic parameters in both vertical planes are Thomsen's
parameters, and the horizontal-plane parameter vanishes. -/
theorem C34_Tsvankin_VTI (C11 C33 C13 C44 C66 den th : ℝ) (hden : 0 < den) (h33 : 0 < C33)
    (h44 : 0 < C44) (h11 : 0 < C11) (h1 : C33 ≠ C44) (h3 : C11 ≠ C66) :
    let T := Thomsen (fin C11) (fin C33) (fin C13) (fin C44) (fin C66) (fin den) (fin th)
    let eps := T.2.2.2.1
    let gam := T.2.2.2.2.1
    let del := T.2.2.2.2.2
    Thomsen_Tsvankin (fin C11) (fin C11) (fin C33) (fin (C11 - 2 * C66)) (fin C13) (fin C13)
        (fin C44) (fin C44) (fin C66) = (eps, del, gam, eps, del, gam, fin 0) := by
  have d1 := sub_ne_zero.mpr h1
  have d3 := sub_ne_zero.mpr h3
  rw [Thomsen_eval rfl hden h33 h44 d1, Thomsen_Tsvankin_eval h33 h44 h44 h11 d1 d1 d3]
  have e1 : (C11 - C33) / (2 * C33) = 0.5 * (C11 - C33) / C33 := by field
  have e2 : (C66 - C44) / 2 / C44 = 0.5 * (C66 - C44) / C44 := by field
  have e3 : (C11 - 2 * C66 + C66) = C11 - C66 := by ring
  simp only [e1, e2, e3, sub_self, zero_div]

/-- At vertical incidence `Thomsen` returns the exact vertical velocities (in m/s) of
`vel_azi_VTI`. -/
theorem C34_Thomsen_vertical_exact (C11 C33 C13 C44 C66 den : ℝ) (hden : 0 < den)
    (h44 : 0 < C44) (h33 : C44 < C33) :
    ∃ vp vs : ℝ,
      vel_azi_VTI (utils.write_VTI_matrix (fin C11) (fin C33) (fin C13) (fin C44) (fin C66))
        (fin den) (fin 0) = (fin vp, fin vs, fin vs) ∧
      (Thomsen (fin C11) (fin C33) (fin C13) (fin C44) (fin C66) (fin den) (fin 0)).1
        = fin (1000 * vp) ∧
      (Thomsen (fin C11) (fin C33) (fin C13) (fin C44) (fin C66) (fin den) (fin 0)).2.1
        = fin (1000 * vs) ∧
      (Thomsen (fin C11) (fin C33) (fin C13) (fin C44) (fin C66) (fin den) (fin 0)).2.2.1
        = fin (1000 * vs) := by
  have a0 : (0 : ℝ) * (Real.pi / 180) = 0 := by ring
  have R0 : vtiR C11 C33 C13 C44 0 = C33 - C44 := by
    unfold vtiR
    rw [mul_zero, Real.sin_zero, Real.cos_zero,
      show ((C11 - C44) * 0 ^ 2 - (C33 - C44) * 1 ^ 2) ^ 2 + (C13 + C44) ^ 2 * 0 ^ 2
        = (C33 - C44) ^ 2 by ring]
    exact Real.sqrt_sq (by linarith)
  have S0 : vtiS C11 C33 C44 0 = C33 + C44 := by
    unfold vtiS; rw [Real.sin_zero, Real.cos_zero]; ring
  have c33 : 0 < C33 := h44.trans h33
  rw [utils.write_VTI_matrix_eval, Thomsen_eval a0 hden c33 h44 (sub_ne_zero.mpr h33.ne')]
  refine ⟨Real.sqrt (C33 / den), Real.sqrt (C44 / den), ?_, ?_, ?_, ?_⟩
  · rw [vel_azi_VTI_eval a0 hden]
    · simp only [vtiMatrix, orthoMatrix, Matrix.of_apply, Matrix.cons_val]
      rw [R0, S0, Real.sin_zero, Real.cos_zero,
        show 0.5 / den * (C33 + C44 + (C33 - C44)) = C33 / den by ring,
        show 0.5 / den * (C33 + C44 - (C33 - C44)) = C44 / den by ring,
        show 1 / den * (C66 * 0 ^ 2 + C44 * 1 ^ 2) = C44 / den by ring]
    · simp [vtiMatrix, orthoMatrix, R0, S0]; linarith
    · simpa [vtiMatrix, orthoMatrix] using h44.le
  · rw [fin_inj, Real.sin_zero, Real.cos_zero]; norm_num; ring
  · rw [fin_inj, Real.sin_zero, Real.cos_zero]; norm_num; ring
  · rw [fin_inj, Real.sin_zero]; norm_num; ring

/-- The weak-anisotropy SH velocity overestimates the exact one by a controlled amount: the
difference of squares is `(beta gamma sin^2)^2`. -/
theorem C34_Thomsen_SH_error (C11 C33 C13 C44 C66 den th : ℝ) (hden : 0 < den) (h33 : 0 < C33)
    (h44 : 0 < C44) (h1 : C33 ≠ C44) (h66 : 0 ≤ C66) :
    ∃ vsh beta gam : ℝ,
      (Thomsen (fin C11) (fin C33) (fin C13) (fin C44) (fin C66) (fin den) (fin th)).2.2.1
        = fin vsh ∧
      (Thomsen (fin C11) (fin C33) (fin C13) (fin C44) (fin C66) (fin den) (fin th)).2.2.2.2.1
        = fin gam ∧
      (utils.V (fin C33) (fin C44) (fin den)).2 = fin beta ∧
      (vel_azi_VTI (utils.write_VTI_matrix (fin C11) (fin C33) (fin C13) (fin C44) (fin C66))
        (fin den) (fin th)).2.1 = fin (Real.sqrt (vsh ^ 2
          - (beta * gam * Real.sin (th * (Real.pi / 180)) ^ 2) ^ 2) / 1000) := by
  rw [utils.write_VTI_matrix_eval, Thomsen_eval rfl hden h33 h44 (sub_ne_zero.mpr h1),
    utils.V_eval hden h44.le (by positivity)]
  refine ⟨_, _, _, rfl, rfl, rfl, ?_⟩
  set a := th * (Real.pi / 180) with ha
  have hb : Real.sqrt (C44 / den) ^ 2 = C44 / den := Real.sq_sqrt (by positivity)
  have hc : Real.cos a ^ 2 = 1 - Real.sin a ^ 2 := by
    have := Real.sin_sq_add_cos_sq a; linarith
  have hh : 0 ≤ 1 / den * (C66 * Real.sin a ^ 2 + C44 * Real.cos a ^ 2) := by positivity
  have e : (Real.sqrt (C44 / den) * 1e3 * (1 + 0.5 * (C66 - C44) / C44 * Real.sin a ^ 2)) ^ 2
      - (Real.sqrt (C44 / den) * 1e3 * (0.5 * (C66 - C44) / C44) * Real.sin a ^ 2) ^ 2
      = (1 / den * (C66 * Real.sin a ^ 2 + C44 * Real.cos a ^ 2)) * 1000 ^ 2 := by
    rw [hc]
    have : Real.sqrt (C44 / den) ^ 2 * 1000 ^ 2 * (1 + (C66 - C44) / C44 * Real.sin a ^ 2)
        = (1 / den * (C66 * Real.sin a ^ 2 + C44 * (1 - Real.sin a ^ 2))) * 1000 ^ 2 := by
      rw [hb]; field
    rw [← this]; ring
  rw [e, Real.sqrt_mul hh, Real.sqrt_sq (by norm_num), mul_div_cancel_right₀ _ (by norm_num)]
  fl_eval [vel_azi_VTI, Matrix.map_apply, ← ha, vtiMatrix, orthoMatrix, Matrix.of_apply,
    Matrix.cons_val]

example : (0 : ℝ) < 2.4 ∧ (0 : ℝ) < 30 ∧ (0 : ℝ) < 8 ∧ (30 : ℝ) ≠ 8 ∧ (0 : ℝ) ≤ 12
    ∧ (40 : ℝ) ≠ 12 := by norm_num

/-! ## C35: phase velocities are Christoffel eigenvalues -/

/-- The Christoffel quadratic form is the strain energy of the plane-wave strain with
polarisation `p` and propagation direction `n`; this ties `christoffel` to `energy`. -/
theorem C35_christoffel_is_energy (C : Matrix (Fin 6) (Fin 6) ℝ) (n p : Fin 3 → ℝ) :
    p ⬝ᵥ (christoffel C n *ᵥ p)
      = energy C (Matrix.of fun i j => (p i * n j + p j * n i) / 2) := by
  have hv : voigt (Matrix.of fun i j => (p i * n j + p j * n i) / 2) = (dirMatrix n)ᵀ *ᵥ p := by
    ext i
    fin_cases i <;>
      simp [voigt, dirMatrix, Matrix.mulVec, dotProduct, Fin.sum_univ_three] <;> ring
  have : energy C (Matrix.of fun i j => (p i * n j + p j * n i) / 2)
      = ((dirMatrix n)ᵀ *ᵥ p) ⬝ᵥ (C *ᵥ ((dirMatrix n)ᵀ *ᵥ p)) := by
    unfold energy
    rw [hv]
    simp only [dotProduct, Matrix.mulVec, Finset.mul_sum]
    simp only [mul_assoc]
  rw [this, christoffel, ← Matrix.mulVec_mulVec, ← Matrix.mulVec_mulVec,
    Matrix.dotProduct_mulVec p, ← Matrix.mulVec_transpose]

theorem christoffel_VTI (C11 C33 C13 C44 C66 s c : ℝ) (h : s ^ 2 + c ^ 2 = 1)
    (P V : ℝ) (hP : P + V = C11 * s ^ 2 + C33 * c ^ 2 + C44)
    (hPV : P * V = (C11 * s ^ 2 + C44 * c ^ 2) * (C44 * s ^ 2 + C33 * c ^ 2)
      - ((C13 + C44) * s * c) ^ 2) :
    HasSpectrum (christoffel (vtiMatrix C11 C33 C13 C44 C66) ![s, 0, c]) P
      (C66 * s ^ 2 + C44 * c ^ 2) V := by
  intro x
  have hM : christoffel (vtiMatrix C11 C33 C13 C44 C66) ![s, 0, c]
      = !![C11 * s ^ 2 + C44 * c ^ 2, 0, (C13 + C44) * s * c;
           0, C66 * s ^ 2 + C44 * c ^ 2, 0;
           (C13 + C44) * s * c, 0, C44 * s ^ 2 + C33 * c ^ 2] := by
    unfold christoffel
    ext i j
    simp only [Matrix.mul_apply, Fin.sum_univ_succ, Fin.sum_univ_zero, Matrix.transpose_apply]
    fin_cases i <;> fin_cases j <;> simp [dirMatrix, vtiMatrix, orthoMatrix] <;> ring
  rw [hM, Matrix.det_fin_three]
  simp
  have e : C44 = C44 * (s ^ 2 + c ^ 2) := by rw [h, mul_one]
  have hV : V = C11 * s ^ 2 + C33 * c ^ 2 + C44 * (s ^ 2 + c ^ 2) - P := by linarith
  subst hV
  linear_combination (-(C66 * s ^ 2 + C44 * c ^ 2 - x)) * hPV

/-- Every finite velocity triple of `vel_azi_VTI` is, after squaring and multiplying by the
density, the complete spectrum of the Christoffel matrix for propagation at that angle from
the symmetry axis; the P velocity is the larger of the P-SV pair. -/
theorem C35_VTI_spectrum (C11 C33 C13 C44 C66 den th vp vsh vsv : ℝ) (hden : 0 < den)
    (hv : vel_azi_VTI (utils.write_VTI_matrix (fin C11) (fin C33) (fin C13) (fin C44) (fin C66))
      (fin den) (fin th) = (fin vp, fin vsh, fin vsv)) :
    let a := th * (Real.pi / 180)
    HasSpectrum (christoffel (vtiMatrix C11 C33 C13 C44 C66) ![Real.sin a, 0, Real.cos a])
      (den * vp ^ 2) (den * vsh ^ 2) (den * vsv ^ 2) ∧ 0 ≤ vsv ∧ vsv ≤ vp ∧ 0 ≤ vsh := by
  intro a
  have hR : 0 ≤ ((C11 - C44) * Real.sin a ^ 2 - (C33 - C44) * Real.cos a ^ 2) ^ 2
    + (C13 + C44) ^ 2 * Real.sin (2 * a) ^ 2 := by positivity
  rw [utils.write_VTI_matrix_eval] at hv
  simp (disch := first | assumption | positivity) only [vel_azi_VTI, Matrix.map_apply, fl,
    Prod.mk.injEq, vtiMatrix, orthoMatrix, Matrix.of_apply, Matrix.cons_val] at hv
  obtain ⟨h1, h2, h3⟩ := hv
  obtain ⟨p1, rfl⟩ := fl_sqrt_eq_fin h1
  obtain ⟨p2, rfl⟩ := fl_sqrt_eq_fin h2
  obtain ⟨p3, rfl⟩ := fl_sqrt_eq_fin h3
  have sc := Real.sin_sq_add_cos_sq a
  change HasSpectrum _ (den * Real.sqrt (0.5 / den * (C11 * Real.sin a ^ 2
    + C33 * Real.cos a ^ 2 + C44 + Real.sqrt _)) ^ 2) _ _ ∧ _ at *
  rw [Real.sq_sqrt p1, Real.sq_sqrt p2, Real.sq_sqrt p3]
  have hs := Real.sq_sqrt hR
  have hn := Real.sqrt_nonneg (((C11 - C44) * Real.sin a ^ 2 - (C33 - C44) * Real.cos a ^ 2) ^ 2
    + (C13 + C44) ^ 2 * Real.sin (2 * a) ^ 2)
  rw [Real.sin_two_mul] at *
  set R := Real.sqrt (((C11 - C44) * Real.sin a ^ 2 - (C33 - C44) * Real.cos a ^ 2) ^ 2
    + (C13 + C44) ^ 2 * (2 * Real.sin a * Real.cos a) ^ 2) with hRdef
  have e2 : den * (1 / den * (C66 * Real.sin a ^ 2 + C44 * Real.cos a ^ 2))
      = C66 * Real.sin a ^ 2 + C44 * Real.cos a ^ 2 := by field
  have ha : th * (Real.pi / 180) = a := rfl
  rw [ha] at *
  rw [e2]
  refine ⟨christoffel_VTI _ _ _ _ _ _ _ sc _ _ ?_ ?_, Real.sqrt_nonneg _, ?_, Real.sqrt_nonneg _⟩
  · field
  · have : den * (0.5 / den * (C11 * Real.sin a ^ 2 + C33 * Real.cos a ^ 2 + C44 + R))
        * (den * (0.5 / den * (C11 * Real.sin a ^ 2 + C33 * Real.cos a ^ 2 + C44 - R)))
        = ((C11 * Real.sin a ^ 2 + C33 * Real.cos a ^ 2 + C44) ^ 2 - R ^ 2) / 4 := by field
    rw [this, hs]
    have e : C44 = C44 * (Real.sin a ^ 2 + Real.cos a ^ 2) := by rw [sc, mul_one]
    conv_lhs => rw [show C11 * Real.sin a ^ 2 + C33 * Real.cos a ^ 2 + C44
      = C11 * Real.sin a ^ 2 + C33 * Real.cos a ^ 2
        + C44 * (Real.sin a ^ 2 + Real.cos a ^ 2) by rw [sc, mul_one]]
    ring
  · apply Real.sqrt_le_sqrt
    apply mul_le_mul_of_nonneg_left _ (by positivity)
    linarith

/-- Positivity of the P-SV determinant of a stable VTI medium. -/
theorem vti_det_pos {C11 C33 C13 C44 C66 s c : ℝ} (h44 : 0 < C44) (h66 : 0 < C66) (h33 : 0 < C33)
    (h13 : C13 ^ 2 < C33 * (C11 - C66)) (h : s ^ 2 + c ^ 2 = 1) :
    0 < (C11 * s ^ 2 + C44 * c ^ 2) * (C44 * s ^ 2 + C33 * c ^ 2) - ((C13 + C44) * s * c) ^ 2 := by
  have h11 : C66 < C11 := by
    have : 0 < C33 * (C11 - C66) := lt_of_le_of_lt (sq_nonneg _) h13
    have := (mul_pos_iff_of_pos_left h33).mp this
    linarith
  have hd : C13 ^ 2 < C33 * C11 := by nlinarith
  have q : 0 ≤ C11 * s ^ 4 + C33 * c ^ 4 - 2 * C13 * s ^ 2 * c ^ 2 := by
    have : 0 ≤ C33 * (C11 * s ^ 4 + C33 * c ^ 4 - 2 * C13 * s ^ 2 * c ^ 2) := by
      have e : C33 * (C11 * s ^ 4 + C33 * c ^ 4 - 2 * C13 * s ^ 2 * c ^ 2)
        = (C33 * c ^ 2 - C13 * s ^ 2) ^ 2 + (C33 * C11 - C13 ^ 2) * s ^ 4 := by ring
      rw [e]
      have : 0 < C33 * C11 - C13 ^ 2 := by linarith
      positivity
    exact nonneg_of_mul_nonneg_right this h33
  have e : (C11 * s ^ 2 + C44 * c ^ 2) * (C44 * s ^ 2 + C33 * c ^ 2) - ((C13 + C44) * s * c) ^ 2
      = C44 * (C11 * s ^ 4 + C33 * c ^ 4 - 2 * C13 * s ^ 2 * c ^ 2)
        + s ^ 2 * c ^ 2 * (C33 * C11 - C13 ^ 2) := by ring
  rw [e]
  have hd' : 0 < C33 * C11 - C13 ^ 2 := by linarith
  rcases eq_or_ne s 0 with rfl | hs
  · have : c ^ 4 = 1 := by nlinarith
    simp [this]; positivity
  · rcases eq_or_ne c 0 with rfl | hc
    · have : s ^ 4 = 1 := by nlinarith
      have h11' : 0 < C11 := h66.trans h11
      simp [this]; positivity
    · have := mul_nonneg h44.le q
      positivity

/-- A stable VTI medium has real, positive phase velocities in every direction. -/
theorem C35_VTI_real (C11 C33 C13 C44 C66 den th : ℝ) (hden : 0 < den)
    (hC : IsStable (vtiMatrix C11 C33 C13 C44 C66)) :
    ∃ vp vsh vsv : ℝ,
      vel_azi_VTI (utils.write_VTI_matrix (fin C11) (fin C33) (fin C13) (fin C44) (fin C66))
        (fin den) (fin th) = (fin vp, fin vsh, fin vsv) ∧ 0 < vsv ∧ vsv ≤ vp ∧ 0 < vsh := by
  obtain ⟨h44, h66, h33, h13⟩ := (isStable_vtiMatrix_iff _ _ _ _ _).mp hC
  set a := th * (Real.pi / 180) with ha
  have sc := Real.sin_sq_add_cos_sq a
  have hdet := vti_det_pos h44 h66 h33 h13 sc
  have h11 : 0 < C11 := by
    have : 0 < C33 * (C11 - C66) := lt_of_le_of_lt (sq_nonneg _) h13
    have := (mul_pos_iff_of_pos_left h33).mp this
    linarith
  have hSpos : 0 < vtiS C11 C33 C44 a := by unfold vtiS; positivity
  have hR2 : vtiR C11 C33 C13 C44 a ^ 2 = vtiS C11 C33 C44 a ^ 2
      - 4 * ((C11 * Real.sin a ^ 2 + C44 * Real.cos a ^ 2)
        * (C44 * Real.sin a ^ 2 + C33 * Real.cos a ^ 2)
        - ((C13 + C44) * Real.sin a * Real.cos a) ^ 2) := by
    unfold vtiR vtiS
    rw [Real.sq_sqrt (by positivity), Real.sin_two_mul]
    conv_rhs => rw [show C11 * Real.sin a ^ 2 + C33 * Real.cos a ^ 2 + C44
      = C11 * Real.sin a ^ 2 + C33 * Real.cos a ^ 2
        + C44 * (Real.sin a ^ 2 + Real.cos a ^ 2) by rw [sc, mul_one]]
    ring
  have hRS : vtiR C11 C33 C13 C44 a < vtiS C11 C33 C44 a := by
    apply lt_of_pow_lt_pow_left₀ 2 hSpos.le
    rw [hR2]; linarith
  have hRn : 0 ≤ vtiR C11 C33 C13 C44 a := Real.sqrt_nonneg _
  have hsh : 0 < C66 * Real.sin a ^ 2 + C44 * Real.cos a ^ 2 := by
    rcases eq_or_ne (Real.sin a) 0 with h | h
    · rw [h] at sc ⊢
      have : Real.cos a ^ 2 = 1 := by linarith
      rw [this]; linarith
    · positivity
  rw [utils.write_VTI_matrix_eval, vel_azi_VTI_eval ha.symm hden]
  rotate_left
  · simpa [vtiMatrix, orthoMatrix] using hRS.le
  · simpa [vtiMatrix, orthoMatrix] using hsh.le
  simp only [vtiMatrix, orthoMatrix, Matrix.of_apply, Matrix.cons_val]
  refine ⟨_, _, _, rfl, ?_, ?_, ?_⟩
  · apply Real.sqrt_pos.mpr
    apply mul_pos (by positivity); linarith
  · apply Real.sqrt_le_sqrt
    apply mul_le_mul_of_nonneg_left _ (by positivity)
    linarith
  · apply Real.sqrt_pos.mpr
    apply mul_pos (by positivity) hsh

/-- The repository's own VTI test medium is stable. -/
example : IsStable (vtiMatrix 40 20 10 5 15) :=
  (isStable_vtiMatrix_iff _ _ _ _ _).mpr (by norm_num)

theorem christoffel_HTI (C11 C33 C13 C44 C55 s c : ℝ) (h : s ^ 2 + c ^ 2 = 1)
    (P V : ℝ) (hP : P + V = (C33 + C55) * s ^ 2 + (C11 + C55) * c ^ 2)
    (hPV : P * V = (C11 * c ^ 2 + C55 * s ^ 2) * (C55 * c ^ 2 + C33 * s ^ 2)
      - ((C13 + C55) * s * c) ^ 2) :
    HasSpectrum (christoffel (htiMatrix C11 C33 C13 C44 C55) ![c, s, 0]) P V
      (C55 + (C44 - C55) * s ^ 2) := by
  intro x
  have hM : christoffel (htiMatrix C11 C33 C13 C44 C55) ![c, s, 0]
      = !![C11 * c ^ 2 + C55 * s ^ 2, (C13 + C55) * s * c, 0;
           (C13 + C55) * s * c, C55 * c ^ 2 + C33 * s ^ 2, 0;
           0, 0, C44 * s ^ 2 + C55 * c ^ 2] := by
    unfold christoffel
    ext i j
    simp only [Matrix.mul_apply, Fin.sum_univ_succ, Fin.sum_univ_zero, Matrix.transpose_apply]
    fin_cases i <;> fin_cases j <;> simp [dirMatrix, htiMatrix, orthoMatrix] <;> ring
  rw [hM, Matrix.det_fin_three]
  simp
  have hV : V = (C33 + C55) * s ^ 2 + (C11 + C55) * c ^ 2 - P := by linarith
  have hc : c ^ 2 = 1 - s ^ 2 := by linarith
  have e : C55 + (C44 - C55) * s ^ 2 = C44 * s ^ 2 + C55 * c ^ 2 := by rw [hc]; ring
  rw [e]
  subst hV
  linear_combination (-(C44 * s ^ 2 + C55 * c ^ 2 - x)) * hPV

/-- The same for `vel_azi_HTI`: propagation in the horizontal plane at the given azimuth from
the symmetry axis `x1`. -/
theorem C35_HTI_spectrum (C11 C33 C13 C44 C55 den az vp vsh vsv : ℝ) (hden : 0 < den)
    (hv : vel_azi_HTI (utils.write_HTI_matrix (fin C11) (fin C33) (fin C13) (fin C44) (fin C55))
      (fin den) (fin az) = (fin vp, fin vsh, fin vsv)) :
    let a := az * (Real.pi / 180)
    HasSpectrum (christoffel (htiMatrix C11 C33 C13 C44 C55) ![Real.cos a, Real.sin a, 0])
      (den * vp ^ 2) (den * vsh ^ 2) (den * vsv ^ 2) ∧ 0 ≤ vsh ∧ vsh ≤ vp ∧ 0 ≤ vsv := by
  intro a
  have hR : 0 ≤ ((C33 - C55) * Real.sin a ^ 2 - (C11 - C55) * Real.cos a ^ 2) ^ 2
    + 4 * (C13 + C55) ^ 2 * Real.sin a ^ 2 * Real.cos a ^ 2 := by positivity
  rw [utils.write_HTI_matrix_eval] at hv
  simp (disch := first | assumption | positivity) only [vel_azi_HTI, Matrix.map_apply, fl,
    Prod.mk.injEq, htiMatrix, orthoMatrix, Matrix.of_apply, Matrix.cons_val] at hv
  obtain ⟨h1, h2, h3⟩ := hv
  obtain ⟨p1, rfl⟩ := fl_sqrt_eq_fin h1
  obtain ⟨p2, rfl⟩ := fl_sqrt_eq_fin h2
  obtain ⟨p3, rfl⟩ := fl_sqrt_eq_fin h3
  have sc := Real.sin_sq_add_cos_sq a
  have ha : az * (Real.pi / 180) = a := rfl
  rw [ha] at *
  rw [Real.sq_sqrt p1, Real.sq_sqrt p2, Real.sq_sqrt p3]
  have hs := Real.sq_sqrt hR
  have hn := Real.sqrt_nonneg (((C33 - C55) * Real.sin a ^ 2 - (C11 - C55) * Real.cos a ^ 2) ^ 2
    + 4 * (C13 + C55) ^ 2 * Real.sin a ^ 2 * Real.cos a ^ 2)
  set R := Real.sqrt (((C33 - C55) * Real.sin a ^ 2 - (C11 - C55) * Real.cos a ^ 2) ^ 2
    + 4 * (C13 + C55) ^ 2 * Real.sin a ^ 2 * Real.cos a ^ 2) with hRdef
  have e2 : den * (1 / den * (C55 + (C44 - C55) * Real.sin a ^ 2))
      = C55 + (C44 - C55) * Real.sin a ^ 2 := by field
  rw [e2]
  refine ⟨christoffel_HTI _ _ _ _ _ _ _ sc _ _ ?_ ?_, Real.sqrt_nonneg _, ?_, Real.sqrt_nonneg _⟩
  · field
  · have : den * (0.5 / den * ((C33 + C55) * Real.sin a ^ 2 + (C11 + C55) * Real.cos a ^ 2 + R))
        * (den * (0.5 / den * ((C33 + C55) * Real.sin a ^ 2 + (C11 + C55) * Real.cos a ^ 2 - R)))
        = (((C33 + C55) * Real.sin a ^ 2 + (C11 + C55) * Real.cos a ^ 2) ^ 2 - R ^ 2) / 4 := by
      field
    rw [this, hs]
    ring
  · apply Real.sqrt_le_sqrt
    apply mul_le_mul_of_nonneg_left _ (by positivity)
    linarith

/-- A stable HTI medium has real, positive velocities at every azimuth.  Stability of the HTI
medium is stability of the VTI medium with axes 1 and 3 exchanged. -/
theorem C35_HTI_real (C11 C33 C13 C44 C55 den az : ℝ) (hden : 0 < den) (h55 : 0 < C55)
    (h44 : 0 < C44) (h11 : 0 < C11) (h13 : C13 ^ 2 < C11 * (C33 - C44)) :
    ∃ vp vsh vsv : ℝ,
      vel_azi_HTI (utils.write_HTI_matrix (fin C11) (fin C33) (fin C13) (fin C44) (fin C55))
        (fin den) (fin az) = (fin vp, fin vsh, fin vsv) ∧ 0 < vsh ∧ vsh ≤ vp ∧ 0 < vsv := by
  set a := az * (Real.pi / 180) with ha
  have sc := Real.sin_sq_add_cos_sq a
  have hdet := vti_det_pos h55 h44 h11 h13 sc
  have h33 : 0 < C33 := by
    have : 0 < C11 * (C33 - C44) := lt_of_le_of_lt (sq_nonneg _) h13
    have := (mul_pos_iff_of_pos_left h11).mp this
    linarith
  have hSpos : 0 < htiS C11 C33 C55 a := by
    have : htiS C11 C33 C55 a = C33 * Real.sin a ^ 2 + C11 * Real.cos a ^ 2 + C55 := by
      unfold htiS
      linear_combination C55 * sc
    rw [this]; positivity
  have hR2 : htiR C11 C33 C13 C55 a ^ 2 = htiS C11 C33 C55 a ^ 2
      - 4 * ((C33 * Real.sin a ^ 2 + C55 * Real.cos a ^ 2)
        * (C55 * Real.sin a ^ 2 + C11 * Real.cos a ^ 2)
        - ((C13 + C55) * Real.sin a * Real.cos a) ^ 2) := by
    unfold htiR htiS
    rw [Real.sq_sqrt (by positivity)]
    ring
  have hRS : htiR C11 C33 C13 C55 a < htiS C11 C33 C55 a := by
    apply lt_of_pow_lt_pow_left₀ 2 hSpos.le
    rw [hR2]; linarith
  have hRn : 0 ≤ htiR C11 C33 C13 C55 a := Real.sqrt_nonneg _
  have hsv : 0 < C55 + (C44 - C55) * Real.sin a ^ 2 := by
    have hc : 0 ≤ 1 - Real.sin a ^ 2 := by have := sq_nonneg (Real.cos a); linarith
    have e : C55 + (C44 - C55) * Real.sin a ^ 2
      = C44 * Real.sin a ^ 2 + C55 * (1 - Real.sin a ^ 2) := by ring
    rw [e]
    rcases eq_or_ne (Real.sin a) 0 with h | h
    · rw [h]; simpa using h55
    · positivity
  rw [utils.write_HTI_matrix_eval, vel_azi_HTI_eval ha.symm hden]
  rotate_left
  · simpa [htiMatrix, orthoMatrix] using hRS.le
  · simpa [htiMatrix, orthoMatrix] using hsv.le
  simp only [htiMatrix, orthoMatrix, Matrix.of_apply, Matrix.cons_val]
  refine ⟨_, _, _, rfl, ?_, ?_, ?_⟩
  · apply Real.sqrt_pos.mpr
    apply mul_pos (by positivity); linarith
  · apply Real.sqrt_le_sqrt
    apply mul_le_mul_of_nonneg_left _ (by positivity)
    linarith
  · apply Real.sqrt_pos.mpr
    apply mul_pos (by positivity) hsv

example : (0 : ℝ) < 5 ∧ (0 : ℝ) < 15 ∧ (0 : ℝ) < 20 ∧ (10 : ℝ) ^ 2 < 20 * (40 - 15) := by norm_num

/-- The same from stability itself: every HTI stiffness with positive strain energy has real,
positive velocities at every azimuth. -/
theorem C35_HTI_stable (C11 C33 C13 C44 C55 den az : ℝ) (hden : 0 < den)
    (hC : IsStable (htiMatrix C11 C33 C13 C44 C55)) :
    ∃ vp vsh vsv : ℝ,
      vel_azi_HTI (utils.write_HTI_matrix (fin C11) (fin C33) (fin C13) (fin C44) (fin C55))
        (fin den) (fin az) = (fin vp, fin vsh, fin vsv) ∧ 0 < vsh ∧ vsh ≤ vp ∧ 0 < vsv := by
  obtain ⟨h55, h44, h11, h13⟩ := (isStable_htiMatrix_iff ..).mp hC
  exact C35_HTI_real C11 C33 C13 C44 C55 den az hden h55 h44 h11 h13

example : IsStable (htiMatrix 20 40 10 15 5) :=
  (isStable_htiMatrix_iff ..).mpr (by norm_num)

end RockPhy.Props
