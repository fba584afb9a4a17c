import Verif.Spec.StrainedPack
import Verif.Spec.Johnson
import Verif.Lemmas.SphereWeighted

/-! Stress and stiffness of a pack under hydrostatic and axial strain. -/

namespace RockPhy

open Spec Real Matrix

/-- Contact forces that depend on the height of the contact direction only. -/
theorem packStress_axial (Cn φ R : ℝ) {N K : ℝ → ℝ} (hN : Continuous N) (hK : Continuous K)
    (eN : ∀ z, N (-z) = N z) (eK : ∀ z, K (-z) = K z) {F : (Fin 3 → ℝ) → Fin 3 → ℝ}
    (hF : ∀ n : Fin 3 → ℝ, n 0 ^ 2 + n 1 ^ 2 + n 2 ^ 2 = 1 → ∀ j, F n j
      = N (n 2) * n j + K (n 2) * n 2 * ((if j = 2 then 1 else 0) - n 2 * n j)) :
    packStress Cn φ R F
      = Matrix.diagonal ![contactDensity Cn φ R * R * (heightI N 0 - heightI N 2 - heightI K 2 + heightI K 4),
          contactDensity Cn φ R * R * (heightI N 0 - heightI N 2 - heightI K 2 + heightI K 4),
          contactDensity Cn φ R * (2 * R) * (heightI N 2 + heightI K 2 - heightI K 4)] := by
  ext i j
  show contactDensity Cn φ R * sphereAvg (fun n => 2 * R * n i * F n j) = _
  let W : ℝ → ℝ := fun z => N z + -1 * (z ^ 2 * K z)
  have hW : Continuous W := by fun_prop
  have eW : ∀ z, W (-z) = W z := fun z => by simp only [W, eN, eK, neg_sq]
  have iW : ∀ k, heightI W k = heightI N k - heightI K (k + 2) := by
    intro k
    rw [heightI_add (w := N) (w' := fun z => -1 * (z ^ 2 * K z)) hN (by fun_prop),
      heightI_smul, heightI_shift]
    ring
  have e : sphereAvg (fun n => 2 * R * n i * F n j)
      = sphereAvg fun n => 2 * R * (W (n 2) * (n i * n j))
        + 2 * R * (if j = 2 then 1 else 0) * (K (n 2) * (n 2 * n i)) := by
    apply sphereAvg_congr
    intro n hn
    rw [hF n hn j]
    simp only [W]
    ring
  rw [e, sphereAvg_add (by fun_prop) (by fun_prop), sphereAvg_smul, sphereAvg_smul,
    wmoment2 hW eW, wmoment2 hK eK, iW, iW]
  fin_cases i <;> fin_cases j <;> simp <;> ring

/-- `∫₀¹ √(p + s q) ds`. -/
noncomputable def rootI (p q : ℝ) : ℝ := ∫ s in (0 : ℝ)..1, √(p + s * q)

theorem continuous_rootI (p : ℝ) {q : ℝ → ℝ} (hq : Continuous q) : Continuous fun z => rootI p (q z) := by
  unfold rootI
  apply intervalIntegral.continuous_parametric_intervalIntegral_of_continuous'
  fun_prop

theorem rootI_mul {p q : ℝ} (hp : 0 ≤ p) (hq : 0 ≤ p + q) :
    q * rootI p q = 2 / 3 * ((p + q) * √(p + q) - p * √p) := by
  have h32 : ∀ x : ℝ, 0 ≤ x → x ^ ((3 : ℝ) / 2) = x * √x := by
    intro x hx
    rw [Real.sqrt_eq_rpow, show (3 : ℝ) / 2 = 1 + 1 / 2 by norm_num,
      Real.rpow_add_of_nonneg hx (by norm_num) (by norm_num), Real.rpow_one]
  have hd : ∀ s ∈ Set.uIcc (0 : ℝ) 1,
      HasDerivAt (fun s : ℝ => 2 / 3 * (p + s * q) ^ ((3 : ℝ) / 2)) (q * √(p + s * q)) s := by
    intro s _
    have h1 : HasDerivAt (fun s : ℝ => p + s * q) q s := by
      simpa using ((hasDerivAt_id s).mul_const q).const_add p
    have h2 := (h1.rpow_const (p := (3 : ℝ) / 2) (Or.inr (by norm_num))).const_mul (2 / 3)
    refine h2.congr_deriv ?_
    rw [Real.sqrt_eq_rpow, show (3 : ℝ) / 2 - 1 = 1 / 2 by norm_num]
    ring
  have hi := intervalIntegral.integral_eq_sub_of_hasDerivAt hd
    (Continuous.intervalIntegrable (by fun_prop) _ _)
  unfold rootI
  rw [← intervalIntegral.integral_const_mul, hi]
  simp only [one_mul, zero_mul, add_zero]
  rw [h32 _ hq, h32 _ hp]
  ring

theorem rootI_zero {q : ℝ} (hq : 0 ≤ q) : rootI 0 q = 2 / 3 * √q := by
  rcases hq.eq_or_lt with rfl | h
  · simp [rootI]
  · have := rootI_mul (p := 0) (q := q) le_rfl (by linarith)
    simp only [zero_add, zero_mul, sub_zero] at this
    have h2 : q * rootI 0 q = q * (2 / 3 * √q) := by rw [this]; ring
    exact mul_left_cancel₀ h.ne' h2

section step

variable {G v R : ℝ} {n : Fin 3 → ℝ} (hn : n 0 ^ 2 + n 1 ^ 2 + n 2 ^ 2 = 1)

theorem axial_mulVec (x y : ℝ) (n : Fin 3 → ℝ) (j : Fin 3) :
    (axialStrain x y).mulVec n j = x * n j + y * n 2 * (if j = 2 then 1 else 0) := by
  unfold axialStrain
  rw [Matrix.mulVec_diagonal]
  fin_cases j <;> simp
  ring

include hn

theorem axial_quad (x y : ℝ) : n ⬝ᵥ R • (axialStrain x y).mulVec n = R * (x + y * n 2 ^ 2) := by
  simp only [dotProduct, Fin.sum_univ_three, Pi.smul_apply, smul_eq_mul, axial_mulVec]
  simp
  linear_combination (R * x) * hn

theorem contactRadius_axial (hR : 0 < R) (x y : ℝ) :
    contactRadius R (axialStrain x y) n = R * √(-(x + y * n 2 ^ 2)) := by
  unfold contactRadius
  rw [axial_quad hn, show R * -(R * (x + y * n 2 ^ 2)) = R ^ 2 * -(x + y * n 2 ^ 2) by ring,
    Real.sqrt_mul (sq_nonneg R), Real.sqrt_sq hR.le]

theorem tangentForce_axial (hR : 0 < R) (x y x' y' : ℝ) (j : Fin 3) :
    tangentForce G v R (axialStrain x y) (axialStrain x' y') n j
      = R ^ 2 * (4 * G / (1 - v) * ((x' + y' * n 2 ^ 2) * n j)
        + 8 * G / (2 - v) * (y' * n 2 * ((if j = 2 then 1 else 0) - n 2 * n j)))
        * √(-(x + y * n 2 ^ 2)) := by
  unfold tangentForce contactForce
  simp only [contactRadius_axial hn hR, hertzStiffness, mindlinStiffness, axial_quad hn, Pi.add_apply,
    Pi.sub_apply, Pi.smul_apply, smul_eq_mul, axial_mulVec]
  generalize √(-(x + y * n 2 ^ 2)) = b
  ring

theorem stepForce_axial (hR : 0 < R) (x y x' y' : ℝ) (j : Fin 3) :
    stepForce G v R (axialStrain x y) (axialStrain x' y') n j
      = R ^ 2 * (4 * G / (1 - v) * ((x' - x + (y' - y) * n 2 ^ 2) * n j)
        + 8 * G / (2 - v) * ((y' - y) * n 2 * ((if j = 2 then 1 else 0) - n 2 * n j)))
        * rootI (-(x + y * n 2 ^ 2)) (-(x' - x + (y' - y) * n 2 ^ 2)) := by
  have e1 : axialStrain x' y' - axialStrain x y = axialStrain (x' - x) (y' - y) := by
    unfold axialStrain
    rw [Matrix.diagonal_sub]
    congr 1
    ext k
    fin_cases k <;> simp
    ring
  have e2 : ∀ s : ℝ, axialStrain x y + s • axialStrain (x' - x) (y' - y)
      = axialStrain (x + s * (x' - x)) (y + s * (y' - y)) := by
    intro s
    unfold axialStrain
    rw [← Matrix.diagonal_smul, Matrix.diagonal_add]
    congr 1
    ext k
    fin_cases k <;> simp
    ring
  unfold stepForce rootI
  simp only [e1, e2, tangentForce_axial hn hR]
  rw [intervalIntegral.integral_const_mul]
  congr 2
  ext s
  congr 1
  ring

end step

section stress

variable {Cn φ G v R ε ε₃ : ℝ}

/-- `√(-(ε + ε₃ z²))` in terms of the ratio of the strains. -/
theorem root_axial (hε : ε < 0) (hε₃ : ε₃ < 0) (z : ℝ) :
    √(-(ε + ε₃ * z ^ 2)) = √(-ε₃) * √(√(ε / ε₃) ^ 2 + z ^ 2) := by
  rw [Real.sq_sqrt (div_pos_of_neg_of_neg hε hε₃).le, ← Real.sqrt_mul (by linarith)]
  congr 1
  have := hε₃.ne
  field

theorem neg_iso_eq (hε : ε < 0) (hε₃ : ε₃ < 0) : -ε = -ε₃ * √(ε / ε₃) ^ 2 := by
  rw [Real.sq_sqrt (div_pos_of_neg_of_neg hε hε₃).le]
  have := hε₃.ne
  field

theorem root_iso (hε₃ : ε₃ < 0) : √(-ε) = √(-ε₃) * √(ε / ε₃) := by
  rw [← Real.sqrt_mul (by linarith)]
  congr 1
  have := hε₃.ne
  field

/-- The stress once the tangential forces are known. -/
theorem axial_stress (hR : 0 < R) (hε : ε < 0) (hε₃ : ε₃ < 0) {K : ℝ → ℝ} (hK : Continuous K)
    (eK : ∀ z, K (-z) = K z) {F : (Fin 3 → ℝ) → Fin 3 → ℝ}
    (hF : ∀ n : Fin 3 → ℝ, n 0 ^ 2 + n 1 ^ 2 + n 2 ^ 2 = 1 → ∀ j, F n j
      = R ^ 2 * (4 * G / (1 - v) * (-(2 / 3) * (-(ε + ε₃ * n 2 ^ 2) * √(-(ε + ε₃ * n 2 ^ 2))) * n j)
        + 8 * G / (2 - v) * (-(2 / 3) * (-ε₃ * √(-ε₃)) * K (n 2) * n 2 * ((if j = 2 then 1 else 0) - n 2 * n j))))
    {T a : ℝ} (hT : T = -(-ε₃ * √(-ε₃)) * (1 - φ) * Cn / (4 * π)) (ha : a = √(ε / ε₃)) :
    packStress Cn φ R F = Matrix.diagonal
      ![T * (-(8 * G / (2 - v)) * (heightI K 2 - heightI K 4)
          + 4 * G / (1 - v) * (a ^ 2 * contactI 0 a + (1 - a ^ 2) * contactI 2 a - contactI 4 a)),
        T * (-(8 * G / (2 - v)) * (heightI K 2 - heightI K 4)
          + 4 * G / (1 - v) * (a ^ 2 * contactI 0 a + (1 - a ^ 2) * contactI 2 a - contactI 4 a)),
        2 * T * (8 * G / (2 - v) * (heightI K 2 - heightI K 4)
          + 4 * G / (1 - v) * (a ^ 2 * contactI 2 a + contactI 4 a))] := by
  have hpi := Real.pi_ne_zero
  set c : ℝ := R ^ 2 * (-(2 / 3) * (-ε₃ * √(-ε₃))) with hc
  let w : ℝ → ℝ := fun z => √(a ^ 2 + z ^ 2)
  have hw : Continuous w := by fun_prop
  have hW : Continuous fun z => a ^ 2 * w z + z ^ 2 * w z := by fun_prop
  have h := packStress_axial Cn φ R
    (N := fun z => c * (4 * G / (1 - v)) * (a ^ 2 * w z + z ^ 2 * w z))
    (K := fun z => c * (8 * G / (2 - v)) * K z) (by fun_prop) (by fun_prop)
    (fun z => by simp only [w, neg_sq]) (fun z => by simp only [eK]) (F := F) (by
      intro n hn j
      rw [hF n hn j, root_axial hε hε₃, ← ha]
      have e : -(ε + ε₃ * n 2 ^ 2) = -ε₃ * (a ^ 2 + n 2 ^ 2) := by
        have := neg_iso_eq hε hε₃
        rw [← ha] at this
        linear_combination this
      rw [e, hc]
      ring)
  rw [h]
  have i1 : ∀ k, heightI (fun z => c * (4 * G / (1 - v)) * (a ^ 2 * w z + z ^ 2 * w z)) k
      = c * (4 * G / (1 - v)) * (a ^ 2 * contactI k a + contactI (k + 2) a) := by
    intro k
    rw [heightI_smul, heightI_add (by fun_prop) (by fun_prop), heightI_smul, heightI_shift]
    rfl
  simp only [i1, heightI_smul]
  have hR0 := hR.ne'
  have d : contactDensity Cn φ R * R * c = T := by
    rw [hT, hc]
    unfold contactDensity
    field
  congr 1
  ext k
  fin_cases k
  · simp
    linear_combination ((-(8 * G / (2 - v)) * (heightI K 2 - heightI K 4)
          + 4 * G / (1 - v) * (a ^ 2 * contactI 0 a + (1 - a ^ 2) * contactI 2 a - contactI 4 a))) * d
  · simp
    linear_combination ((-(8 * G / (2 - v)) * (heightI K 2 - heightI K 4)
          + 4 * G / (1 - v) * (a ^ 2 * contactI 0 a + (1 - a ^ 2) * contactI 2 a - contactI 4 a))) * d
  · simp
    linear_combination (2 * (8 * G / (2 - v) * (heightI K 2 - heightI K 4)
          + 4 * G / (1 - v) * (a ^ 2 * contactI 2 a + contactI 4 a))) * d

end stress

end RockPhy
