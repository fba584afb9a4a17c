import Verif.Lemmas.StrainedPack
import Verif.Props.Johnson
import Verif.Props.Contact

/-! # Property C97: stress-induced anisotropy derived from the contact laws -/

namespace RockPhy.Props

open Fl GM Spec Matrix

section

variable {Cn φ G v R ε ε₃ : ℝ}

/-- The common factor of the stresses: `-(-ε)^(3/2) (1-φ) n / (4 π α³)`. -/
noncomputable def stressScale (Cn φ ε₃ : ℝ) : ℝ :=
  -(-ε₃ * √(-ε₃)) * (1 - φ) * Cn / (4 * Real.pi)

theorem axialStrain_zero : axialStrain 0 0 = 0 := by
  unfold axialStrain
  ext i j
  fin_cases i <;> fin_cases j <;> simp

/-- C97: both strains applied together. -/
theorem C97_together (hR : 0 < R) (hε : ε < 0) (hε₃ : ε₃ < 0) :
    let a := √(ε / ε₃)
    let T := stressScale Cn φ ε₃
    let s11 := T * (-(8 * G / (2 - v)) * (contactI 2 a - contactI 4 a)
      + 4 * G / (1 - v) * (a ^ 2 * contactI 0 a + (1 - a ^ 2) * contactI 2 a - contactI 4 a))
    let s33 := 2 * T * (8 * G / (2 - v) * (contactI 2 a - contactI 4 a)
      + 4 * G / (1 - v) * (a ^ 2 * contactI 2 a + contactI 4 a))
    pathStress Cn φ G v R [0, axialStrain ε ε₃] = Matrix.diagonal ![s11, s11, s33] := by
  intro a T s11 s33
  refine axial_stress (K := fun z => √(a ^ 2 + z ^ 2)) hR hε hε₃ (by fun_prop) (by simp) ?_ rfl rfl
  intro n hn j
  have h0 : 0 ≤ -(ε + ε₃ * n 2 ^ 2) := by nlinarith [sq_nonneg (n 2)]
  simp only [pathForce, Pi.add_apply, Pi.zero_apply, add_zero]
  rw [← axialStrain_zero, stepForce_axial hn hR]
  simp only [zero_mul, add_zero, sub_zero, neg_zero]
  rw [rootI_zero h0]
  have e := root_axial hε hε₃ (n 2)
  rw [e]
  ring

/-- C97: the axial strain first, then the hydrostatic strain. -/
theorem C97_uni_iso (hR : 0 < R) (hε : ε < 0) (hε₃ : ε₃ < 0) :
    let a := √(ε / ε₃)
    let T := stressScale Cn φ ε₃
    let s11 := T * (-(8 * G / (2 - v)) * (1 / 12)
      + 4 * G / (1 - v) * (a ^ 2 * contactI 0 a + (1 - a ^ 2) * contactI 2 a - contactI 4 a))
    let s33 := 2 * T * (8 * G / (2 - v) * (1 / 12)
      + 4 * G / (1 - v) * (a ^ 2 * contactI 2 a + contactI 4 a))
    pathStress Cn φ G v R [0, axialStrain 0 ε₃, axialStrain ε ε₃] = Matrix.diagonal ![s11, s11, s33] := by
  intro a T s11 s33
  have hi : heightI (fun z => |z|) 2 - heightI (fun z => |z|) 4 = 1 / 12 := by
    have e : ∀ k, heightI (fun z => |z|) k = ∫ z in (0 : ℝ)..1, z ^ (k + 1) := by
      intro k
      unfold heightI
      apply intervalIntegral.integral_congr
      intro z hz
      rw [Set.uIcc_of_le zero_le_one] at hz
      simp only [abs_of_nonneg hz.1, pow_succ]
    rw [e, e]
    norm_num
  have h := axial_stress (Cn := Cn) (φ := φ) (G := G) (v := v) (K := fun z => |z|) (T := T) (a := a)
    (F := pathForce G v R [0, axialStrain 0 ε₃, axialStrain ε ε₃]) hR hε hε₃ (by fun_prop) (by simp)
    ?_ rfl rfl
  · rw [hi] at h
    exact h
  intro n hn j
  have h0 : 0 ≤ -(ε + ε₃ * n 2 ^ 2) := by nlinarith [sq_nonneg (n 2)]
  have h1 : 0 ≤ -(ε₃ * n 2 ^ 2) := by nlinarith [sq_nonneg (n 2)]
  simp only [pathForce, Pi.add_apply, add_zero]
  rw [← axialStrain_zero, stepForce_axial hn hR, stepForce_axial hn hR]
  simp only [zero_mul, add_zero, sub_zero, neg_zero, zero_add, sub_self, mul_zero]
  have e1 := rootI_mul (p := -(ε₃ * n 2 ^ 2)) (q := -ε) h1 (by linarith)
  have e2 : √(-(ε₃ * n 2 ^ 2)) = √(-ε₃) * |n 2| := by
    rw [← neg_mul, Real.sqrt_mul (by linarith), Real.sqrt_sq_eq_abs]
  have e3 : -(ε₃ * n 2 ^ 2) + -ε = -(ε + ε₃ * n 2 ^ 2) := by ring
  rw [e3] at e1
  rw [rootI_zero h1]
  generalize √(-(ε + ε₃ * n 2 ^ 2)) = W at *
  generalize rootI (-(ε₃ * n 2 ^ 2)) (-ε) = J at *
  rw [e2] at e1 ⊢
  linear_combination (-(R ^ 2 * (4 * G / (1 - v)) * n j)) * e1

/-- C97: the hydrostatic strain first, then the axial strain. -/
theorem C97_iso_uni (hR : 0 < R) (hε : ε < 0) (hε₃ : ε₃ < 0) :
    let a := √(ε / ε₃)
    let T := stressScale Cn φ ε₃
    let Q := a ^ 2 * contactI 0 a + (1 - a ^ 2) * contactI 2 a - contactI 4 a
    let s11 := T * (-(8 * G / (2 - v)) * (Q - 2 * a ^ 3 / 3) + 4 * G / (1 - v) * Q)
    let s33 := 2 * T * (8 * G / (2 - v) * (Q - 2 * a ^ 3 / 3)
      + 4 * G / (1 - v) * (a ^ 2 * contactI 2 a + contactI 4 a))
    pathStress Cn φ G v R [0, axialStrain ε 0, axialStrain ε ε₃] = Matrix.diagonal ![s11, s11, s33] := by
  intro a T Q s11 s33
  have hL : 0 < -ε₃ * √(-ε₃) := mul_pos (by linarith) (Real.sqrt_pos.mpr (by linarith))
  have ha2 := neg_iso_eq hε hε₃
  have ha1 := root_iso (ε := ε) hε₃
  let K : ℝ → ℝ := fun z => 3 / 2 * (√(-ε₃))⁻¹ * rootI (-ε) (-(ε₃ * z ^ 2))
  have hK : Continuous K := by
    have := continuous_rootI (-ε) (q := fun z => -(ε₃ * z ^ 2)) (by fun_prop)
    exact this.const_mul _
  -- the tangential forces times the squared height
  have hz : ∀ z : ℝ, z ^ 2 * K z = (a ^ 2 + z ^ 2) * √(a ^ 2 + z ^ 2) - a ^ 3 := by
    intro z
    have h0 : 0 ≤ -(ε + ε₃ * z ^ 2) := by nlinarith [sq_nonneg z]
    have e := rootI_mul (p := -ε) (q := -(ε₃ * z ^ 2)) (by linarith) (by linarith)
    rw [show -ε + -(ε₃ * z ^ 2) = -(ε + ε₃ * z ^ 2) by ring, root_axial hε hε₃, ha1] at e
    have e2 : -(ε + ε₃ * z ^ 2) = -ε₃ * (a ^ 2 + z ^ 2) := by linear_combination ha2
    rw [e2, ha2] at e
    have hs : √(-ε₃) ≠ 0 := (Real.sqrt_pos.mpr (by linarith)).ne'
    have h3 : -ε₃ ≠ 0 := by linarith
    simp only [K]
    change -(ε₃ * z ^ 2) * rootI (-ε₃ * a ^ 2) (-(ε₃ * z ^ 2))
      = 2 / 3 * (-ε₃ * (a ^ 2 + z ^ 2) * (√(-ε₃) * √(a ^ 2 + z ^ 2)) - -ε₃ * a ^ 2 * (√(-ε₃) * a)) at e
    have e4 : -ε = -ε₃ * a ^ 2 := ha2
    rw [e4]
    generalize rootI (-ε₃ * a ^ 2) (-(ε₃ * z ^ 2)) = J at *
    generalize √(a ^ 2 + z ^ 2) = W at *
    generalize √(-ε₃) = S at *
    have h5 : z ^ 2 * J = 2 / 3 * S * ((a ^ 2 + z ^ 2) * W - a ^ 3) := by
      apply mul_left_cancel₀ h3
      linear_combination e
    calc z ^ 2 * (3 / 2 * S⁻¹ * J) = 3 / 2 * S⁻¹ * (z ^ 2 * J) := by ring
      _ = _ := by rw [h5]; field
  have hi : heightI K 2 - heightI K 4 = Q - 2 * a ^ 3 / 3 := by
    have e : ∀ k, heightI K (k + 2) = a ^ 2 * contactI k a + contactI (k + 2) a - a ^ 3 / (k + 1) := by
      intro k
      rw [← heightI_shift K k 2]
      simp only [hz]
      unfold heightI contactI
      have : ∀ z : ℝ, z ^ k * ((a ^ 2 + z ^ 2) * √(a ^ 2 + z ^ 2) - a ^ 3)
          = (a ^ 2 * (z ^ k * √(a ^ 2 + z ^ 2)) + z ^ (k + 2) * √(a ^ 2 + z ^ 2)) - a ^ 3 * z ^ k :=
        fun z => by ring
      simp only [this]
      rw [intervalIntegral.integral_sub (Continuous.intervalIntegrable (by fun_prop) _ _)
        (Continuous.intervalIntegrable (by fun_prop) _ _),
        intervalIntegral.integral_add (Continuous.intervalIntegrable (by fun_prop) _ _)
        (Continuous.intervalIntegrable (by fun_prop) _ _), intervalIntegral.integral_const_mul,
        intervalIntegral.integral_const_mul, integral_pow]
      simp
      rfl
    rw [e 0, e 2]
    simp only [Q]
    norm_num
    ring
  have h := axial_stress (Cn := Cn) (φ := φ) (G := G) (v := v) (K := K) (T := T) (a := a)
    (F := pathForce G v R [0, axialStrain ε 0, axialStrain ε ε₃]) hR hε hε₃ hK
    (by simp [K]) ?_ rfl rfl
  · rw [hi] at h
    exact h
  intro n hn j
  have h0 : 0 ≤ -(ε + ε₃ * n 2 ^ 2) := by nlinarith [sq_nonneg (n 2)]
  simp only [pathForce, Pi.add_apply, add_zero]
  rw [← axialStrain_zero, stepForce_axial hn hR, stepForce_axial hn hR]
  simp only [zero_mul, add_zero, sub_zero, neg_zero, zero_add, sub_self, mul_zero]
  have e1 := rootI_mul (p := -ε) (q := -(ε₃ * n 2 ^ 2)) (by linarith) (by linarith)
  rw [show -ε + -(ε₃ * n 2 ^ 2) = -(ε + ε₃ * n 2 ^ 2) by ring] at e1
  rw [rootI_zero (by linarith : 0 ≤ -ε)]
  have hs : √(-ε₃) ≠ 0 := (Real.sqrt_pos.mpr (by linarith)).ne'
  simp only [K]
  have e5 : √(-ε₃) * (√(-ε₃))⁻¹ = 1 := mul_inv_cancel₀ hs
  generalize √(-(ε + ε₃ * n 2 ^ 2)) = W at *
  generalize rootI (-ε) (-(ε₃ * n 2 ^ 2)) = J at *
  generalize √(-ε₃) = S at *
  linear_combination (-(R ^ 2 * (4 * G / (1 - v)) * n j)) * e1
    + (-(R ^ 2 * (8 * G / (2 - v)) * ε₃ * J * n 2 * ((if j = 2 then 1 else 0) - n 2 * n j))) * e5

/-- The stress that a further strain `e` adds. -/
theorem tangent_stress (hR : 0 < R) (hε : ε < 0) (hε₃ : ε₃ < 0) (e : Strain) (i j : Fin 3) :
    packStress Cn φ R (tangentForce G v R (axialStrain ε ε₃) e) i j
      = 3 * Cn * (1 - φ) * √(-ε₃) / (4 * Real.pi)
        * ((∑ k, ∑ l, (4 * G / (1 - v) - 8 * G / (2 - v)) * e k l * sphereAvg (fun n =>
            √(√(ε / ε₃) ^ 2 + n 2 ^ 2) * (n i * n j * n k * n l)))
          + ∑ k, 8 * G / (2 - v) * e j k * sphereAvg (fun n => √(√(ε / ε₃) ^ 2 + n 2 ^ 2) * (n i * n k))) := by
  have hp := Real.pi_ne_zero
  have hR0 := hR.ne'
  show contactDensity Cn φ R * sphereAvg (fun n => 2 * R * n i
    * tangentForce G v R (axialStrain ε ε₃) e n j) = _
  have h : sphereAvg (fun n => 2 * R * n i * tangentForce G v R (axialStrain ε ε₃) e n j)
      = sphereAvg fun n => (∑ kl : Fin 3 × Fin 3, 2 * R ^ 3 * √(-ε₃) * (4 * G / (1 - v) - 8 * G / (2 - v))
          * e kl.1 kl.2 * (√(√(ε / ε₃) ^ 2 + n 2 ^ 2) * (n i * n j * n kl.1 * n kl.2)))
        + ∑ k : Fin 3, 2 * R ^ 3 * √(-ε₃) * (8 * G / (2 - v)) * e j k
          * (√(√(ε / ε₃) ^ 2 + n 2 ^ 2) * (n i * n k)) := by
    apply sphereAvg_congr
    intro n hn
    rw [Fintype.sum_prod_type]
    unfold tangentForce contactForce
    simp only [contactRadius_axial hn hR, root_axial hε hε₃, hertzStiffness, mindlinStiffness,
      Pi.add_apply, Pi.smul_apply, Pi.sub_apply, smul_eq_mul, Matrix.mulVec, dotProduct, Fin.sum_univ_three]
    generalize √(√(ε / ε₃) ^ 2 + n 2 ^ 2) = w
    ring
  rw [h, sphereAvg_add (by fun_prop) (by fun_prop), sphereAvg_sum _ _ (fun _ => by fun_prop),
    sphereAvg_sum _ _ (fun _ => by fun_prop), Fintype.sum_prod_type]
  simp only [sphereAvg_smul]
  rw [mul_add, mul_add, Finset.mul_sum, Finset.mul_sum, Finset.mul_sum, Finset.mul_sum]
  congr 1
  · refine Finset.sum_congr rfl fun k _ => ?_
    rw [Finset.mul_sum, Finset.mul_sum]
    refine Finset.sum_congr rfl fun l _ => ?_
    unfold contactDensity
    field
  · refine Finset.sum_congr rfl fun k _ => ?_
    unfold contactDensity
    field

end

section

variable {K0 G0 n φ ε ε₃ R : ℝ}

/-- Second and fourth moments with weight integrals `I0`, `I2`, `I4`. -/
noncomputable def mom2 (I0 I2 : ℝ) (i j : Fin 3) : ℝ :=
  if i = j then (if i = 2 then I2 else (I0 - I2) / 2) else 0
noncomputable def mom4 (I0 I2 I4 : ℝ) (i j k l : Fin 3) : ℝ :=
  if occ 0 [i, j, k, l] = 4 ∨ occ 1 [i, j, k, l] = 4 then 3 / 8 * (I0 - 2 * I2 + I4)
  else if occ 2 [i, j, k, l] = 4 then I4
  else if occ 0 [i, j, k, l] % 2 = 0 ∧ occ 1 [i, j, k, l] % 2 = 0 then
    (if occ 2 [i, j, k, l] = 2 then (I2 - I4) / 2 else 1 / 8 * (I0 - 2 * I2 + I4))
  else 0

theorem moments_voigt {P Cn Ct I0 I2 I4 : ℝ} {e s : Strain} (he : e.IsSymm)
    (hs : ∀ i j, s i j = P * ((∑ k, ∑ l, (Cn - Ct) * e k l * mom4 I0 I2 I4 i j k l)
      + ∑ k, Ct * e j k * mom2 I0 I2 i k)) :
    voigtStress ((1 / 2 : ℝ) • (s + sᵀ)) = (vtiMatrix
      (P * (Ct / 2 * (I0 - I2) + 3 / 8 * (Cn - Ct) * (I0 - 2 * I2 + I4)))
      (P * (Ct * I2 + (Cn - Ct) * I4)) (P * ((Cn - Ct) / 2 * (I2 - I4)))
      (P * (Ct / 8 * (I0 + I2) + (Cn - Ct) / 2 * (I2 - I4)))
      (P * (Ct / 4 * (I0 - I2) + (Cn - Ct) / 8 * (I0 - 2 * I2 + I4)))).mulVec (voigt e) := by
  have s10 : e 1 0 = e 0 1 := he.apply 0 1
  have s20 : e 2 0 = e 0 2 := he.apply 0 2
  have s21 : e 2 1 = e 1 2 := he.apply 1 2
  simp only [Fin.sum_univ_three] at hs
  have h00 := hs 0 0
  have h11 := hs 1 1
  have h22 := hs 2 2
  have h01 := hs 0 1
  have h10 := hs 1 0
  have h02 := hs 0 2
  have h20 := hs 2 0
  have h12 := hs 1 2
  have h21 := hs 2 1
  simp [mom2, mom4, occ, s10, s20, s21] at h00 h11 h22 h01 h10 h02 h20 h12 h21
  funext q
  fin_cases q
  · simp [voigtStress, voigt, vtiMatrix, orthoMatrix, Matrix.mulVec, dotProduct, Fin.sum_univ_six, h00]; ring
  · simp [voigtStress, voigt, vtiMatrix, orthoMatrix, Matrix.mulVec, dotProduct, Fin.sum_univ_six, h11]; ring
  · simp [voigtStress, voigt, vtiMatrix, orthoMatrix, Matrix.mulVec, dotProduct, Fin.sum_univ_six, h22]; ring
  · simp [voigtStress, voigt, vtiMatrix, orthoMatrix, Matrix.mulVec, dotProduct, Fin.sum_univ_six, h12, h21]; ring
  · simp [voigtStress, voigt, vtiMatrix, orthoMatrix, Matrix.mulVec, dotProduct, Fin.sum_univ_six, h02, h20]; ring
  · simp [voigtStress, voigt, vtiMatrix, orthoMatrix, Matrix.mulVec, dotProduct, Fin.sum_univ_six, h01, h10]; ring

/-- C97: the stiffness of the pack. -/
theorem C97_stiffness (h : Compressed K0 G0 n φ ε ε₃) (hR : 0 < R) :
    let a := √(ε / ε₃)
    let g := jGam K0 G0 n φ ε
    let B := jB K0 G0
    let C := jC K0 G0
    TangentStiffness n φ G0 (poisson K0 G0) R (axialStrain ε ε₃)
      (vtiMatrix (njC11 g B C a) (njC33 g B C a) (njC13 g C a) (njC44 g B C a) (njC66 g B C a)) := by
  intro a g B C e he
  have hw : Continuous fun z : ℝ => √(√(ε / ε₃) ^ 2 + z ^ 2) := by fun_prop
  have ew : ∀ z : ℝ, √(√(ε / ε₃) ^ 2 + (-z) ^ 2) = √(√(ε / ε₃) ^ 2 + z ^ 2) := by simp
  have m2 := wmoment2 hw ew
  have m4 := wmoment4 hw ew
  have hI : ∀ k, heightI (fun z : ℝ => √(√(ε / ε₃) ^ 2 + z ^ 2)) k = contactI k a := fun k => rfl
  simp only [hI] at m2 m4
  have hs := root_iso (ε := ε) h.axial
  have ha : a ≠ 0 := (Real.sqrt_pos.mpr h.ratio).ne'
  have cn := (jCn_pos h).ne'
  have ct := (jCt_pos h).ne'
  have hpi := Real.pi_ne_zero
  have gB : g / a * B = 3 * n * (1 - φ) * √(-ε₃) / (4 * Real.pi) * (jCt K0 G0 / 4) := by
    simp only [g, B, jGam, jB]
    rw [hs]
    change 3 / 32 * jCn K0 G0 * jCt K0 G0 * n * (1 - φ) * (√(-ε₃) * a) / a * (2 / (Real.pi * jCn K0 G0)) = _
    field
  have gC : g / a * C = 3 * n * (1 - φ) * √(-ε₃) / (4 * Real.pi) * ((jCn K0 G0 - jCt K0 G0) / 2) := by
    simp only [g, C, jGam, jC]
    rw [hs]
    change 3 / 32 * jCn K0 G0 * jCt K0 G0 * n * (1 - φ) * (√(-ε₃) * a) / a
      * (4 / Real.pi * (1 / jCt K0 G0 - 1 / jCn K0 G0)) = _
    field
  have vn : 4 * G0 / (1 - poisson K0 G0) = jCn K0 G0 := by rw [poisson_nu]; rfl
  have vt : 8 * G0 / (2 - poisson K0 G0) = jCt K0 G0 := by rw [poisson_nu]; rfl
  have key := tangent_stress (Cn := n) (φ := φ) (G := G0) (v := poisson K0 G0) hR h.iso h.axial e
  rw [vn, vt] at key
  simp only [m2, m4] at key
  generalize 3 * n * (1 - φ) * √(-ε₃) / (4 * Real.pi) = P at *
  have c11 : njC11 g B C a = P * (jCt K0 G0 / 2 * (contactI 0 a - contactI 2 a)
      + 3 / 8 * (jCn K0 G0 - jCt K0 G0) * (contactI 0 a - 2 * contactI 2 a + contactI 4 a)) := by
    unfold njC11
    linear_combination (2 * (contactI 0 a - contactI 2 a)) * gB
      + 3 / 4 * (contactI 0 a - 2 * contactI 2 a + contactI 4 a) * gC
  have c33 : njC33 g B C a = P * (jCt K0 G0 * contactI 2 a + (jCn K0 G0 - jCt K0 G0) * contactI 4 a) := by
    unfold njC33
    linear_combination (4 * contactI 2 a) * gB + 2 * contactI 4 a * gC
  have c13 : njC13 g C a = P * ((jCn K0 G0 - jCt K0 G0) / 2 * (contactI 2 a - contactI 4 a)) := by
    unfold njC13
    linear_combination (contactI 2 a - contactI 4 a) * gC
  have c44 : njC44 g B C a = P * (jCt K0 G0 / 8 * (contactI 0 a + contactI 2 a)
      + (jCn K0 G0 - jCt K0 G0) / 2 * (contactI 2 a - contactI 4 a)) := by
    unfold njC44
    linear_combination (contactI 0 a + contactI 2 a) / 2 * gB + (contactI 2 a - contactI 4 a) * gC
  have c66 : njC66 g B C a = P * (jCt K0 G0 / 4 * (contactI 0 a - contactI 2 a)
      + (jCn K0 G0 - jCt K0 G0) / 8 * (contactI 0 a - 2 * contactI 2 a + contactI 4 a)) := by
    unfold njC66
    linear_combination (contactI 0 a - contactI 2 a) * gB
      + (contactI 0 a - 2 * contactI 2 a + contactI 4 a) / 4 * gC
  rw [c11, c33, c13, c44, c66]
  exact moments_voigt he key

/-! ## What the code returns -/

theorem diag00 (x y z : ℝ) : Matrix.diagonal ![x, y, z] 0 0 = x := by simp
theorem diag22 (x y z : ℝ) : Matrix.diagonal ![x, y, z] 2 2 = z := by simp

theorem jT_eq (h : Compressed K0 G0 n φ ε ε₃) : jT n φ ε √(ε / ε₃) = stressScale n φ ε₃ := by
  have hε : 0 < -ε := by linarith [h.iso]
  have ha : √(ε / ε₃) ≠ 0 := (Real.sqrt_pos.mpr h.ratio).ne'
  have h2 := neg_iso_eq h.iso h.axial
  have h1 := root_iso (ε := ε) h.axial
  have hpi := Real.pi_ne_zero
  unfold jT stressScale
  rw [pow_three_halves hε, h1, h2]
  generalize √(ε / ε₃) = a at *
  generalize √(-ε₃) = S at *
  field

theorem stressScale_neg (h : Compressed K0 G0 n φ ε ε₃) : stressScale n φ ε₃ < 0 := by
  have h1 : 0 < -ε₃ := by linarith [h.axial]
  have h2 : 0 < 1 - φ := by linarith [h.por]
  have h3 := h.coord
  have hpi := Real.pi_pos
  have p : 0 < -ε₃ * √(-ε₃) * (1 - φ) * n / (4 * Real.pi) := by positivity
  unfold stressScale
  rw [neg_mul, neg_mul, neg_div]
  linarith

theorem jI2_sub {a : ℝ} (ha : 0 < a) : jI2 a = contactI 2 a - a ^ 2 / 4 * (jI0 a - contactI 0 a) := by
  rw [contactI_two ha]; unfold jI2; ring

theorem jI4_sub {a : ℝ} (ha : 0 < a) : jI4 a = contactI 4 a + a ^ 4 / 8 * (jI0 a - contactI 0 a) := by
  rw [contactI_four ha]; unfold jI4; rw [jI2_sub ha]; ring

theorem jQ_sub {a : ℝ} (ha : 0 < a) :
    jQ a = a ^ 2 * contactI 0 a + (1 - a ^ 2) * contactI 2 a - contactI 4 a
      + (3 * a ^ 2 / 4 + a ^ 4 / 8) * (jI0 a - contactI 0 a) := by
  unfold jQ; rw [jI2_sub ha, jI4_sub ha]; ring

theorem one_iff (h : Compressed K0 G0 n φ ε ε₃) : jI0 √(ε / ε₃) - contactI 0 √(ε / ε₃) = 0 ↔ ε = ε₃ := by
  rw [sub_eq_zero, jI0_eq_iff (Real.sqrt_pos.mpr h.ratio), Real.sqrt_eq_one, div_eq_one_iff_eq h.axial.ne]

theorem strained_moduli (K0 G0 : ℝ) : 4 * G0 / (1 - poisson K0 G0) = jCn K0 G0 ∧
    8 * G0 / (2 - poisson K0 G0) = jCt K0 G0 := by
  rw [poisson_nu]
  exact ⟨rfl, rfl⟩

/-- C97: with both strains applied together, either stress the code returns is that of the pack
exactly when the two strains are equal. -/
theorem C97_code_together (h : Compressed K0 G0 n φ ε ε₃) (hR : 0 < R) :
    ∃ (M : Mat6 Fl) (s33 s11 : ℝ),
      johnson (fin K0) (fin G0) (fin n) (fin φ) (fin ε) (fin ε₃) "together" = .ok (M, fin s33, fin s11) ∧
      (s33 = pathStress n φ G0 (poisson K0 G0) R [0, axialStrain ε ε₃] 2 2 ↔ ε = ε₃) ∧
      (s11 = pathStress n φ G0 (poisson K0 G0) R [0, axialStrain ε ε₃] 0 0 ↔ ε = ε₃) := by
  refine ⟨_, _, _, (johnson_eval h "together").trans (by dsimp only; exact if_pos rfl), ?_⟩
  rw [C97_together hR h.iso h.axial, jT_eq h, (strained_moduli K0 G0).1, (strained_moduli K0 G0).2, ← one_iff h]
  have ha : 0 < √(ε / ε₃) := Real.sqrt_pos.mpr h.ratio
  have cn := jCn_pos h
  have ct := jCt_pos h
  have hT := (stressScale_neg h).ne
  generalize √(ε / ε₃) = a at *
  rw [jQ_sub ha, jI2_sub ha, jI4_sub ha]
  generalize jI0 a - contactI 0 a = d at *
  generalize stressScale n φ ε₃ = T at *
  generalize jCn K0 G0 = Cn at *
  generalize jCt K0 G0 = Ct at *
  simp only [diag22, diag00]
  constructor
  · have p : Ct * (a ^ 2 / 4 + a ^ 4 / 8) + Cn * (a ^ 4 / 8) ≠ 0 := by positivity
    constructor
    · intro e
      have : T * ((Ct * (a ^ 2 / 4 + a ^ 4 / 8) + Cn * (a ^ 4 / 8)) * d) = 0 := by linear_combination -e / 2
      exact (mul_eq_zero.mp ((mul_eq_zero.mp this).resolve_left hT)).resolve_left p
    · rintro rfl; ring
  · have p : Ct * (a ^ 2 / 4 + a ^ 4 / 8) + Cn * (3 * a ^ 2 / 4 + a ^ 4 / 8) ≠ 0 := by positivity
    constructor
    · intro e
      have : T * ((Ct * (a ^ 2 / 4 + a ^ 4 / 8) + Cn * (3 * a ^ 2 / 4 + a ^ 4 / 8)) * d) = 0 := by
        linear_combination e
      exact (mul_eq_zero.mp ((mul_eq_zero.mp this).resolve_left hT)).resolve_left p
    · rintro rfl; ring

/-- C97: the same with the axial strain first. -/
theorem C97_code_uni_iso (h : Compressed K0 G0 n φ ε ε₃) (hR : 0 < R) :
    ∃ (M : Mat6 Fl) (s33 s11 : ℝ),
      johnson (fin K0) (fin G0) (fin n) (fin φ) (fin ε) (fin ε₃) "uni_iso" = .ok (M, fin s33, fin s11) ∧
      (s33 = pathStress n φ G0 (poisson K0 G0) R [0, axialStrain 0 ε₃, axialStrain ε ε₃] 2 2 ↔ ε = ε₃) ∧
      (s11 = pathStress n φ G0 (poisson K0 G0) R [0, axialStrain 0 ε₃, axialStrain ε ε₃] 0 0 ↔ ε = ε₃) := by
  refine ⟨_, _, _, (johnson_eval h "uni_iso").trans (by
    dsimp only; rw [if_neg (by decide), if_pos rfl]), ?_⟩
  rw [C97_uni_iso hR h.iso h.axial, jT_eq h, (strained_moduli K0 G0).1, (strained_moduli K0 G0).2, ← one_iff h]
  have ha : 0 < √(ε / ε₃) := Real.sqrt_pos.mpr h.ratio
  have cn := jCn_pos h
  have hT := (stressScale_neg h).ne
  generalize √(ε / ε₃) = a at *
  rw [jQ_sub ha, jI2_sub ha, jI4_sub ha]
  generalize jI0 a - contactI 0 a = d at *
  generalize stressScale n φ ε₃ = T at *
  generalize jCn K0 G0 = Cn at *
  generalize jCt K0 G0 = Ct at *
  simp only [diag22, diag00]
  constructor
  · have p : Cn * (a ^ 4 / 8) ≠ 0 := by positivity
    constructor
    · intro e
      have : T * ((Cn * (a ^ 4 / 8)) * d) = 0 := by linear_combination -e / 2
      exact (mul_eq_zero.mp ((mul_eq_zero.mp this).resolve_left hT)).resolve_left p
    · rintro rfl; ring
  · have p : Cn * (3 * a ^ 2 / 4 + a ^ 4 / 8) ≠ 0 := by positivity
    constructor
    · intro e
      have : T * ((Cn * (3 * a ^ 2 / 4 + a ^ 4 / 8)) * d) = 0 := by
        linear_combination e
      exact (mul_eq_zero.mp ((mul_eq_zero.mp this).resolve_left hT)).resolve_left p
    · rintro rfl; ring

/-- The integral `Q` of the path with the hydrostatic strain first is positive. -/
theorem contactQ_pos {a : ℝ} (ha : 0 < a) :
    0 < a ^ 2 * contactI 0 a + (1 - a ^ 2) * contactI 2 a - contactI 4 a := by
  have e : a ^ 2 * contactI 0 a + (1 - a ^ 2) * contactI 2 a - contactI 4 a
      = ∫ x in (0 : ℝ)..1, (1 - x ^ 2) * ((a ^ 2 + x ^ 2) * √(a ^ 2 + x ^ 2)) := by
    unfold contactI
    rw [← intervalIntegral.integral_const_mul, ← intervalIntegral.integral_const_mul,
      ← intervalIntegral.integral_add (Continuous.intervalIntegrable (by fun_prop) _ _)
      (Continuous.intervalIntegrable (by fun_prop) _ _),
      ← intervalIntegral.integral_sub (Continuous.intervalIntegrable (by fun_prop) _ _)
      (Continuous.intervalIntegrable (by fun_prop) _ _)]
    apply intervalIntegral.integral_congr
    intro x _
    simp only
    ring
  rw [e]
  apply intervalIntegral.intervalIntegral_pos_of_pos_on
    (Continuous.intervalIntegrable (by fun_prop) _ _) ?_ one_pos
  intro x hx
  have h1 : 0 < 1 - x ^ 2 := by nlinarith [hx.1, hx.2]
  have h2 := sqrt_pos' ha x
  positivity

/-- C97: with the hydrostatic strain first, the vertical stress is right for equal strains, and the
horizontal stress is never that of the pack (grains of nonnegative Poisson ratio). -/
theorem C97_code_iso_uni (h : Compressed K0 G0 n φ ε ε₃) (hR : 0 < R) :
    ∃ (M : Mat6 Fl) (s33 s11 : ℝ),
      johnson (fin K0) (fin G0) (fin n) (fin φ) (fin ε) (fin ε₃) "iso-uni" = .ok (M, fin s33, fin s11) ∧
      (ε = ε₃ → s33 = pathStress n φ G0 (poisson K0 G0) R [0, axialStrain ε 0, axialStrain ε ε₃] 2 2) ∧
      (0 ≤ nu K0 G0 →
        s11 ≠ pathStress n φ G0 (poisson K0 G0) R [0, axialStrain ε 0, axialStrain ε ε₃] 0 0) := by
  refine ⟨_, _, _, (johnson_eval h "iso-uni").trans (by
    dsimp only; rw [if_neg (by decide), if_neg (by decide), if_pos rfl]), ?_⟩
  rw [C97_iso_uni hR h.iso h.axial, jT_eq h, (strained_moduli K0 G0).1, (strained_moduli K0 G0).2, ← one_iff h]
  have ha : 0 < √(ε / ε₃) := Real.sqrt_pos.mpr h.ratio
  have cn := jCn_pos h
  have ct := jCt_pos h
  have hle : 0 ≤ nu K0 G0 → jCt K0 G0 ≤ jCn K0 G0 := by
    intro hv
    have hv1 := nu_lt h.bulk h.shear
    have hG := h.shear
    unfold jCt jCn
    rw [div_le_div_iff₀ (by linarith) (by linarith)]
    nlinarith [mul_nonneg hG.le hv]
  have hT := stressScale_neg h
  generalize √(ε / ε₃) = a at *
  have q := jQ_pos ha
  have q' := contactQ_pos ha
  constructor
  · intro d
    rw [jQ_sub ha, jI2_sub ha, jI4_sub ha, d]
    simp only [diag22]
    ring
  · intro hv
    have hle := hle hv
    simp only [diag00]
    generalize jQ a = Q at *
    generalize a ^ 2 * contactI 0 a + (1 - a ^ 2) * contactI 2 a - contactI 4 a = P at *
    generalize stressScale n φ ε₃ = T at *
    generalize jCn K0 G0 = Cn at *
    generalize jCt K0 G0 = Ct at *
    intro e
    have e1 : T * ((Cn - Ct) * P + Ct * Q + Ct * Cn * Q) = 0 := by linear_combination -e
    have p : 0 < (Cn - Ct) * P + Ct * Q + Ct * Cn * Q := by
      have : 0 ≤ (Cn - Ct) * P := mul_nonneg (by linarith) q'.le
      positivity
    exact (mul_ne_zero hT.ne p.ne') e1

/-- C97: for equal strains the returned `C33`, `C13`, `C44`, `C66` are those of the pack. -/
theorem C97_code_stiffness (h : Compressed K0 G0 n φ ε ε) (hR : 0 < R) (M : Mat6 Fl) (x y : Fl)
    (path : String)
    (hj : johnson (fin K0) (fin G0) (fin n) (fin φ) (fin ε) (fin ε) path = .ok (M, x, y)) :
    ∃ c11 c33 c13 c44 c66 : ℝ,
      TangentStiffness n φ G0 (poisson K0 G0) R (axialStrain ε ε) (vtiMatrix c11 c33 c13 c44 c66) ∧
      M 2 2 = fin c33 ∧ M 0 2 = fin c13 ∧ M 3 3 = fin c44 ∧ M 5 5 = fin c66 := by
  have e1 : √(ε / ε) = 1 := by rw [div_self h.iso.ne, Real.sqrt_one]
  have := C97_stiffness h hR
  rw [e1] at this
  exact ⟨_, _, _, _, _, this, C47_equal_strains _ _ _ _ _ h M x y path hj⟩

theorem njC11_integral {g B C a : ℝ} (ha : 0 < a) :
    njC11 g B C a = g * ∫ x in (0 : ℝ)..1,
      (2 * B * (1 - x ^ 2) + 3 / 4 * C * (1 - x ^ 2) ^ 2) * √(1 + (1 / a ^ 2) * x ^ 2) := by
  have e : ∀ x : ℝ, √(a ^ 2 + x ^ 2) = a * √(1 + (1 / a ^ 2) * x ^ 2) := by
    intro x
    rw [show a ^ 2 + x ^ 2 = a ^ 2 * (1 + (1 / a ^ 2) * x ^ 2) by field, Real.sqrt_mul (by positivity),
      Real.sqrt_sq ha.le]
  have hc : Continuous fun x : ℝ => √(1 + (1 / a ^ 2) * x ^ 2) := by fun_prop
  have i : ∀ k, contactI k a = a * ∫ x in (0 : ℝ)..1, x ^ k * √(1 + (1 / a ^ 2) * x ^ 2) := by
    intro k
    unfold contactI
    rw [← intervalIntegral.integral_const_mul]
    simp only [e]
    congr 1
    funext x
    ring
  have split : ∫ x in (0 : ℝ)..1,
      (2 * B * (1 - x ^ 2) + 3 / 4 * C * (1 - x ^ 2) ^ 2) * √(1 + (1 / a ^ 2) * x ^ 2)
      = (2 * B + 3 / 4 * C) * (∫ x in (0 : ℝ)..1, x ^ 0 * √(1 + (1 / a ^ 2) * x ^ 2))
        + -(2 * B + 3 / 2 * C) * (∫ x in (0 : ℝ)..1, x ^ 2 * √(1 + (1 / a ^ 2) * x ^ 2))
        + 3 / 4 * C * ∫ x in (0 : ℝ)..1, x ^ 4 * √(1 + (1 / a ^ 2) * x ^ 2) := by
    rw [← intervalIntegral.integral_const_mul, ← intervalIntegral.integral_const_mul,
      ← intervalIntegral.integral_const_mul,
      ← intervalIntegral.integral_add (Continuous.intervalIntegrable (by fun_prop) _ _)
      (Continuous.intervalIntegrable (by fun_prop) _ _),
      ← intervalIntegral.integral_add (Continuous.intervalIntegrable (by fun_prop) _ _)
      (Continuous.intervalIntegrable (by fun_prop) _ _)]
    congr 1
    funext x
    ring
  rw [split]
  unfold njC11
  rw [i 0, i 2, i 4]
  generalize (∫ x in (0 : ℝ)..1, x ^ 0 * √(1 + (1 / a ^ 2) * x ^ 2)) = y0
  generalize (∫ x in (0 : ℝ)..1, x ^ 2 * √(1 + (1 / a ^ 2) * x ^ 2)) = y2
  generalize (∫ x in (0 : ℝ)..1, x ^ 4 * √(1 + (1 / a ^ 2) * x ^ 2)) = y4
  field

theorem sqrt_one_add_bounds {u : ℝ} (hu : 0 ≤ u) :
    1 + u / 2 - u ^ 2 / 8 ≤ √(1 + u) ∧ √(1 + u) ≤ 1 + u / 2 := by
  constructor
  · by_cases hp : 0 ≤ 1 + u / 2 - u ^ 2 / 8
    · rw [Real.le_sqrt hp (by linarith)]
      have h3 : 0 ≤ u ^ 3 := by positivity
      have h8 : u ≤ 8 := by nlinarith
      nlinarith [mul_nonneg h3 (sub_nonneg.mpr h8)]
    · exact (not_le.mp hp).le.trans (Real.sqrt_nonneg _)
  · rw [Real.sqrt_le_left (by linarith)]
    nlinarith [sq_nonneg u]

/-- C97: the formula the code has for `C11`, with the ratio of the strains the other way up and
without the factor `1/α`, is the first order in that ratio of the stiffness of the pack: it exceeds
it by at most a second-order amount.  (The code's own `C11` is not close to it: `C47_C11_violated`.) -/
theorem C97_C11_meant (h : Compressed K0 G0 n φ ε ε₃) (hν : 0 ≤ nu K0 G0) (hR : 0 < R) :
    ∃ c11 c33 c13 c44 c66 : ℝ,
      TangentStiffness n φ G0 (poisson K0 G0) R (axialStrain ε ε₃) (vtiMatrix c11 c33 c13 c44 c66) ∧
      let g := jGam K0 G0 n φ ε
      let B := jB K0 G0
      let C := jC K0 G0
      let meant := g * (4 * B / 3 + 2 * C / 5 + ε₃ / ε * (2 * B / 15 + C / 35))
      meant - g * (ε₃ / ε) ^ 2 * (B / 70 + C / 420) ≤ c11 ∧ c11 ≤ meant := by
  refine ⟨_, _, _, _, _, C97_stiffness h hR, ?_⟩
  dsimp only
  have ha : 0 < √(ε / ε₃) := Real.sqrt_pos.mpr h.ratio
  have hB : 0 ≤ jB K0 G0 := by
    have := jCn_pos h
    have := Real.pi_pos
    unfold jB; positivity
  have hC : 0 ≤ jC K0 G0 := by
    have hv := nu_lt h.bulk h.shear
    have hG := h.shear
    have hpi := Real.pi_pos
    have : jC K0 G0 = nu K0 G0 / (2 * Real.pi * G0) := by
      have h1 : 1 - nu K0 G0 ≠ 0 := by linarith
      have h2 : 2 - nu K0 G0 ≠ 0 := by linarith
      unfold jC jCt jCn
      generalize nu K0 G0 = v at *
      field
    rw [this]; positivity
  have hg : 0 ≤ jGam K0 G0 n φ ε := by
    have := jCn_pos h
    have := jCt_pos h
    have := h.coord
    have : 0 < 1 - φ := by linarith [h.por]
    unfold jGam; positivity
  have et : 1 / √(ε / ε₃) ^ 2 = ε₃ / ε := by rw [Real.sq_sqrt h.ratio.le, one_div_div]
  rw [njC11_integral ha, et]
  have ht : 0 ≤ ε₃ / ε := (div_pos_of_neg_of_neg h.axial h.iso).le
  generalize ε₃ / ε = t at *
  generalize jGam K0 G0 n φ ε = g at *
  generalize jB K0 G0 = B at *
  generalize jC K0 G0 = C at *
  have up : ∫ x in (0 : ℝ)..1, (2 * B * (1 - x ^ 2) + 3 / 4 * C * (1 - x ^ 2) ^ 2) * √(1 + t * x ^ 2)
      ≤ ∫ x in (0 : ℝ)..1, (2 * B * (1 - x ^ 2) + 3 / 4 * C * (1 - x ^ 2) ^ 2) * (1 + t * x ^ 2 / 2) := by
    apply intervalIntegral.integral_mono_on zero_le_one
      (Continuous.intervalIntegrable (by fun_prop) _ _)
      (Continuous.intervalIntegrable (by fun_prop) _ _)
    intro x hx
    have h1 : 0 ≤ 1 - x ^ 2 := by nlinarith [hx.1, hx.2]
    exact mul_le_mul_of_nonneg_left (sqrt_one_add_bounds (by positivity)).2 (by positivity)
  have lo : ∫ x in (0 : ℝ)..1, (2 * B * (1 - x ^ 2) + 3 / 4 * C * (1 - x ^ 2) ^ 2)
        * (1 + t * x ^ 2 / 2 - (t * x ^ 2) ^ 2 / 8)
      ≤ ∫ x in (0 : ℝ)..1, (2 * B * (1 - x ^ 2) + 3 / 4 * C * (1 - x ^ 2) ^ 2) * √(1 + t * x ^ 2) := by
    apply intervalIntegral.integral_mono_on zero_le_one
      (Continuous.intervalIntegrable (by fun_prop) _ _)
      (Continuous.intervalIntegrable (by fun_prop) _ _)
    intro x hx
    have h1 : 0 ≤ 1 - x ^ 2 := by nlinarith [hx.1, hx.2]
    exact mul_le_mul_of_nonneg_left (sqrt_one_add_bounds (by positivity)).1 (by positivity)
  have poly : ∀ s : ℝ, ∫ x in (0 : ℝ)..1, (2 * B * (1 - x ^ 2) + 3 / 4 * C * (1 - x ^ 2) ^ 2)
        * (1 + t * x ^ 2 / 2 - s * x ^ 4)
      = 4 * B / 3 + 2 * C / 5 + t * (2 * B / 15 + C / 35) - s * (4 * B / 35 + 2 * C / 105) := by
    intro s
    let F : ℝ → ℝ := fun x => (2 * B + 3 / 4 * C) * x
      + (-(2 * B + 3 / 2 * C) + t / 2 * (2 * B + 3 / 4 * C)) * x ^ 3 / 3
      + (3 / 4 * C - t / 2 * (2 * B + 3 / 2 * C) - s * (2 * B + 3 / 4 * C)) * x ^ 5 / 5
      + (t / 2 * (3 / 4 * C) + s * (2 * B + 3 / 2 * C)) * x ^ 7 / 7
      - s * (3 / 4 * C) * x ^ 9 / 9
    have hF : ∀ x ∈ Set.uIcc (0 : ℝ) 1, HasDerivAt F ((2 * B * (1 - x ^ 2) + 3 / 4 * C * (1 - x ^ 2) ^ 2)
        * (1 + t * x ^ 2 / 2 - s * x ^ 4)) x := by
      intro x _
      have d : ∀ k : ℕ, HasDerivAt (fun x : ℝ => x ^ k) (k * x ^ (k - 1)) x := fun k => hasDerivAt_pow k x
      refine ((((((hasDerivAt_id' x).const_mul _).add (((d 3).const_mul _).div_const 3)).add
        (((d 5).const_mul _).div_const 5)).add (((d 7).const_mul _).div_const 7)).sub
        (((d 9).const_mul _).div_const 9)).congr_deriv ?_
      norm_num
      ring
    rw [intervalIntegral.integral_eq_sub_of_hasDerivAt hF (Continuous.intervalIntegrable (by fun_prop) _ _)]
    simp only [F]
    norm_num
    ring
  constructor
  · have e : ∀ x : ℝ, t * x ^ 2 / 2 - (t * x ^ 2) ^ 2 / 8 = t * x ^ 2 / 2 - t ^ 2 / 8 * x ^ 4 := fun x => by ring
    simp only [add_sub_assoc, e] at lo
    simp only [← add_sub_assoc] at lo
    rw [poly] at lo
    have := mul_le_mul_of_nonneg_left lo hg
    refine le_trans (le_of_eq ?_) this
    ring
  · have p := poly 0
    simp only [zero_mul, sub_zero] at p
    rw [p] at up
    exact mul_le_mul_of_nonneg_left up hg

example : Compressed 36.6 45 9 0.36 (-0.001) (-0.001) ∧ 0 ≤ nu 36.6 45 :=
  ⟨⟨by norm_num, by norm_num, by norm_num, by norm_num, by norm_num, by norm_num⟩,
    by unfold nu; norm_num⟩

end

end RockPhy.Props
