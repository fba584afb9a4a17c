import Verif.Props.Biot

/-! # Property C31: the Geertsma-Smit approximation of the fast velocity

Geertsma and Smit replace the fast root of Biot's quadratic by the sum of its two roots.  The
difference is therefore the squared slow velocity, exactly, and the approximation never
underestimates the fast velocity. -/

namespace RockPhy.Props

open Fl Fluid Spec

variable {Kd G K0 Kf ρ0 ρf φ a : ℝ}

/-- The squared Geertsma-Smit velocity is the sum of the squared fast and slow Biot velocities. -/
theorem C31_geertsma_smit (h : BiotRock Kd G K0 Kf ρ0 ρf φ a) :
    ∃ vf vs v w : ℝ,
      Biot_HF (fin Kd) (fin G) (fin K0) (fin Kf) (fin ρ0) (fin ρf) (fin φ) (fin a)
        = (fin vf, fin vs, fin v) ∧
      Geertsma_Smit_HF (fin Kd) (fin G) (fin K0) (fin Kf) (fin ρ0) (fin ρf) (fin φ) (fin a)
        = (fin w, fin v) ∧
      0 ≤ w ∧ w ^ 2 = vf ^ 2 + vs ^ 2 ∧ vf ≤ w := by
  obtain ⟨vf, vs, v, T, e, hs, hle, hv, hT, hdet⟩ := C31_Biot_HF_roots h
  have eS := C31_shear_agrees h
  rw [e] at eS
  have ha : 0 < a := by linarith [h.tort]
  have h0 := GassmannRock.mineral_pos h.toGassmannRock
  have hf := h.fluid_pos
  have hp := h.por_pos
  have hp1 := h.por_lt
  have hρf := h.fluid
  have hd := h.den_pos
  have hG := h.shear
  have hKd := h.dry_nonneg
  have hvs : 0 < ρ0 * (1 - φ) + φ * ρf * (1 - a⁻¹) := by
    have p1 : 0 < ρ0 * (1 - φ) := mul_pos h.solid (by linarith [h.por_lt])
    have p2 : 0 ≤ φ * ρf * (1 - a⁻¹) :=
      mul_nonneg (mul_nonneg h.por_pos.le h.fluid.le)
        (by linarith [inv_le_one_of_one_le₀ h.tort])
    linarith
  have hM : 0 < (1 - Kd / K0 - φ) / K0 + φ / Kf := by
    have : (1 - Kd / K0 - φ) / K0 + φ / Kf = (1 - φ - Kd / K0 + φ * K0 / Kf) / K0 := by field
    rw [this]; positivity
  -- coefficients of the quadratic
  have hq1 := hdet 1
  have hq2 := hdet (-1)
  have hq0 := hdet 0
  have hT3 : T = biotRho11 ρ0 ρf φ a * biotRho22 ρf φ a - biotRho12 ρf φ a ^ 2 := by
    unfold biotDet at hq0 hq1 hq2
    linear_combination (2 * hq0 - hq1 - hq2) / 2
  have hΔ : T * (vf ^ 2 + vs ^ 2) = biotP Kd G K0 Kf φ * biotRho22 ρf φ a
      + biotR Kd K0 Kf φ * biotRho11 ρ0 ρf φ a - 2 * biotQ Kd K0 Kf φ * biotRho12 ρf φ a := by
    unfold biotDet at hq0 hq1 hq2
    linear_combination (hq1 - hq2) / 2
  have key : 1 / (ρ0 * (1 - φ) + φ * ρf * (1 - a⁻¹)) * (Kd + 4 * G / 3
      + (φ * ((1 - φ) * ρ0 + φ * ρf) / (ρf * a)
        + (1 - Kd / K0) * (1 - Kd / K0 - 2 * φ / a)) / ((1 - Kd / K0 - φ) / K0 + φ / Kf))
      = vf ^ 2 + vs ^ 2 := by
    have hT' : T = a * φ * ρf * (ρ0 * (1 - φ) + φ * ρf * (1 - a⁻¹)) := by
      rw [hT3]; unfold biotRho11 biotRho22 biotRho12; field
    have : vf ^ 2 + vs ^ 2 = (biotP Kd G K0 Kf φ * biotRho22 ρf φ a
      + biotR Kd K0 Kf φ * biotRho11 ρ0 ρf φ a - 2 * biotQ Kd K0 Kf φ * biotRho12 ρf φ a) / T := by
      rw [← hΔ]; field
    rw [this, hT']
    have eM : (1 - Kd / K0 - φ) / K0 + φ / Kf = (1 - φ - Kd / K0 + φ * K0 / Kf) / K0 := by field
    rw [eM]
    unfold biotP biotQ biotR biotRho11 biotRho22 biotRho12
    generalize hm : ρ0 * (1 - φ) + φ * ρf * (1 - a⁻¹) = m at *
    have ek : Kd = K0 * (Kd / K0) := by field
    generalize Kd / K0 = k at *
    generalize φ * K0 / Kf = t at *
    subst ek
    generalize hD : 1 - φ - k + t = D at *
    have : t = D - (1 - φ - k) := by linarith
    subst this
    field
  have hw : 0 ≤ 1 / (ρ0 * (1 - φ) + φ * ρf * (1 - a⁻¹)) * (Kd + 4 * G / 3
      + (φ * ((1 - φ) * ρ0 + φ * ρf) / (ρf * a)
        + (1 - Kd / K0) * (1 - Kd / K0 - 2 * φ / a)) / ((1 - Kd / K0 - φ) / K0 + φ / Kf)) := by
    rw [key]; positivity
  have e1 : (Geertsma_Smit_HF (fin Kd) (fin G) (fin K0) (fin Kf) (fin ρ0) (fin ρf) (fin φ)
      (fin a)).1 = fin √(vf ^ 2 + vs ^ 2) := by
    rw [← key]
    unfold Geertsma_Smit_HF
    dsimp only
    fl_eval []
  refine ⟨vf, vs, v, √(vf ^ 2 + vs ^ 2), e, Prod.ext e1 eS.symm, Real.sqrt_nonneg _,
    Real.sq_sqrt (by positivity), ?_⟩
  apply Real.le_sqrt_of_sq_le
  nlinarith [sq_nonneg vs]

example : ∃ vf vs v w : ℝ,
    Biot_HF (fin 12) (fin 9) (fin 37) (fin 2.3) (fin 2.65) (fin 1.2) (fin 0.2) (fin 2)
        = (fin vf, fin vs, fin v) ∧
      Geertsma_Smit_HF (fin 12) (fin 9) (fin 37) (fin 2.3) (fin 2.65) (fin 1.2) (fin 0.2) (fin 2)
        = (fin w, fin v) ∧ 0 ≤ w ∧ w ^ 2 = vf ^ 2 + vs ^ 2 ∧ vf ≤ w :=
  C31_geertsma_smit
    { dry_nonneg := by norm_num, dry_lt := by norm_num, fluid_pos := by norm_num,
      fluid_lt := by norm_num, por_pos := by norm_num, shear := by norm_num, por_lt := by norm_num,
      solid := by norm_num, fluid := by norm_num, tort := by norm_num }

end RockPhy.Props
