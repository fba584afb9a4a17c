import Verif.Props.Fluid

/-! # Property C31 (Biot high-frequency limits) -/

namespace RockPhy.Props

open Fl Fluid Spec

/-- An admissible fluid-filled rock: Gassmann's conditions, porosity below one, non-negative
shear modulus, positive densities and tortuosity at least one. -/
structure BiotRock (Kd G K0 Kf ρ0 ρf φ a : ℝ) : Prop extends GassmannRock Kd K0 Kf φ where
  shear : 0 ≤ G
  por_lt : φ < 1
  solid : 0 < ρ0
  fluid : 0 < ρf
  tort : 1 ≤ a

variable {Kd G K0 Kf ρ0 ρf φ a : ℝ}

theorem BiotRock.den_pos (h : BiotRock Kd G K0 Kf ρ0 ρf φ a) :
    0 < 1 - φ - Kd / K0 + φ * K0 / Kf := by
  have h0 := GassmannRock.mineral_pos h.toGassmannRock
  have h1 : Kd / K0 < 1 := (div_lt_one h0).mpr h.dry_lt
  have h2 : φ ≤ φ * K0 / Kf := by
    rw [le_div_iff₀ h.fluid_pos]
    exact mul_le_mul_of_nonneg_left h.fluid_lt.le h.por_pos.le
  linarith

/-- Mass matrix determinant. -/
theorem BiotRock.mass_pos (h : BiotRock Kd G K0 Kf ρ0 ρf φ a) :
    0 < biotRho11 ρ0 ρf φ a * biotRho22 ρf φ a - biotRho12 ρf φ a ^ 2 := by
  have e : biotRho11 ρ0 ρf φ a * biotRho22 ρf φ a - biotRho12 ρf φ a ^ 2
      = φ * ρf * (a * ((1 - φ) * ρ0) + (a - 1) * φ * ρf) := by
    unfold biotRho11 biotRho22 biotRho12; ring
  rw [e]
  have := h.por_pos; have := h.fluid; have := h.solid; have := h.tort; have := h.por_lt
  have : 0 < 1 - φ := by linarith
  have : 0 ≤ a - 1 := by linarith
  have : 0 < a := by linarith
  positivity

theorem BiotRock.R_pos (h : BiotRock Kd G K0 Kf ρ0 ρf φ a) : 0 < biotR Kd K0 Kf φ := by
  have := h.den_pos; have := h.por_pos
  have h0 := GassmannRock.mineral_pos h.toGassmannRock
  unfold biotR; positivity

theorem BiotRock.rho22_pos (h : BiotRock Kd G K0 Kf ρ0 ρf φ a) : 0 < biotRho22 ρf φ a := by
  have := h.por_pos; have := h.fluid; have := h.tort
  have : 0 < a := by linarith
  unfold biotRho22; positivity

theorem BiotRock.rho11_pos (h : BiotRock Kd G K0 Kf ρ0 ρf φ a) : 0 < biotRho11 ρ0 ρf φ a := by
  have := h.por_pos; have := h.fluid; have := h.tort; have := h.solid; have := h.por_lt
  have e : biotRho11 ρ0 ρf φ a = (1 - φ) * ρ0 + (a - 1) * φ * ρf := by unfold biotRho11; ring
  have : 0 < 1 - φ := by linarith
  have : 0 ≤ a - 1 := by linarith
  rw [e]; positivity

/-- Stiffness matrix determinant. -/
theorem BiotRock.stiff_nonneg (h : BiotRock Kd G K0 Kf ρ0 ρf φ a) :
    0 ≤ biotP Kd G K0 Kf φ * biotR Kd K0 Kf φ - biotQ Kd K0 Kf φ ^ 2 := by
  have hd := h.den_pos
  have h0 := GassmannRock.mineral_pos h.toGassmannRock
  have hf := h.fluid_pos
  have e : biotP Kd G K0 Kf φ * biotR Kd K0 Kf φ - biotQ Kd K0 Kf φ ^ 2
      = φ ^ 2 * K0 * Kd / (1 - φ - Kd / K0 + φ * K0 / Kf) + 4 * G / 3 * biotR Kd K0 Kf φ := by
    unfold biotP biotQ biotR
    have ek : Kd = K0 * (Kd / K0) := by field
    generalize Kd / K0 = k at *
    generalize φ * K0 / Kf = t at *
    subst ek
    generalize hD : 1 - φ - k + t = D at *
    have : t = D - (1 - φ - k) := by linarith
    subst this
    field
  rw [e]
  have := h.R_pos; have := h.shear; have := h.dry_nonneg
  positivity

/-- The three velocities in closed form. -/
theorem Biot_HF_eval (h : BiotRock Kd G K0 Kf ρ0 ρf φ a) :
    ∃ Δ T3 T4 : ℝ, 0 < T3 ∧ 0 ≤ T4 ∧ 0 ≤ Δ ∧ 0 ≤ Δ ^ 2 - 4 * T3 * T4 ∧
      (∀ x, biotDet Kd G K0 Kf ρ0 ρf φ a x = T3 * x ^ 2 - Δ * x + T4) ∧
      Biot_HF (fin Kd) (fin G) (fin K0) (fin Kf) (fin ρ0) (fin ρf) (fin φ) (fin a)
        = (fin √((Δ + √(Δ ^ 2 - 4 * T3 * T4)) / (2 * T3)),
           fin √((Δ - √(Δ ^ 2 - 4 * T3 * T4)) / (2 * T3)),
           fin √(G / ((1 - φ) * ρ0 + φ * ρf - φ * ρf * a⁻¹))) := by
  have hd := h.den_pos
  have h0 := GassmannRock.mineral_pos h.toGassmannRock
  have hf := h.fluid_pos
  have hm := h.mass_pos
  have hst := h.stiff_nonneg
  have hR := h.R_pos
  have h22 := h.rho22_pos
  have h11 := h.rho11_pos
  have ha : 0 < a := by linarith [h.tort]
  have hG := h.shear
  have hvs : 0 < (1 - φ) * ρ0 + φ * ρf - φ * ρf * a⁻¹ := by
    have p1 : 0 < (1 - φ) * ρ0 := mul_pos (by linarith [h.por_lt]) h.solid
    have p2 : φ * ρf * a⁻¹ ≤ φ * ρf :=
      mul_le_of_le_one_right (mul_nonneg h.por_pos.le h.fluid.le) (inv_le_one_of_one_le₀ h.tort)
    linarith
  -- trace of the product is non-negative
  have hΔ : 0 ≤ biotP Kd G K0 Kf φ * biotRho22 ρf φ a + biotR Kd K0 Kf φ * biotRho11 ρ0 ρf φ a
      - 2 * biotQ Kd K0 Kf φ * biotRho12 ρf φ a := by
    generalize biotP Kd G K0 Kf φ = P at *
    generalize biotQ Kd K0 Kf φ = Q at *
    generalize biotR Kd K0 Kf φ = R at *
    generalize biotRho11 ρ0 ρf φ a = r11 at *
    generalize biotRho12 ρf φ a = r12 at *
    generalize biotRho22 ρf φ a = r22 at *
    have k : 0 ≤ R * r22 * (P * r22 + R * r11 - 2 * Q * r12) := by
      have : R * r22 * (P * r22 + R * r11 - 2 * Q * r12)
        = r22 ^ 2 * (P * R - Q ^ 2) + (Q * r22 - R * r12) ^ 2 + R ^ 2 * (r11 * r22 - r12 ^ 2) := by
        ring
      rw [this]; positivity
    exact nonneg_of_mul_nonneg_right k (by positivity)
  have hdisc : 0 ≤ (biotP Kd G K0 Kf φ * biotRho22 ρf φ a + biotR Kd K0 Kf φ * biotRho11 ρ0 ρf φ a
      - 2 * biotQ Kd K0 Kf φ * biotRho12 ρf φ a) ^ 2
      - 4 * (biotRho11 ρ0 ρf φ a * biotRho22 ρf φ a - biotRho12 ρf φ a ^ 2)
        * (biotP Kd G K0 Kf φ * biotR Kd K0 Kf φ - biotQ Kd K0 Kf φ ^ 2) := by
    generalize biotP Kd G K0 Kf φ = P at *
    generalize biotQ Kd K0 Kf φ = Q at *
    generalize biotR Kd K0 Kf φ = R at *
    generalize biotRho11 ρ0 ρf φ a = r11 at *
    generalize biotRho12 ρf φ a = r12 at *
    generalize biotRho22 ρf φ a = r22 at *
    -- evaluate the characteristic polynomial at R / r22
    have key : (P * r22 + R * r11 - 2 * Q * r12) ^ 2
        - 4 * (r11 * r22 - r12 ^ 2) * (P * R - Q ^ 2)
      = (2 * (r11 * r22 - r12 ^ 2) * (R / r22) - (P * r22 + R * r11 - 2 * Q * r12)) ^ 2
        + 4 * (r11 * r22 - r12 ^ 2) * (Q - R / r22 * r12) ^ 2 := by field
    rw [key]; positivity
  refine ⟨_, _, _, hm, hst, hΔ, hdisc, fun x => by unfold biotDet; ring, ?_⟩
  have hroot : √((biotP Kd G K0 Kf φ * biotRho22 ρf φ a + biotR Kd K0 Kf φ * biotRho11 ρ0 ρf φ a
      - 2 * biotQ Kd K0 Kf φ * biotRho12 ρf φ a) ^ 2
      - 4 * (biotRho11 ρ0 ρf φ a * biotRho22 ρf φ a - biotRho12 ρf φ a ^ 2)
        * (biotP Kd G K0 Kf φ * biotR Kd K0 Kf φ - biotQ Kd K0 Kf φ ^ 2))
      ≤ biotP Kd G K0 Kf φ * biotRho22 ρf φ a + biotR Kd K0 Kf φ * biotRho11 ρ0 ρf φ a
      - 2 * biotQ Kd K0 Kf φ * biotRho12 ρf φ a := by
    apply Real.sqrt_le_iff.mpr
    refine ⟨hΔ, ?_⟩
    have := mul_nonneg hm.le hst
    linarith
  have eP : ((1 - fin φ) * (1 - fin φ - fin Kd / fin K0) * fin K0
      + fin φ * fin K0 / fin Kf * fin Kd) / (1 - fin φ - fin Kd / fin K0 + fin φ * fin K0 / fin Kf)
      + 4 * fin G / 3 = fin (biotP Kd G K0 Kf φ) := by
    fl_eval [biotP]
  have eQ : (1 - fin φ - fin Kd / fin K0) * fin φ * fin K0
      / (1 - fin φ - fin Kd / fin K0 + fin φ * fin K0 / fin Kf) = fin (biotQ Kd K0 Kf φ) := by
    fl_eval [biotQ]
  have eR : fin φ ** 2 * fin K0 / (1 - fin φ - fin Kd / fin K0 + fin φ * fin K0 / fin Kf)
      = fin (biotR Kd K0 Kf φ) := by
    fl_eval [biotR]
  have e12 : (1 - fin a) * fin φ * fin ρf = fin (biotRho12 ρf φ a) := by fl_eval [biotRho12]
  have e22 : fin a * fin φ * fin ρf = fin (biotRho22 ρf φ a) := by fl_eval [biotRho22]
  have e11 : (1 - fin φ) * fin ρ0 - fin (biotRho12 ρf φ a) = fin (biotRho11 ρ0 ρf φ a) := by
    fl_eval [biotRho11, biotRho12]
  unfold Biot_HF
  dsimp only
  rw [eP, eQ, eR, e12, e22, e11]
  generalize biotP Kd G K0 Kf φ = P at *
  generalize biotQ Kd K0 Kf φ = Q at *
  generalize biotR Kd K0 Kf φ = R at *
  generalize biotRho11 ρ0 ρf φ a = r11 at *
  generalize biotRho12 ρf φ a = r12 at *
  generalize biotRho22 ρf φ a = r22 at *
  have p1 : 0 ≤ (P * r22 + R * r11 - 2 * Q * r12 + √((P * r22 + R * r11 - 2 * Q * r12) ^ 2
      - 4 * (r11 * r22 - r12 ^ 2) * (P * R - Q ^ 2))) / (2 * (r11 * r22 - r12 ^ 2)) :=
    div_nonneg (add_nonneg hΔ (Real.sqrt_nonneg _)) (by positivity)
  have p2 : 0 ≤ (P * r22 + R * r11 - 2 * Q * r12 - √((P * r22 + R * r11 - 2 * Q * r12) ^ 2
      - 4 * (r11 * r22 - r12 ^ 2) * (P * R - Q ^ 2))) / (2 * (r11 * r22 - r12 ^ 2)) :=
    div_nonneg (by linarith) (by positivity)
  have n3 : 2 * (r11 * r22 - r12 ^ 2) ≠ 0 := by positivity
  fl_eval []

/-- All three velocities are real; the squared P velocities are the two roots of Biot's
characteristic equation (with multiplicity), and the fast wave is not slower. -/
theorem C31_Biot_HF_roots (h : BiotRock Kd G K0 Kf ρ0 ρf φ a) :
    ∃ vf vs v T : ℝ,
      Biot_HF (fin Kd) (fin G) (fin K0) (fin Kf) (fin ρ0) (fin ρf) (fin φ) (fin a)
        = (fin vf, fin vs, fin v) ∧
      0 ≤ vs ∧ vs ≤ vf ∧ 0 ≤ v ∧ 0 < T ∧
      ∀ x, biotDet Kd G K0 Kf ρ0 ρf φ a x = T * (x - vf ^ 2) * (x - vs ^ 2) := by
  obtain ⟨Δ, T3, T4, h3, h4, hΔ, hD, hdet, e⟩ := Biot_HF_eval h
  have hr : √(Δ ^ 2 - 4 * T3 * T4) ≤ Δ := by
    apply Real.sqrt_le_iff.mpr
    refine ⟨hΔ, ?_⟩
    have := mul_nonneg h3.le h4
    linarith
  have hr0 := Real.sqrt_nonneg (Δ ^ 2 - 4 * T3 * T4)
  have hs := Real.sq_sqrt hD
  refine ⟨_, _, _, T3, e, Real.sqrt_nonneg _, ?_, Real.sqrt_nonneg _, h3, fun x => ?_⟩
  · apply Real.sqrt_le_sqrt
    gcongr
    linarith
  · rw [hdet, Real.sq_sqrt (div_nonneg (by linarith) (by linarith)),
      Real.sq_sqrt (div_nonneg (by linarith) (by linarith))]
    generalize √(Δ ^ 2 - 4 * T3 * T4) = r at *
    field_simp
    linear_combination hs

/-- The shear velocity is the one of `Fluid.Geertsma_Smit_HF`. -/
theorem C31_shear_agrees (h : BiotRock Kd G K0 Kf ρ0 ρf φ a) :
    (Biot_HF (fin Kd) (fin G) (fin K0) (fin Kf) (fin ρ0) (fin ρf) (fin φ) (fin a)).2.2
      = (Geertsma_Smit_HF (fin Kd) (fin G) (fin K0) (fin Kf) (fin ρ0) (fin ρf) (fin φ) (fin a)).2 := by
  obtain ⟨Δ, T3, T4, h3, h4, hΔ, hD, hdet, e⟩ := Biot_HF_eval h
  rw [e]
  have ha : 0 < a := by linarith [h.tort]
  have hG := h.shear
  have e2 : (1 - φ) * ρ0 + φ * ρf - φ * ρf * a⁻¹ = ρ0 * (1 - φ) + φ * ρf * (1 - a⁻¹) := by ring
  have hvs : 0 < ρ0 * (1 - φ) + φ * ρf * (1 - a⁻¹) := by
    have p1 : 0 < ρ0 * (1 - φ) := mul_pos h.solid (by linarith [h.por_lt])
    have p2 : 0 ≤ φ * ρf * (1 - a⁻¹) :=
      mul_nonneg (mul_nonneg h.por_pos.le h.fluid.le)
        (by linarith [inv_le_one_of_one_le₀ h.tort])
    linarith
  unfold Geertsma_Smit_HF
  dsimp only
  rw [e2]
  fl_eval []

/-- The high-frequency shear velocity is at least the low-frequency one `sqrt(G / rho)`. -/
theorem C31_shear_dispersion (h : BiotRock Kd G K0 Kf ρ0 ρf φ a) :
    fin √(G / ((1 - φ) * ρ0 + φ * ρf))
      ≤ (Biot_HF (fin Kd) (fin G) (fin K0) (fin Kf) (fin ρ0) (fin ρf) (fin φ) (fin a)).2.2 := by
  obtain ⟨Δ, T3, T4, h3, h4, hΔ, hD, hdet, e⟩ := Biot_HF_eval h
  rw [e, fin_le]
  have ha : 0 < a := by linarith [h.tort]
  have hG := h.shear
  have p1 : 0 < (1 - φ) * ρ0 := mul_pos (by linarith [h.por_lt]) h.solid
  have p2 : φ * ρf * a⁻¹ ≤ φ * ρf :=
    mul_le_of_le_one_right (mul_nonneg h.por_pos.le h.fluid.le) (inv_le_one_of_one_le₀ h.tort)
  have p3 : 0 ≤ φ * ρf * a⁻¹ := by
    have := h.por_pos; have := h.fluid; positivity
  apply Real.sqrt_le_sqrt
  apply div_le_div_of_nonneg_left hG <;> linarith

example : BiotRock 12 9 37 2.3 2.65 1.2 0.2 2 :=
  { dry_nonneg := by norm_num, dry_lt := by norm_num, fluid_pos := by norm_num,
    fluid_lt := by norm_num, por_pos := by norm_num, shear := by norm_num, por_lt := by norm_num,
    solid := by norm_num, fluid := by norm_num, tort := by norm_num }

end RockPhy.Props
