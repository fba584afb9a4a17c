import Verif.Lemmas.Cx
import Verif.Spec.Dispersion
import Verif.Model.Dispersion
import Verif.Props.Biot

/-! # Property C76 (Biot dispersion) -/

namespace RockPhy.Props

open Fl Fluid Spec Filter

/-- The two squared slownesses the code computes. -/
noncomputable def slow1 (M C H ρ ρf : ℝ) (q : ℂ) : ℂ :=
  (-(H * q + M * ρ - 2 * C * ρf)
    + ((H * q + M * ρ - 2 * C * ρf) * (H * q + M * ρ - 2 * C * ρf)
      - 4 * ((C ^ 2 - M * H : ℝ) : ℂ) * (ρf ^ 2 - ρ * q)).sqrt) / (2 * ((C ^ 2 - M * H : ℝ) : ℂ))
noncomputable def slow2 (M C H ρ ρf : ℝ) (q : ℂ) : ℂ :=
  (-(H * q + M * ρ - 2 * C * ρf)
    - ((H * q + M * ρ - 2 * C * ρf) * (H * q + M * ρ - 2 * C * ρf)
      - 4 * ((C ^ 2 - M * H : ℝ) : ℂ) * (ρf ^ 2 - ρ * q)).sqrt) / (2 * ((C ^ 2 - M * H : ℝ) : ℂ))
noncomputable def slow3 (G ρ ρf : ℝ) (q : ℂ) : ℂ := (ρ * q - ρf ^ 2) / (G * q)

variable {M C H G ρ ρf : ℝ} {q : ℂ}

theorem slow_poly (h : C ^ 2 - M * H ≠ 0) (x : ℂ) :
    (H * x - ρ) * (M * x - q) - (C * x - ρf) ^ 2
      = ((M * H - C ^ 2 : ℝ) : ℂ) * (x - slow1 M C H ρ ρf q) * (x - slow2 M C H ρ ρf q) := by
  have h' : ((C ^ 2 - M * H : ℝ) : ℂ) ≠ 0 := Complex.ofReal_ne_zero.mpr h
  have e := csqrt_sq ((H * q + M * ρ - 2 * C * ρf) * (H * q + M * ρ - 2 * C * ρf)
      - 4 * ((C ^ 2 - M * H : ℝ) : ℂ) * (ρf ^ 2 - ρ * q))
  unfold slow1 slow2
  generalize ((H * q + M * ρ - 2 * C * ρf) * (H * q + M * ρ - 2 * C * ρf)
      - 4 * ((C ^ 2 - M * H : ℝ) : ℂ) * (ρf ^ 2 - ρ * q)).sqrt = r at *
  have hT : ((M * H - C ^ 2 : ℝ) : ℂ) = -((C ^ 2 - M * H : ℝ) : ℂ) := by push_cast; ring
  have hT2 : (M : ℂ) * H = C ^ 2 - ((C ^ 2 - M * H : ℝ) : ℂ) := by push_cast; ring
  rw [hT]
  generalize ((C ^ 2 - M * H : ℝ) : ℂ) = T at *
  field_simp
  linear_combination -e + 4 * T * x ^ 2 * hT2

/-- A root of the wave determinant is never a non-positive real number when the drag dissipates. -/
theorem slow_not_neg (hρ : 0 < ρ) (hH : 0 ≤ H) (hq : q.im ≠ 0) {s : ℂ}
    (h : (H * s - ρ) * (M * s - q) - (C * s - ρf) ^ 2 = 0) : s.im ≠ 0 ∨ 0 < s.re := by
  by_contra hc
  rw [not_or, not_not, not_lt] at hc
  obtain ⟨hi, hr⟩ := hc
  obtain ⟨r, rfl⟩ : ∃ r : ℝ, s = r := ⟨s.re, by apply Complex.ext <;> simp [hi]⟩
  rw [Complex.ofReal_re] at hr
  have h1 : (H * r - ρ) * q.im = 0 := by
    have := congrArg Complex.im h
    simp only [pow_two, Complex.sub_im, Complex.mul_im, Complex.sub_re, Complex.mul_re,
      Complex.ofReal_re, Complex.ofReal_im, Complex.zero_im] at this
    linarith
  have h2 : H * r - ρ < 0 := by
    have := mul_nonpos_of_nonneg_of_nonpos hH hr
    linarith
  rcases mul_eq_zero.mp h1 with h3 | h3
  · linarith
  · exact hq h3

theorem slow3_not_neg (hρ : 0 < ρ) (hG : 0 < G) (hq : q.im ≠ 0) :
    (slow3 G ρ ρf q).im ≠ 0 ∨ 0 < (slow3 G ρ ρf q).re := by
  have hq0 : q ≠ 0 := fun e => hq (by rw [e, Complex.zero_im])
  have hG0 : (G : ℂ) ≠ 0 := Complex.ofReal_ne_zero.mpr hG.ne'
  have key : q * (G * slow3 G ρ ρf q - ρ) = -((ρf ^ 2 : ℝ) : ℂ) := by
    unfold slow3; push_cast; field
  by_contra hc
  rw [not_or, not_not, not_lt] at hc
  obtain ⟨hi, hr⟩ := hc
  obtain ⟨r, e⟩ : ∃ r : ℝ, slow3 G ρ ρf q = r :=
    ⟨(slow3 G ρ ρf q).re, by apply Complex.ext <;> simp [hi]⟩
  rw [e] at key hr
  rw [Complex.ofReal_re] at hr
  have h1 : (G * r - ρ) * q.im = 0 := by
    have := congrArg Complex.im key
    simp only [Complex.sub_im, Complex.mul_im, Complex.sub_re, Complex.mul_re,
      Complex.ofReal_re, Complex.ofReal_im, Complex.neg_im] at this
    linarith
  have h2 : G * r - ρ < 0 := by
    have := mul_nonpos_of_nonneg_of_nonpos hG.le hr
    linarith
  rcases mul_eq_zero.mp h1 with h3 | h3
  · linarith
  · exact hq h3

theorem ne_zero_of_not_neg {s : ℂ} (h : s.im ≠ 0 ∨ 0 < s.re) : s ≠ 0 := by
  rintro rfl
  rcases h with h | h
  · exact h rfl
  · exact lt_irrefl _ h

theorem cx_two_mul (T : ℝ) : Cx.ofR 2 * Cx.ofR (fin T) = cx (2 * (T : ℂ)) := by
  rw [fl_nat, cx_ofR, cx_ofR, cx_mul, Complex.ofReal_ofNat]

theorem one_div_fin {x : ℝ} (h : x ≠ 0) : 1 / fin x = fin (1 / x) := by rw [fl_one, fl_div h]

/-- The waves in closed form. -/
theorem waves_eval (hρ : 0 < ρ) (hH : 0 ≤ H) (hG : 0 < G)
    (hT : C ^ 2 - M * H ≠ 0) (hq : q.im ≠ 0) :
    Biot_waves (fin M) (fin C) (fin H) (fin G) (fin ρ) (fin ρf) (cx q)
      = (fin (phaseVelocity (slow1 M C H ρ ρf q)), fin (phaseVelocity (slow2 M C H ρ ρf q)),
         fin (phaseVelocity (slow3 G ρ ρf q)),
         fin (1 / slow1 M C H ρ ρf q).im / fin (1 / slow1 M C H ρ ρf q).re,
         fin (1 / slow2 M C H ρ ρf q).im / fin (1 / slow2 M C H ρ ρf q).re,
         fin (1 / slow3 G ρ ρf q).im / fin (1 / slow3 G ρ ρf q).re) := by
  have hq0 : q ≠ 0 := fun e => hq (by rw [e, Complex.zero_im])
  have hT0 : (2 * ((C ^ 2 - M * H : ℝ) : ℂ)) ≠ 0 :=
    mul_ne_zero two_ne_zero (Complex.ofReal_ne_zero.mpr hT)
  have hG0 : (G * q) ≠ 0 := mul_ne_zero (Complex.ofReal_ne_zero.mpr hG.ne') hq0
  have n1 := slow_not_neg hρ hH hq (s := slow1 M C H ρ ρf q)
    (by rw [slow_poly hT, sub_self, mul_zero, zero_mul])
  have n2 := slow_not_neg hρ hH hq (s := slow2 M C H ρ ρf q)
    (by rw [slow_poly hT, sub_self, mul_zero])
  have n3 := slow3_not_neg (ρf := ρf) hρ hG hq
  have eTa (n : ℕ) : Cx.ofR (PyNum.nat n * (fin C ** 2 - fin M * fin H))
      = cx n * cx ((C ^ 2 - M * H : ℝ) : ℂ) := by
    rw [fl_npow, fl_mul, fl_sub, show (PyNum.nat n : Fl) = fin n from rfl, fl_mul, cx_ofR, cx_mul]
    push_cast; rfl
  have eTb : Cx.ofR (fin H) * cx q + Cx.ofR (fin M * fin ρ) - Cx.ofR (2 * fin C * fin ρf)
      = cx (H * q + M * ρ - 2 * C * ρf) := by
    rw [fl_nat, fl_mul, fl_mul, fl_mul]
    simp only [cx_ofR, cx_mul, cx_add, cx_sub]
    push_cast; rfl
  have eTc : Cx.ofR (fin ρf ** 2) - Cx.ofR (fin ρ) * cx q = cx (ρf ^ 2 - ρ * q) := by
    rw [fl_npow]
    simp only [cx_ofR, cx_mul, cx_sub]
    push_cast; rfl
  have eS : (Cx.ofR (fin ρ) * cx q - Cx.ofR (fin ρf ** 2)) / (Cx.ofR (fin G) * cx q)
      = cx (slow3 G ρ ρf q) := by
    rw [fl_npow]
    simp only [cx_ofR, cx_mul, cx_sub]
    rw [cx_div hG0]
    unfold slow3
    push_cast; rfl
  have e4 : Cx.ofR (4 * (fin C ** 2 - fin M * fin H)) = cx 4 * cx ((C ^ 2 - M * H : ℝ) : ℂ) :=
    eTa 4
  have e1 : Cx.ofR (1 : Fl) = cx 1 := by rw [fl_one, cx_ofR, Complex.ofReal_one]
  have e2 : Cx.ofR (2 * (fin C ** 2 - fin M * fin H)) = cx 2 * cx ((C ^ 2 - M * H : ℝ) : ℂ) :=
    eTa 2
  have eP1 : (-cx (H * q + M * ρ - 2 * C * ρf) + Cx.sqrt (cx (H * q + M * ρ - 2 * C * ρf)
      * cx (H * q + M * ρ - 2 * C * ρf) - cx 4 * cx ((C ^ 2 - M * H : ℝ) : ℂ)
      * cx (ρf ^ 2 - ρ * q))) / (cx 2 * cx ((C ^ 2 - M * H : ℝ) : ℂ)) = cx (slow1 M C H ρ ρf q) := by
    rw [cx_mul, cx_mul, cx_mul, cx_mul, cx_sub, cx_sqrt, cx_neg, cx_add, cx_div hT0]
    rfl
  have eP2 : (-cx (H * q + M * ρ - 2 * C * ρf) - Cx.sqrt (cx (H * q + M * ρ - 2 * C * ρf)
      * cx (H * q + M * ρ - 2 * C * ρf) - cx 4 * cx ((C ^ 2 - M * H : ℝ) : ℂ)
      * cx (ρf ^ 2 - ρ * q))) / (cx 2 * cx ((C ^ 2 - M * H : ℝ) : ℂ)) = cx (slow2 M C H ρ ρf q) := by
    rw [cx_mul, cx_mul, cx_mul, cx_mul, cx_sub, cx_sqrt, cx_neg, cx_sub, cx_div hT0]
    rfl
  unfold Biot_waves
  dsimp only
  rw [eTb, eTc, eS, e4, e1, e2, eP1, eP2, cx_sqrt, cx_sqrt, cx_sqrt,
    cx_div (ne_zero_of_not_neg n1), cx_div (ne_zero_of_not_neg n2),
    cx_div (ne_zero_of_not_neg n3)]
  simp only [cx_re, cx_im]
  rw [one_div_fin (csqrt_re_pos n1).ne', one_div_fin (csqrt_re_pos n2).ne',
    one_div_fin (csqrt_re_pos n3).ne']
  rfl

/-! ## The coefficients -/

section
variable {Kd K0 Kf ρ0 φ τ η κ a f : ℝ}

theorem storage_den_pos (h : GassmannRock Kd K0 Kf φ) :
    0 < K0 * (1 + φ * (K0 / Kf - 1)) - Kd := by
  have h0 := GassmannRock.mineral_pos h
  have h1 : 0 < K0 / Kf - 1 := by
    have := (one_lt_div h.fluid_pos).mpr h.fluid_lt
    linarith
  have h2 : 0 < φ * (K0 / Kf - 1) := mul_pos h.por_pos h1
  have h3 : K0 ≤ K0 * (1 + φ * (K0 / Kf - 1)) := by nlinarith
  linarith [h.dry_lt]

theorem storage_eq (h : GassmannRock Kd K0 Kf φ) :
    storage Kd K0 Kf φ = K0 ^ 2 / (K0 * (1 + φ * (K0 / Kf - 1)) - Kd) := by
  have h0 := (GassmannRock.mineral_pos h).ne'
  have hf := h.fluid_pos.ne'
  have e : (biotCoef Kd K0 - φ) / K0 + φ / Kf
      = (K0 * (1 + φ * (K0 / Kf - 1)) - Kd) / K0 ^ 2 := by
    unfold biotCoef; field
  unfold storage
  rw [e, inv_div]

theorem storage_pos (h : GassmannRock Kd K0 Kf φ) : 0 < storage Kd K0 Kf φ := by
  rw [storage_eq h]
  have := GassmannRock.mineral_pos h
  have := storage_den_pos h
  positivity

theorem biotCoef_pos (h : GassmannRock Kd K0 Kf φ) : 0 < biotCoef Kd K0 := by
  have := (div_lt_one (GassmannRock.mineral_pos h)).mpr h.dry_lt
  unfold biotCoef; linarith

theorem undrained_pos (h : GassmannRock Kd K0 Kf φ) (hG : 0 < G) :
    0 < undrained Kd G K0 Kf φ := by
  have := storage_pos h; have := biotCoef_pos h; have := h.dry_nonneg
  unfold undrained; positivity

theorem bulkDensity_pos (h : BiotRock Kd G K0 Kf ρ0 ρf φ a) : 0 < bulkDensity ρ0 ρf φ := by
  have := h.por_pos; have := h.fluid; have := h.solid
  have : 0 < 1 - φ := by linarith [h.por_lt]
  unfold bulkDensity; positivity

/-- Leading coefficient of the wave determinant. -/
theorem wave_lead :
    (biotCoef Kd K0 * storage Kd K0 Kf φ) ^ 2 - storage Kd K0 Kf φ * undrained Kd G K0 Kf φ
      = -(storage Kd K0 Kf φ * (Kd + 4 / 3 * G)) := by
  unfold undrained; ring

theorem wave_lead_neg (h : GassmannRock Kd K0 Kf φ) (hG : 0 < G) :
    (biotCoef Kd K0 * storage Kd K0 Kf φ) ^ 2 - storage Kd K0 Kf φ * undrained Kd G K0 Kf φ < 0 := by
  rw [wave_lead]
  have := storage_pos h; have := h.dry_nonneg
  have : 0 < storage Kd K0 Kf φ * (Kd + 4 / 3 * G) := by positivity
  linarith

theorem drag_re (ω : ℝ) (F : ℂ) :
    (drag ρf η φ κ τ ω F).re = τ * ρf / φ + η * F.im / (ω * κ) := by
  have e : drag ρf η φ κ τ ω F
      = ((τ * ρf / φ : ℝ) : ℂ) - Complex.I * (((η / (ω * κ) : ℝ) : ℂ) * F) := by
    unfold drag; push_cast; ring
  rw [e]
  simp only [Complex.sub_re, Complex.mul_re, Complex.I_re, Complex.I_im, Complex.mul_im,
    Complex.ofReal_re, Complex.ofReal_im]
  ring

theorem drag_im (ω : ℝ) (F : ℂ) : (drag ρf η φ κ τ ω F).im = -(η * F.re / (ω * κ)) := by
  have e : drag ρf η φ κ τ ω F
      = ((τ * ρf / φ : ℝ) : ℂ) - Complex.I * (((η / (ω * κ) : ℝ) : ℂ) * F) := by
    unfold drag; push_cast; ring
  rw [e]
  simp only [Complex.sub_im, Complex.mul_re, Complex.I_re, Complex.I_im, Complex.mul_im,
    Complex.ofReal_re, Complex.ofReal_im]
  ring

/-- Pore parameter of the code. -/
noncomputable def poreParam (ρf η a f : ℝ) : ℝ := √(2 * Real.pi * f * a ^ 2 * ρf / η)

theorem Biot_eval (jv0 jv1 : Cx Fl → Cx Fl) (h : BiotRock Kd G K0 Kf ρ0 ρf φ τ)
    (hη : 0 < η) (hκ : 0 < κ) (hf : 0 < f) {F : ℂ}
    (hF : Biot_F jv0 jv1 (fin (poreParam ρf η a f)) = cx F) :
    Biot jv0 jv1 (fin Kd) (fin G) (fin K0) (fin Kf) (fin ρ0) (fin ρf) (fin η) (fin φ) (fin κ)
        (fin a) (fin τ) (fin f)
      = Biot_waves (fin (storage Kd K0 Kf φ)) (fin (biotCoef Kd K0 * storage Kd K0 Kf φ))
          (fin (undrained Kd G K0 Kf φ)) (fin G) (fin (bulkDensity ρ0 ρf φ)) (fin ρf)
          (cx (drag ρf η φ κ τ (2 * Real.pi * f) F)) := by
  have h0 := (GassmannRock.mineral_pos h.toGassmannRock).ne'
  have hf0 := h.fluid_pos.ne'
  have hD := (storage_den_pos h.toGassmannRock).ne'
  have hρf := h.fluid
  have hφ := h.por_pos.ne'
  have hπ := Real.pi_pos
  have eM : fin K0 ** 2 / (fin K0 * (1 + fin φ * (fin K0 / fin Kf - 1)) - fin Kd)
      = fin (storage Kd K0 Kf φ) := by
    rw [storage_eq h.toGassmannRock]
    fl_eval []
  have eC : (fin K0 - fin Kd) * fin K0 / (fin K0 * (1 + fin φ * (fin K0 / fin Kf - 1)) - fin Kd)
      = fin (biotCoef Kd K0 * storage Kd K0 Kf φ) := by
    rw [storage_eq h.toGassmannRock]
    fl_eval []
    refine congrArg fin ?_
    unfold biotCoef
    generalize K0 * (1 + φ * (K0 / Kf - 1)) - Kd = D at *
    field
  have eH : fin Kd + 4 * fin G / 3
      + (fin K0 - fin Kd) ** 2 / (fin K0 * (1 + fin φ * (fin K0 / fin Kf - 1)) - fin Kd)
      = fin (undrained Kd G K0 Kf φ) := by
    unfold undrained
    rw [storage_eq h.toGassmannRock]
    fl_eval []
    refine congrArg fin ?_
    unfold biotCoef
    generalize K0 * (1 + φ * (K0 / Kf - 1)) - Kd = D at *
    field
  have eρ : (1 - fin φ) * fin ρ0 + fin φ * fin ρf = fin (bulkDensity ρ0 ρf φ) := by
    fl_eval [bulkDensity]
  have p : 0 ≤ 2 * Real.pi * f * a ^ 2 * ρf / η := by positivity
  have eζ : sqrt (2 * pi * fin f * fin a ** 2 * fin ρf / fin η) = fin (poreParam ρf η a f) := by
    unfold poreParam
    fl_eval []
  have hw : 2 * Real.pi * f * κ ≠ 0 := by positivity
  have hw' : ((2 * Real.pi * f * κ : ℝ) : ℂ) ≠ 0 := Complex.ofReal_ne_zero.mpr hw
  have eq : Cx.ofR (fin τ * fin ρf / fin φ)
      - Cx.I * Cx.ofR (fin η) * cx F / Cx.ofR (2 * pi * fin f * fin κ)
      = cx (drag ρf η φ κ τ (2 * Real.pi * f) F) := by
    rw [fl_nat, fl_pi, fl_mul, fl_mul, fl_mul, fl_mul, fl_div hφ]
    rw [cx_ofR, cx_ofR, cx_ofR, cx_I, cx_mul, cx_mul, cx_div hw', cx_sub]
    unfold drag
    congr 1
    push_cast
    ring
  unfold Biot
  dsimp only
  rw [eM, eC, eH, eρ, eζ, hF, eq]

/-! ## The flow correction -/

theorem Biot_F_low (jv0 jv1 : Cx Fl → Cx Fl) {ζ : ℝ} (h : ζ < 0.1) :
    Biot_F jv0 jv1 (fin ζ) = cx 1 := by
  have e : PyNum.lt (fin ζ) (1e-1 : Fl) = true := by
    rw [show (1e-1 : Fl) = fin 0.1 from fl_sci _ _ _, fl_lt]
    exact h
  unfold Biot_F
  dsimp only
  rw [if_pos e, fl_one, cx_ofR, Complex.ofReal_one]

theorem flow_tail (T : ℂ) {ζ : ℝ} (hζ : ζ ≠ 0) (hT : 1 + 2 * Complex.I * T / ζ ≠ 0) :
    Cx.ofR (1 / 4 : Fl) * (Cx.ofR (fin ζ) * cx T / (Cx.ofR 1 + Cx.ofR 2 * Cx.I * cx T
      / Cx.ofR (fin ζ))) = cx (flowCorrection ζ T) := by
  have hζ' : (ζ : ℂ) ≠ 0 := Complex.ofReal_ne_zero.mpr hζ
  rw [fl_one, fl_nat, fl_nat, fl_div (by norm_num)]
  rw [cx_ofR, cx_ofR, cx_ofR, cx_ofR, cx_I, cx_mul, cx_mul, cx_mul, cx_div hζ',
    Complex.ofReal_one, Complex.ofReal_ofNat, cx_add, cx_div hT, cx_mul]
  unfold flowCorrection
  push_cast; rfl

theorem Biot_F_high (jv0 jv1 : Cx Fl → Cx Fl) {ζ : ℝ} (h : 1000 < ζ)
    (hT : 1 + 2 * Complex.I * ((1 + Complex.I) / √2) / ζ ≠ 0) :
    Biot_F jv0 jv1 (fin ζ) = cx (flowCorrection ζ ((1 + Complex.I) / √2)) := by
  have e3 : (1e3 : Fl) = fin 1000 := by rw [fl_sci]; norm_num
  have e : ¬ PyNum.lt (fin ζ) (1e-1 : Fl) = true := by
    rw [show (1e-1 : Fl) = fin 0.1 from fl_sci _ _ _, fl_lt]
    norm_num; linarith
  have e1 : ¬ PyNum.le (fin ζ) (1e3 : Fl) = true := by rw [e3, fl_le]; exact h.not_ge
  have e2 : PyNum.lt (1e3 : Fl) (fin ζ) = true := by rw [e3, fl_lt]; exact h
  have s2 : ((√2 : ℝ) : ℂ) ≠ 0 := Complex.ofReal_ne_zero.mpr (by positivity)
  have eT : (Cx.ofR 1 + Cx.I) / Cx.ofR (sqrt 2) = cx ((1 + Complex.I) / √2) := by
    rw [fl_one, fl_nat, fl_sqrt (by norm_num), cx_ofR, cx_ofR, cx_I, cx_add, cx_div s2,
      Complex.ofReal_one]
  unfold Biot_F
  dsimp only
  rw [if_neg e, if_pos e2, eT, flow_tail _ (by linarith : ζ ≠ 0) hT]

theorem Biot_F_mid {jv0 jv1 : Cx Fl → Cx Fl} {j0 j1 : ℂ → ℂ} (h0 : ∀ z, jv0 (cx z) = cx (j0 z))
    (h1 : ∀ z, jv1 (cx z) = cx (j1 z)) {ζ : ℝ} (hl : 0.1 ≤ ζ) (h : ζ ≤ 1000) {T : ℂ}
    (hj : j0 (ζ * Complex.exp (-Complex.I * Real.pi / 4)) ≠ 0)
    (eT : T = Complex.exp (3 * Real.pi / 4 * Complex.I)
      * (j1 (ζ * Complex.exp (-Complex.I * Real.pi / 4))
        / j0 (ζ * Complex.exp (-Complex.I * Real.pi / 4))))
    (hT : 1 + 2 * Complex.I * T / ζ ≠ 0) :
    Biot_F jv0 jv1 (fin ζ) = cx (flowCorrection ζ T) := by
  have e : ¬ PyNum.lt (fin ζ) (1e-1 : Fl) = true := by
    rw [show (1e-1 : Fl) = fin 0.1 from fl_sci _ _ _, fl_lt]
    exact hl.not_gt
  have e1 : PyNum.le (fin ζ) (1e3 : Fl) = true := by
    rw [show (1e3 : Fl) = fin 1000 by rw [fl_sci]; norm_num, fl_le]; exact h
  have e2 : ¬ PyNum.lt (1e3 : Fl) (fin ζ) = true := by
    rw [show (1e3 : Fl) = fin 1000 by rw [fl_sci]; norm_num, fl_lt]; exact h.not_gt
  have h4 : (4 : ℂ) ≠ 0 := by norm_num
  have a1 : Cx.exp (Cx.I * Cx.ofR 3 * Cx.ofR pi / Cx.ofR 4 : Cx Fl)
      = cx (Complex.exp (3 * Real.pi / 4 * Complex.I)) := by
    rw [fl_nat, fl_nat, fl_pi, cx_ofR, cx_ofR, cx_ofR, cx_I, cx_mul, cx_mul, Complex.ofReal_ofNat,
      Complex.ofReal_ofNat, cx_div h4, cx_exp]
    congr 2; ring
  have a2 : Cx.exp (-Cx.I * Cx.ofR pi / Cx.ofR 4 : Cx Fl)
      = cx (Complex.exp (-Complex.I * Real.pi / 4)) := by
    rw [fl_nat, fl_pi, cx_ofR, cx_ofR, cx_I, cx_neg, cx_mul, Complex.ofReal_ofNat, cx_div h4,
      cx_exp]
  have a3 : Cx.ofR (fin ζ) * cx (Complex.exp (-Complex.I * Real.pi / 4))
      = cx (ζ * Complex.exp (-Complex.I * Real.pi / 4)) := by rw [cx_ofR, cx_mul]
  unfold Biot_F
  dsimp only
  rw [if_neg e, if_neg e2, if_pos e1, a1, a2, a3, h0, h1, cx_mul, cx_div hj, mul_div_assoc, ← eT,
    flow_tail _ (by linarith : ζ ≠ 0) hT]

/-- Above the threshold the flow correction dissipates. -/
theorem flow_high {ζ : ℝ} (h : 1000 < ζ) :
    1 + 2 * Complex.I * ((1 + Complex.I) / √2) / ζ ≠ 0 ∧
    flowCorrection ζ ((1 + Complex.I) / √2)
      = ζ ^ 2 / (4 * (ζ / √2 + (2 - ζ / √2 : ℝ) * Complex.I)) ∧
    0 < (flowCorrection ζ ((1 + Complex.I) / √2)).re ∧
    0 < (flowCorrection ζ ((1 + Complex.I) / √2)).im := by
  have hζ' : (ζ : ℂ) ≠ 0 := Complex.ofReal_ne_zero.mpr (by linarith)
  have s2 : ((√2 : ℝ) : ℂ) ≠ 0 := Complex.ofReal_ne_zero.mpr (by positivity)
  have ss : ((√2 : ℝ) : ℂ) * ((√2 : ℝ) : ℂ) = 2 := by
    rw [← Complex.ofReal_mul, Real.mul_self_sqrt (by norm_num), Complex.ofReal_ofNat]
  have hI := Complex.I_mul_I
  have r2 : √2 < 2 := by
    rw [Real.sqrt_lt' (by norm_num)]; norm_num
  have r0 : (0 : ℝ) < √2 := by positivity
  have hy : 500 < ζ / √2 := by rw [lt_div_iff₀ r0]; linarith
  have hw : ((ζ / √2 : ℝ) : ℂ) + (2 - ζ / √2 : ℝ) * Complex.I ≠ 0 := fun e => by
    have := congrArg Complex.re e
    simp only [Complex.add_re, Complex.mul_re, Complex.ofReal_re, Complex.ofReal_im,
      Complex.I_re, Complex.I_im, Complex.zero_re] at this
    linarith
  have e1 : 1 + 2 * Complex.I * ((1 + Complex.I) / √2) / ζ
      = (1 + Complex.I) / √2 / ζ * (((ζ / √2 : ℝ) : ℂ) + (2 - ζ / √2 : ℝ) * Complex.I) := by
    push_cast
    field_simp
    linear_combination (ζ : ℂ) * ss + ζ * hI
  have h1 : (1 + Complex.I) ≠ 0 := fun e => by
    have := congrArg Complex.re e
    simp at this
  have n1 : 1 + 2 * Complex.I * ((1 + Complex.I) / √2) / ζ ≠ 0 := by
    rw [e1]
    exact mul_ne_zero (div_ne_zero (div_ne_zero h1 s2) hζ') hw
  have e2 : flowCorrection ζ ((1 + Complex.I) / √2)
      = ζ ^ 2 / (4 * (((ζ / √2 : ℝ) : ℂ) + (2 - ζ / √2 : ℝ) * Complex.I)) := by
    unfold flowCorrection
    rw [e1]
    generalize ((ζ / √2 : ℝ) : ℂ) + (2 - ζ / √2 : ℝ) * Complex.I = w at *
    field
  have e3 : flowCorrection ζ ((1 + Complex.I) / √2)
      = ((ζ ^ 2 / 4 : ℝ) : ℂ) * (((ζ / √2 : ℝ) : ℂ) + (2 - ζ / √2 : ℝ) * Complex.I)⁻¹ := by
    rw [e2]
    generalize ((ζ / √2 : ℝ) : ℂ) + (2 - ζ / √2 : ℝ) * Complex.I = w at *
    push_cast
    field
  have hn := Complex.normSq_pos.mpr hw
  have w1 : (((ζ / √2 : ℝ) : ℂ) + (2 - ζ / √2 : ℝ) * Complex.I).re = ζ / √2 := by
    simp only [Complex.add_re, Complex.mul_re, Complex.ofReal_re, Complex.ofReal_im,
      Complex.I_re, Complex.I_im]
    ring
  have w2 : (((ζ / √2 : ℝ) : ℂ) + (2 - ζ / √2 : ℝ) * Complex.I).im = 2 - ζ / √2 := by
    simp only [Complex.add_im, Complex.mul_im, Complex.ofReal_re, Complex.ofReal_im,
      Complex.I_re, Complex.I_im]
    ring
  have hζ2 : 0 < ζ ^ 2 / 4 := by have : 0 < ζ := by linarith
                                 positivity
  refine ⟨n1, ?_, ?_, ?_⟩
  · rw [e2]; push_cast; rfl
  · rw [e3, Complex.re_ofReal_mul, Complex.inv_re, w1]
    exact mul_pos hζ2 (div_pos (by linarith) hn)
  · rw [e3, Complex.im_ofReal_mul, Complex.inv_im, w2]
    exact mul_pos hζ2 (div_pos (by linarith) hn)

/-- The flow correction in one of the three regimes, as the code computes it. -/
theorem Biot_F_eval {jv0 jv1 : Cx Fl → Cx Fl} {j0 j1 : ℂ → ℂ} (h0 : ∀ z, jv0 (cx z) = cx (j0 z))
    (h1 : ∀ z, jv1 (cx z) = cx (j1 z)) {ζ : ℝ} {F : ℂ} (h : IsFlow j0 j1 ζ F) :
    Biot_F jv0 jv1 (fin ζ) = cx F := by
  rcases h with ⟨hl, rfl⟩ | ⟨hl, hh, hj, T, eT, hT, rfl⟩ | ⟨hh, rfl⟩
  · exact Biot_F_low _ _ hl
  · exact Biot_F_mid h0 h1 hl hh hj eT hT
  · exact Biot_F_high _ _ hh (flow_high hh).1

/-! ## Property C76 -/

/-- At every positive frequency the two P waves are the two solutions of Biot's wave equations and
the S wave is the solution of the shear equation; velocities and attenuations are those of these
waves.  `F` is the flow correction at the pore parameter of this frequency. -/
theorem C76_waves (jv0 jv1 : Cx Fl → Cx Fl) (j0 j1 : ℂ → ℂ) (hj0 : ∀ z, jv0 (cx z) = cx (j0 z))
    (hj1 : ∀ z, jv1 (cx z) = cx (j1 z)) (h : BiotRock Kd G K0 Kf ρ0 ρf φ τ) (hG : 0 < G)
    (hη : 0 < η) (hκ : 0 < κ) (hf : 0 < f) (F : ℂ)
    (hF : IsFlow j0 j1 (√(2 * Real.pi * f * a ^ 2 * ρf / η)) F) (hF0 : 0 < F.re) :
    ∃ (s₁ s₂ s₃ q : ℂ) (T : ℝ), q = drag ρf η φ κ τ (2 * Real.pi * f) F ∧ 0 < T ∧
      (∀ x, biotWave Kd G K0 Kf ρ0 ρf φ q x = T * (x - s₁) * (x - s₂)) ∧
      G * s₃ = bulkDensity ρ0 ρf φ - ρf ^ 2 / q ∧
      Biot jv0 jv1 (fin Kd) (fin G) (fin K0) (fin Kf) (fin ρ0) (fin ρf) (fin η) (fin φ) (fin κ)
          (fin a) (fin τ) (fin f)
        = (fin (phaseVelocity s₁), fin (phaseVelocity s₂), fin (phaseVelocity s₃),
           fin (1 / s₁).im / fin (1 / s₁).re, fin (1 / s₂).im / fin (1 / s₂).re,
           fin (1 / s₃).im / fin (1 / s₃).re) := by
  have hT := wave_lead_neg (G := G) h.toGassmannRock hG
  have hq : (drag ρf η φ κ τ (2 * Real.pi * f) F).im ≠ 0 := by
    rw [drag_im]
    have := Real.pi_pos
    have : 0 < η * F.re / (2 * Real.pi * f * κ) := by positivity
    linarith
  have hq0 : drag ρf η φ κ τ (2 * Real.pi * f) F ≠ 0 := fun e => hq (by rw [e, Complex.zero_im])
  refine ⟨slow1 (storage Kd K0 Kf φ) (biotCoef Kd K0 * storage Kd K0 Kf φ) (undrained Kd G K0 Kf φ)
      (bulkDensity ρ0 ρf φ) ρf (drag ρf η φ κ τ (2 * Real.pi * f) F),
    slow2 (storage Kd K0 Kf φ) (biotCoef Kd K0 * storage Kd K0 Kf φ) (undrained Kd G K0 Kf φ)
      (bulkDensity ρ0 ρf φ) ρf (drag ρf η φ κ τ (2 * Real.pi * f) F),
    slow3 G (bulkDensity ρ0 ρf φ) ρf (drag ρf η φ κ τ (2 * Real.pi * f) F), _,
    storage Kd K0 Kf φ * undrained Kd G K0 Kf φ - (biotCoef Kd K0 * storage Kd K0 Kf φ) ^ 2,
    rfl, by linarith, fun x => ?_, ?_, ?_⟩
  · rw [← slow_poly hT.ne]
    unfold biotWave
    push_cast; rfl
  · unfold slow3
    have : (G : ℂ) ≠ 0 := Complex.ofReal_ne_zero.mpr hG.ne'
    field
  · rw [Biot_eval jv0 jv1 h hη hκ hf (Biot_F_eval hj0 hj1 hF),
      waves_eval (bulkDensity_pos h) (undrained_pos h.toGassmannRock hG).le hG hT.ne hq]

/-- The two closed regimes of the flow correction dissipate, whatever the Bessel functions do. -/
theorem C76_flow_regimes (j0 j1 : ℂ → ℂ) (ζ : ℝ) :
    (ζ < 0.1 → ∃ F, IsFlow j0 j1 ζ F ∧ 0 < F.re ∧ 0 ≤ F.im) ∧
    (1000 < ζ → ∃ F, IsFlow j0 j1 ζ F ∧ 0 < F.re ∧ 0 ≤ F.im) := by
  refine ⟨fun h => ⟨1, Or.inl ⟨h, rfl⟩, ?_, ?_⟩, fun h => ⟨_, Or.inr (Or.inr ⟨h, rfl⟩), ?_, ?_⟩⟩
  · rw [Complex.one_re]; exact one_pos
  · rw [Complex.one_im]
  · exact (flow_high h).2.2.1
  · exact (flow_high h).2.2.2.le

/-- The shear wave loses energy: its inverse quality factor is a positive number. -/
theorem C76_shear_attenuates (jv0 jv1 : Cx Fl → Cx Fl) (j0 j1 : ℂ → ℂ)
    (hj0 : ∀ z, jv0 (cx z) = cx (j0 z)) (hj1 : ∀ z, jv1 (cx z) = cx (j1 z))
    (h : BiotRock Kd G K0 Kf ρ0 ρf φ τ) (hG : 0 < G) (hη : 0 < η) (hκ : 0 < κ) (hf : 0 < f) (F : ℂ)
    (hF : IsFlow j0 j1 (√(2 * Real.pi * f * a ^ 2 * ρf / η)) F) (hF0 : 0 < F.re) (hF1 : 0 ≤ F.im) :
    0 < (Biot jv0 jv1 (fin Kd) (fin G) (fin K0) (fin Kf) (fin ρ0) (fin ρf) (fin η) (fin φ) (fin κ)
          (fin a) (fin τ) (fin f)).2.2.2.2.2 := by
  have hT := wave_lead_neg (G := G) h.toGassmannRock hG
  have hπ := Real.pi_pos
  have hρf := h.fluid
  have hφ := h.por_pos
  have hτ : 0 < τ := by linarith [h.tort]
  have hi : (drag ρf η φ κ τ (2 * Real.pi * f) F).im < 0 := by
    rw [drag_im]
    have : 0 < η * F.re / (2 * Real.pi * f * κ) := by positivity
    linarith
  have hr : ρf / φ ≤ (drag ρf η φ κ τ (2 * Real.pi * f) F).re := by
    rw [drag_re]
    have : 0 ≤ η * F.im / (2 * Real.pi * f * κ) := by positivity
    have : ρf / φ ≤ τ * ρf / φ := by
      rw [mul_div_assoc]
      exact le_mul_of_one_le_left (by positivity) h.tort
    linarith
  rw [Biot_eval jv0 jv1 h hη hκ hf (Biot_F_eval hj0 hj1 hF),
      waves_eval (bulkDensity_pos h) (undrained_pos h.toGassmannRock hG).le hG hT.ne hi.ne]
  have hρ : φ * ρf < bulkDensity ρ0 ρf φ := by
    have : 0 < (1 - φ) * ρ0 := mul_pos (by linarith [h.por_lt]) h.solid
    unfold bulkDensity; linarith
  generalize drag ρf η φ κ τ (2 * Real.pi * f) F = q at *
  generalize bulkDensity ρ0 ρf φ = ρ at *
  have hρ0 : 0 < ρ := lt_trans (by positivity) hρ
  have hq0 : q ≠ 0 := fun e => hi.ne (by rw [e, Complex.zero_im])
  have hw : (ρ * q - ρf ^ 2 : ℂ) ≠ 0 := fun e => by
    have := congrArg Complex.im e
    simp only [pow_two, Complex.sub_im, Complex.mul_im, Complex.ofReal_re, Complex.ofReal_im,
      Complex.zero_im] at this
    have : ρ * q.im < 0 := mul_neg_of_pos_of_neg hρ0 hi
    linarith
  have hn := Complex.normSq_pos.mpr hw
  have e : 1 / slow3 G ρ ρf q = ((G / Complex.normSq (ρ * q - ρf ^ 2) : ℝ) : ℂ)
      * (((ρ * Complex.normSq q - ρf ^ 2 * q.re : ℝ) : ℂ) + ((-(ρf ^ 2 * q.im) : ℝ) : ℂ) * Complex.I) := by
    have hG0 : (G : ℂ) ≠ 0 := Complex.ofReal_ne_zero.mpr hG.ne'
    have hn' : ((Complex.normSq (ρ * q - ρf ^ 2) : ℝ) : ℂ) ≠ 0 := Complex.ofReal_ne_zero.mpr hn.ne'
    have k : q * (starRingEnd ℂ) (ρ * q - ρf ^ 2)
        = ((ρ * Complex.normSq q - ρf ^ 2 * q.re : ℝ) : ℂ)
          + ((-(ρf ^ 2 * q.im) : ℝ) : ℂ) * Complex.I := by
      apply Complex.ext <;>
      simp only [pow_two, map_sub, map_mul, Complex.conj_ofReal, Complex.normSq_apply,
        Complex.mul_re, Complex.mul_im, Complex.sub_re, Complex.sub_im, Complex.add_re,
        Complex.add_im, Complex.ofReal_re, Complex.ofReal_im, Complex.conj_re, Complex.conj_im,
        Complex.I_re, Complex.I_im] <;> ring
    have k2 : ((Complex.normSq (ρ * q - ρf ^ 2) : ℝ) : ℂ)
        = (ρ * q - ρf ^ 2) * (starRingEnd ℂ) (ρ * q - ρf ^ 2) := (Complex.mul_conj _).symm
    rw [← k]
    unfold slow3
    rw [Complex.ofReal_div, k2]
    have hc : (starRingEnd ℂ) (ρ * q - ρf ^ 2) ≠ 0 := (map_ne_zero _).mpr hw
    generalize (starRingEnd ℂ) (ρ * q - ρf ^ 2) = c at *
    field
  have p1 : 0 < ρ * Complex.normSq q - ρf ^ 2 * q.re := by
    rw [Complex.normSq_apply]
    have a1 : ρf ≤ φ * q.re := by rwa [div_le_iff₀ hφ, mul_comm] at hr
    have hqr : 0 < q.re := lt_of_lt_of_le (by positivity) hr
    have a2 : ρf ^ 2 < ρ * q.re := by nlinarith
    have a3 : ρf ^ 2 * q.re < ρ * q.re * q.re := mul_lt_mul_of_pos_right a2 hqr
    have a4 : 0 ≤ ρ * (q.im * q.im) := mul_nonneg hρ0.le (mul_self_nonneg _)
    linarith
  have p2 : 0 < -(ρf ^ 2 * q.im) := by
    have : ρf ^ 2 * q.im < 0 := mul_neg_of_pos_of_neg (by positivity) hi
    linarith
  show 0 < fin (1 / slow3 G ρ ρf q).im / fin (1 / slow3 G ρ ρf q).re
  have q1 : (1 / slow3 G ρ ρf q).re
      = G / Complex.normSq (ρ * q - ρf ^ 2) * (ρ * Complex.normSq q - ρf ^ 2 * q.re) := by
    rw [e, Complex.re_ofReal_mul, Complex.add_re, Complex.ofReal_re, Complex.re_ofReal_mul, Complex.I_re,
      mul_zero, add_zero]
  have q2 : (1 / slow3 G ρ ρf q).im
      = G / Complex.normSq (ρ * q - ρf ^ 2) * (-(ρf ^ 2 * q.im)) := by
    rw [e, Complex.im_ofReal_mul, Complex.add_im, Complex.ofReal_im, Complex.im_ofReal_mul, Complex.I_im,
      mul_one, zero_add]
  have g : 0 < G / Complex.normSq (ρ * q - ρf ^ 2) := div_pos hG hn
  have q1' := mul_pos g p1
  rw [← q1] at q1'
  have q2' := mul_pos g p2
  rw [← q2] at q2'
  rw [fl_div q1'.ne', fl_zero, fin_lt]
  exact div_pos q2' q1'

/-- At zero frequency the function returns no number at all. -/
theorem C76_zero_frequency (jv0 jv1 : Cx Fl → Cx Fl) (Kd G K0 Kf ρ0 ρf η φ κ a τ : ℝ) :
    Biot jv0 jv1 (fin Kd) (fin G) (fin K0) (fin Kf) (fin ρ0) (fin ρf) (fin η) (fin φ) (fin κ)
        (fin a) (fin τ) 0 = (bad, bad, bad, bad, bad, bad) := by
  have hw : Cx.ofR (2 * pi * 0 * fin κ : Fl) = cx 0 := by
    rw [fl_nat, fl_pi, fl_zero, fl_mul, fl_mul, fl_mul, cx_ofR]
    simp
  unfold Biot
  dsimp only
  rw [hw, cx_div_zero]
  have hs : ∀ x : Fl, Cx.ofR x - (⟨bad, bad⟩ : Cx Fl) = ⟨bad, bad⟩ := fun x => by
    show Cx.mk _ _ = _
    simp only [fl]
  rw [hs]
  have o1 : ∀ x : Fl, Cx.ofR x * (⟨bad, bad⟩ : Cx Fl) = ⟨bad, bad⟩ := fun x => by
    show Cx.mk _ _ = _
    simp only [fl]
  have o2 : ∀ x : Cx Fl, (⟨bad, bad⟩ : Cx Fl) + x = ⟨bad, bad⟩ := fun x => rfl
  have o3 : ∀ x : Cx Fl, (⟨bad, bad⟩ : Cx Fl) - x = ⟨bad, bad⟩ := fun x => rfl
  have o4 : ∀ x : Cx Fl, x / (⟨bad, bad⟩ : Cx Fl) = ⟨bad, bad⟩ := fun x => by
    show Cx.mk _ _ = _
    simp only [fl]
  have o5 : ∀ x : Cx Fl, (⟨bad, bad⟩ : Cx Fl) / x = ⟨bad, bad⟩ := fun x => by
    show Cx.mk _ _ = _
    simp only [fl]
  have o6 : -(⟨bad, bad⟩ : Cx Fl) = ⟨bad, bad⟩ := rfl
  have o7 : Cx.sqrt (⟨bad, bad⟩ : Cx Fl) = ⟨bad, bad⟩ := by
    unfold Cx.sqrt Cx.abs
    simp only [fl]
    simp
  unfold Biot_waves
  dsimp only
  simp only [o1, o2, o3, o4, o5, o6, o7, fl]

/-! ## Limits -/

theorem phaseVelocity_tendsto {ι : Type} {l : Filter ι} {s : ι → ℂ} {r : ℝ} (hr : 0 < r)
    (h : Tendsto s l (nhds (r : ℂ))) : Tendsto (fun i => phaseVelocity (s i)) l (nhds √(1 / r)) := by
  have h1 := csqrt_tendsto hr.le h
  have h2 : Tendsto (fun i => (s i).sqrt.re) l (nhds √r) := by
    have := (Complex.continuous_re.tendsto _).comp h1
    rwa [Complex.ofReal_re] at this
  have h3 := (tendsto_const_nhds (x := (1 : ℝ))).div h2 (Real.sqrt_pos.mpr hr).ne'
  rw [Real.sqrt_div' 1 hr.le, Real.sqrt_one]
  exact h3

theorem quality_tendsto {ι : Type} {l : Filter ι} {s : ι → ℂ} {r : ℝ} (hr : 0 < r)
    (h : Tendsto s l (nhds (r : ℂ))) :
    (∀ᶠ i in l, 0 < (1 / s i).re) ∧ Tendsto (fun i => (1 / s i).im / (1 / s i).re) l (nhds 0) := by
  have hr' : (r : ℂ) ≠ 0 := Complex.ofReal_ne_zero.mpr hr.ne'
  have h1 : Tendsto (fun i => 1 / s i) l (nhds ((1 / r : ℝ) : ℂ)) := by
    have := (tendsto_const_nhds (x := (1 : ℂ))).div h hr'
    rwa [show (1 : ℂ) / r = ((1 / r : ℝ) : ℂ) by push_cast; rfl] at this
  have h2 : Tendsto (fun i => (1 / s i).re) l (nhds (1 / r)) := by
    have := (Complex.continuous_re.tendsto _).comp h1
    rwa [Complex.ofReal_re] at this
  have h3 : Tendsto (fun i => (1 / s i).im) l (nhds 0) := by
    have := (Complex.continuous_im.tendsto _).comp h1
    rwa [Complex.ofReal_im] at this
  have p : 0 < 1 / r := by positivity
  refine ⟨h2.eventually (lt_mem_nhds p), ?_⟩
  have := h3.div h2 p.ne'
  rwa [zero_div] at this

/-- Biot's characteristic polynomial in terms of the drag at infinite frequency. -/
theorem biotDet_eq (h : BiotRock Kd G K0 Kf ρ0 ρf φ τ) (x : ℝ) :
    biotDet Kd G K0 Kf ρ0 ρf φ τ x
      = φ ^ 2 * ((undrained Kd G K0 Kf φ - bulkDensity ρ0 ρf φ * x)
          * (storage Kd K0 Kf φ - τ * ρf / φ * x)
        - (biotCoef Kd K0 * storage Kd K0 Kf φ - ρf * x) ^ 2) := by
  have hd := h.den_pos
  have h0 := (GassmannRock.mineral_pos h.toGassmannRock).ne'
  have hf := h.fluid_pos.ne'
  have hφ := h.por_pos.ne'
  have eM : storage Kd K0 Kf φ = K0 / (1 - φ - Kd / K0 + φ * K0 / Kf) := by
    have e : (biotCoef Kd K0 - φ) / K0 + φ / Kf = (1 - φ - Kd / K0 + φ * K0 / Kf) / K0 := by
      unfold biotCoef; field
    unfold storage
    rw [e, inv_div]
  have eR : biotR Kd K0 Kf φ = φ ^ 2 * storage Kd K0 Kf φ := by
    unfold biotR; rw [eM]; ring
  have eQ : biotQ Kd K0 Kf φ = φ * (biotCoef Kd K0 - φ) * storage Kd K0 Kf φ := by
    unfold biotQ biotCoef; rw [eM]; ring
  have eP : biotP Kd G K0 Kf φ
      = undrained Kd G K0 Kf φ - 2 * φ * (biotCoef Kd K0 * storage Kd K0 Kf φ)
        + φ ^ 2 * storage Kd K0 Kf φ := by
    unfold biotP undrained biotCoef; rw [eM]
    have ek : Kd = K0 * (Kd / K0) := by field
    generalize Kd / K0 = k at *
    generalize φ * K0 / Kf = t at *
    subst ek
    generalize hD : 1 - φ - k + t = D at *
    have : t = D - (1 - φ - k) := by linarith
    subst this
    field
  unfold biotDet
  rw [eP, eQ, eR]
  unfold biotRho11 biotRho12 biotRho22 bulkDensity
  generalize undrained Kd G K0 Kf φ = H
  generalize storage Kd K0 Kf φ = M
  generalize biotCoef Kd K0 = β
  field

/-- At high frequency the drag tends to the inertia of the pore fluid. -/
theorem drag_high (hρf : 0 < ρf) (hη : 0 < η) (hκ : 0 < κ) (ha : 0 < a) :
    (∀ᶠ f in atTop, 1000 < poreParam ρf η a f) ∧
    Tendsto (fun f => drag ρf η φ κ τ (2 * Real.pi * f)
      (flowCorrection (poreParam ρf η a f) ((1 + Complex.I) / √2))) atTop
      (nhds ((τ * ρf / φ : ℝ) : ℂ)) := by
  have hπ := Real.pi_pos
  have hz : Tendsto (fun f => poreParam ρf η a f) atTop atTop := by
    unfold poreParam
    apply Real.tendsto_sqrt_atTop.comp
    have : ∀ f : ℝ, 2 * Real.pi * f * a ^ 2 * ρf / η = 2 * Real.pi * a ^ 2 * ρf / η * f :=
      fun f => by ring
    simp only [this]
    exact tendsto_id.const_mul_atTop (by positivity)
  have hev := hz.eventually (eventually_gt_atTop 1000)
  refine ⟨hev, ?_⟩
  have hpos : ∀ᶠ f : ℝ in atTop, 0 < f := eventually_gt_atTop 0
  have hb : ∀ᶠ f in atTop, ‖Complex.I * (η * flowCorrection (poreParam ρf η a f) ((1 + Complex.I) / √2)
      / ((2 * Real.pi * f : ℝ) * κ))‖ ≤ a ^ 2 * ρf * √2 / (4 * κ) / poreParam ρf η a f := by
    filter_upwards [hev, hpos] with f hζ hf
    have hζ0 : 0 < poreParam ρf η a f := by linarith
    have e2 : poreParam ρf η a f ^ 2 = 2 * Real.pi * f * a ^ 2 * ρf / η := by
      unfold poreParam; rw [Real.sq_sqrt (by positivity)]
    rw [(flow_high hζ).2.1]
    generalize poreParam ρf η a f = ζ at *
    have hw : ζ / √2 ≤ ‖((ζ / √2 : ℂ) + (2 - ζ / √2 : ℝ) * Complex.I)‖ := by
      have := le_of_abs_le (Complex.abs_re_le_norm ((ζ / √2 : ℂ) + (2 - ζ / √2 : ℝ) * Complex.I))
      rw [← Complex.ofReal_div, Complex.add_re, Complex.ofReal_re, Complex.re_ofReal_mul, Complex.I_re,
        mul_zero, add_zero] at this
      rwa [← Complex.ofReal_div]
    have s2 : (0 : ℝ) < √2 := by positivity
    have hw0 : 0 < ‖((ζ / √2 : ℂ) + (2 - ζ / √2 : ℝ) * Complex.I)‖ :=
      lt_of_lt_of_le (by positivity) hw
    rw [norm_mul, Complex.norm_I, one_mul, norm_div, norm_mul, norm_div, norm_mul, norm_mul, norm_pow,
      Complex.norm_real, Complex.norm_real, Complex.norm_real, Complex.norm_real,
      Complex.norm_ofNat, Real.norm_of_nonneg hη.le, Real.norm_of_nonneg hκ.le,
      Real.norm_of_nonneg hζ0.le, Real.norm_of_nonneg (by positivity)]
    generalize ‖((ζ / √2 : ℂ) + (2 - ζ / √2 : ℝ) * Complex.I)‖ = w at *
    rw [e2]
    have e3 : η * (2 * Real.pi * f * a ^ 2 * ρf / η / (4 * w)) / (2 * Real.pi * f * κ)
        = a ^ 2 * ρf / (4 * κ) / w := by field
    have e4 : a ^ 2 * ρf * √2 / (4 * κ) / ζ = a ^ 2 * ρf / (4 * κ) / (ζ / √2) := by field
    rw [e3, e4]
    exact div_le_div_of_nonneg_left (by positivity) (by positivity) hw
  have h0 : Tendsto (fun f => Complex.I * (η * flowCorrection (poreParam ρf η a f) ((1 + Complex.I) / √2)
      / ((2 * Real.pi * f : ℝ) * κ))) atTop (nhds 0) :=
    squeeze_zero_norm' hb (hz.const_div_atTop _)
  have h1 := h0.const_sub ((τ * ρf / φ : ℝ) : ℂ)
  rw [sub_zero] at h1
  refine h1.congr fun f => ?_
  unfold drag
  push_cast; rfl

theorem slow_tendsto {ι : Type} {l : Filter ι} {Q : ι → ℂ} {q0 : ℝ} (M C H ρ ρf : ℝ)
    (hT : C ^ 2 - M * H ≠ 0)
    (hd : 0 ≤ (H * q0 + M * ρ - 2 * C * ρf) ^ 2 - 4 * (C ^ 2 - M * H) * (ρf ^ 2 - ρ * q0))
    (h : Tendsto Q l (nhds (q0 : ℂ))) :
    Tendsto (fun i => slow1 M C H ρ ρf (Q i)) l (nhds
      (((-(H * q0 + M * ρ - 2 * C * ρf) + √((H * q0 + M * ρ - 2 * C * ρf) ^ 2
        - 4 * (C ^ 2 - M * H) * (ρf ^ 2 - ρ * q0))) / (2 * (C ^ 2 - M * H)) : ℝ) : ℂ)) ∧
    Tendsto (fun i => slow2 M C H ρ ρf (Q i)) l (nhds
      (((-(H * q0 + M * ρ - 2 * C * ρf) - √((H * q0 + M * ρ - 2 * C * ρf) ^ 2
        - 4 * (C ^ 2 - M * H) * (ρf ^ 2 - ρ * q0))) / (2 * (C ^ 2 - M * H)) : ℝ) : ℂ)) := by
  have hT' : (2 * ((C ^ 2 - M * H : ℝ) : ℂ)) ≠ 0 :=
    mul_ne_zero two_ne_zero (Complex.ofReal_ne_zero.mpr hT)
  have hb : Tendsto (fun i => H * Q i + M * ρ - 2 * C * ρf) l
      (nhds ((H * q0 + M * ρ - 2 * C * ρf : ℝ) : ℂ)) := by
    have := ((h.const_mul (H : ℂ)).add_const ((M * ρ : ℝ) : ℂ)).sub_const ((2 * C * ρf : ℝ) : ℂ)
    push_cast at this ⊢
    exact this
  have hd' : Tendsto (fun i => (H * Q i + M * ρ - 2 * C * ρf) * (H * Q i + M * ρ - 2 * C * ρf)
      - 4 * ((C ^ 2 - M * H : ℝ) : ℂ) * (ρf ^ 2 - ρ * Q i)) l
      (nhds (((H * q0 + M * ρ - 2 * C * ρf) ^ 2 - 4 * (C ^ 2 - M * H) * (ρf ^ 2 - ρ * q0) : ℝ) : ℂ)) := by
    have h1 := (h.const_mul (ρ : ℂ)).const_sub ((ρf ^ 2 : ℝ) : ℂ)
    have := (hb.mul hb).sub (h1.const_mul (4 * ((C ^ 2 - M * H : ℝ) : ℂ)))
    push_cast at this ⊢
    rw [pow_two ((H : ℂ) * q0 + M * ρ - 2 * C * ρf)]
    exact this
  have hs := csqrt_tendsto hd hd'
  constructor
  · have := (hb.neg.add hs).div_const (2 * ((C ^ 2 - M * H : ℝ) : ℂ))
    unfold slow1
    push_cast at this ⊢
    exact this
  · have := (hb.neg.sub hs).div_const (2 * ((C ^ 2 - M * H : ℝ) : ℂ))
    unfold slow2
    push_cast at this ⊢
    exact this

theorem quad_swap {B S A c : ℝ} (hS : S ^ 2 = B ^ 2 - 4 * A * c) (hA : A < 0) (hc : c < 0)
    (hB : 0 ≤ B) (hS0 : 0 ≤ S) :
    0 < (-B + S) / (2 * A) ∧ 0 < (-B - S) / (2 * A) ∧
    1 / ((-B + S) / (2 * A)) = (B + S) / (-(2 * c)) ∧
    1 / ((-B - S) / (2 * A)) = (B - S) / (-(2 * c)) := by
  have hAc : 0 < A * c := mul_pos_of_neg_of_neg hA hc
  have h1 : S < B := by nlinarith
  have h2 : -B + S ≠ 0 := by linarith
  have h3 : -B - S ≠ 0 := by linarith
  refine ⟨div_pos_of_neg_of_neg (by linarith) (by linarith),
    div_pos_of_neg_of_neg (by linarith) (by linarith), ?_, ?_⟩
  · rw [one_div_div, div_eq_div_iff h2 (by linarith)]
    linear_combination -hS
  · rw [one_div_div, div_eq_div_iff h3 (by linarith)]
    linear_combination -hS

/-- At high frequency the three velocities tend to those of `Fluid.Biot_HF`. -/
theorem C76_high_frequency (jv0 jv1 : Cx Fl → Cx Fl) (h : BiotRock Kd G K0 Kf ρ0 ρf φ τ)
    (hG : 0 < G) (hη : 0 < η) (hκ : 0 < κ) (ha : 0 < a) :
    ∃ vf vs v : ℝ,
      Biot_HF (fin Kd) (fin G) (fin K0) (fin Kf) (fin ρ0) (fin ρf) (fin φ) (fin τ)
        = (fin vf, fin vs, fin v) ∧
      TendsTo (fun f => (Biot jv0 jv1 (fin Kd) (fin G) (fin K0) (fin Kf) (fin ρ0) (fin ρf) (fin η)
        (fin φ) (fin κ) (fin a) (fin τ) (fin f)).1) atTop vf ∧
      TendsTo (fun f => (Biot jv0 jv1 (fin Kd) (fin G) (fin K0) (fin Kf) (fin ρ0) (fin ρf) (fin η)
        (fin φ) (fin κ) (fin a) (fin τ) (fin f)).2.1) atTop vs ∧
      TendsTo (fun f => (Biot jv0 jv1 (fin Kd) (fin G) (fin K0) (fin Kf) (fin ρ0) (fin ρf) (fin η)
        (fin φ) (fin κ) (fin a) (fin τ) (fin f)).2.2.1) atTop v := by
  obtain ⟨Δ, T3, T4, h3, h4, hΔ, hD, hdet, e⟩ := Biot_HF_eval h
  have hT := wave_lead_neg (G := G) h.toGassmannRock hG
  have hφ := h.por_pos
  have hτ : 0 < τ := by linarith [h.tort]
  have hρf := h.fluid
  have hρ := bulkDensity_pos h
  obtain ⟨Q, hQ, hev⟩ : ∃ Q : ℝ → ℂ, Tendsto Q atTop (nhds ((τ * ρf / φ : ℝ) : ℂ)) ∧
      ∀ᶠ f in atTop, Biot jv0 jv1 (fin Kd) (fin G) (fin K0) (fin Kf) (fin ρ0) (fin ρf)
        (fin η) (fin φ) (fin κ) (fin a) (fin τ) (fin f)
      = Biot_waves (fin (storage Kd K0 Kf φ)) (fin (biotCoef Kd K0 * storage Kd K0 Kf φ))
          (fin (undrained Kd G K0 Kf φ)) (fin G) (fin (bulkDensity ρ0 ρf φ)) (fin ρf) (cx (Q f))
      ∧ (Q f).im ≠ 0 := by
    obtain ⟨hev, hdrag⟩ := drag_high (φ := φ) (τ := τ) h.fluid hη hκ ha
    refine ⟨_, hdrag, ?_⟩
    filter_upwards [hev, eventually_gt_atTop 0] with f hζ hf
    refine ⟨Biot_eval jv0 jv1 h hη hκ hf (Biot_F_high _ _ hζ (flow_high hζ).1), ?_⟩
    rw [drag_im]
    have := Real.pi_pos
    have := (flow_high hζ).2.2.1
    have : 0 < η * (flowCorrection (poreParam ρf η a f) ((1 + Complex.I) / √2)).re
      / (2 * Real.pi * f * κ) := by positivity
    linarith
  have hH := undrained_pos h.toGassmannRock hG
  have hpoly : ∀ x, T3 * x ^ 2 - Δ * x + T4
      = φ ^ 2 * ((undrained Kd G K0 Kf φ - bulkDensity ρ0 ρf φ * x)
          * (storage Kd K0 Kf φ - τ * ρf / φ * x)
        - (biotCoef Kd K0 * storage Kd K0 Kf φ - ρf * x) ^ 2) :=
    fun x => by rw [← hdet, biotDet_eq h]
  have hmass : ρf ^ 2 - bulkDensity ρ0 ρf φ * (τ * ρf / φ) < 0 := by
    have a1 : φ * ρf < bulkDensity ρ0 ρf φ := by
      have : 0 < (1 - φ) * ρ0 := mul_pos (by linarith [h.por_lt]) h.solid
      unfold bulkDensity; linarith
    have a2 : ρf / φ ≤ τ * ρf / φ := by
      rw [mul_div_assoc]
      exact le_mul_of_one_le_left (by positivity) h.tort
    have a3 : ρf ^ 2 < bulkDensity ρ0 ρf φ * (ρf / φ) := by
      have : φ * ρf * (ρf / φ) = ρf ^ 2 := by field
      rw [← this]
      exact mul_lt_mul_of_pos_right a1 (by positivity)
    have := mul_le_mul_of_nonneg_left a2 hρ.le
    linarith
  have hvs : (1 - φ) * ρ0 + φ * ρf - φ * ρf * τ⁻¹
      = (bulkDensity ρ0 ρf φ * (τ * ρf / φ) - ρf ^ 2) / (τ * ρf / φ) := by
    unfold bulkDensity; field
  have hq0 : 0 < τ * ρf / φ := by positivity
  rw [hvs] at e
  generalize storage Kd K0 Kf φ = M at *
  generalize biotCoef Kd K0 * M = C at *
  generalize undrained Kd G K0 Kf φ = H at *
  generalize bulkDensity ρ0 ρf φ = ρ at *
  generalize τ * ρf / φ = q0 at *
  have c4 : T4 = φ ^ 2 * (H * M - C ^ 2) := by have := hpoly 0; linarith
  have c3 : T3 = φ ^ 2 * (ρ * q0 - ρf ^ 2) := by
    have := hpoly 1; have := hpoly (-1); linarith
  have cΔ : Δ = φ ^ 2 * (H * q0 + M * ρ - 2 * C * ρf) := by
    have := hpoly 1; have := hpoly (-1); linarith
  have hφ2 : 0 < φ ^ 2 := by positivity
  have hdisc : Δ ^ 2 - 4 * T3 * T4 = (φ ^ 2) ^ 2 * ((H * q0 + M * ρ - 2 * C * ρf) ^ 2
      - 4 * (C ^ 2 - M * H) * (ρf ^ 2 - ρ * q0)) := by rw [c3, c4, cΔ]; ring
  have hd : 0 ≤ (H * q0 + M * ρ - 2 * C * ρf) ^ 2
      - 4 * (C ^ 2 - M * H) * (ρf ^ 2 - ρ * q0) := by
    rw [hdisc] at hD
    exact nonneg_of_mul_nonneg_right hD (by positivity)
  have hB : 0 ≤ H * q0 + M * ρ - 2 * C * ρf := by
    rw [cΔ] at hΔ
    exact nonneg_of_mul_nonneg_right hΔ hφ2
  have hroot : √(Δ ^ 2 - 4 * T3 * T4) = φ ^ 2 * √((H * q0 + M * ρ - 2 * C * ρf) ^ 2
      - 4 * (C ^ 2 - M * H) * (ρf ^ 2 - ρ * q0)) := by
    rw [hdisc, Real.sqrt_mul (by positivity), Real.sqrt_sq hφ2.le]
  obtain ⟨t1, t2⟩ := slow_tendsto M C H ρ ρf hT.ne hd hQ
  have hS2 := Real.sq_sqrt hd
  have hS0 := Real.sqrt_nonneg ((H * q0 + M * ρ - 2 * C * ρf) ^ 2
      - 4 * (C ^ 2 - M * H) * (ρf ^ 2 - ρ * q0))
  rw [hroot, cΔ, c3] at e
  generalize √((H * q0 + M * ρ - 2 * C * ρf) ^ 2
      - 4 * (C ^ 2 - M * H) * (ρf ^ 2 - ρ * q0)) = S at *
  obtain ⟨p1, p2, i1, i2⟩ := quad_swap hS2 hT hmass hB hS0
  have t3 : Tendsto (fun f => slow3 G ρ ρf (Q f)) atTop
      (nhds (((ρ * q0 - ρf ^ 2) / (G * q0) : ℝ) : ℂ)) := by
    have g0 : (G * q0 : ℂ) ≠ 0 := by
      rw [← Complex.ofReal_mul]
      exact Complex.ofReal_ne_zero.mpr (mul_pos hG hq0).ne'
    have := ((hQ.const_mul (ρ : ℂ)).sub_const ((ρf ^ 2 : ℝ) : ℂ)).div (hQ.const_mul (G : ℂ)) g0
    unfold slow3
    push_cast at this ⊢
    exact this
  have p3 : 0 < (ρ * q0 - ρf ^ 2) / (G * q0) := div_pos (by linarith) (mul_pos hG hq0)
  have v1 := phaseVelocity_tendsto p1 t1
  have v2 := phaseVelocity_tendsto p2 t2
  have v3 := phaseVelocity_tendsto p3 t3
  rw [i1] at v1
  rw [i2] at v2
  have j1 : (φ ^ 2 * (H * q0 + M * ρ - 2 * C * ρf) + φ ^ 2 * S) / (2 * (φ ^ 2 * (ρ * q0 - ρf ^ 2)))
      = (H * q0 + M * ρ - 2 * C * ρf + S) / (-(2 * (ρf ^ 2 - ρ * q0))) := by
    have : ρf ^ 2 - ρ * q0 ≠ 0 := hmass.ne
    have : ρ * q0 - ρf ^ 2 ≠ 0 := by linarith
    rw [div_eq_div_iff (by positivity) (by linarith)]; ring
  have j2 : (φ ^ 2 * (H * q0 + M * ρ - 2 * C * ρf) - φ ^ 2 * S) / (2 * (φ ^ 2 * (ρ * q0 - ρf ^ 2)))
      = (H * q0 + M * ρ - 2 * C * ρf - S) / (-(2 * (ρf ^ 2 - ρ * q0))) := by
    have : ρf ^ 2 - ρ * q0 ≠ 0 := hmass.ne
    have : ρ * q0 - ρf ^ 2 ≠ 0 := by linarith
    rw [div_eq_div_iff (by positivity) (by linarith)]; ring
  have j3 : 1 / ((ρ * q0 - ρf ^ 2) / (G * q0)) = G / ((ρ * q0 - ρf ^ 2) / q0) := by field
  rw [j1, j2] at e
  rw [j3] at v3
  refine ⟨_, _, _, e, ⟨_, ?_, v1⟩, ⟨_, ?_, v2⟩, ⟨_, ?_, v3⟩⟩
  all_goals
    filter_upwards [hev] with f hf
    rw [hf.1, waves_eval hρ hH.le hG hT.ne hf.2]

/-! ### Low frequency -/

theorem slow_sum (hT : C ^ 2 - M * H ≠ 0) (q : ℂ) :
    slow1 M C H ρ ρf q + slow2 M C H ρ ρf q
      = -(H * q + M * ρ - 2 * C * ρf) / ((C ^ 2 - M * H : ℝ) : ℂ) := by
  have h' : ((C ^ 2 - M * H : ℝ) : ℂ) ≠ 0 := Complex.ofReal_ne_zero.mpr hT
  unfold slow1 slow2
  generalize ((H * q + M * ρ - 2 * C * ρf) * (H * q + M * ρ - 2 * C * ρf)
      - 4 * ((C ^ 2 - M * H : ℝ) : ℂ) * (ρf ^ 2 - ρ * q)).sqrt = r at *
  generalize ((C ^ 2 - M * H : ℝ) : ℂ) = T at *
  field

/-- Real part of the root of the discriminant at low frequency, up to its sign. -/
noncomputable def lowShift (M C H ρ ρf : ℝ) : ℝ := -M * ρ + 2 * C * (C * ρ - H * ρf) / H

theorem disc_low (hH : H ≠ 0) (q : ℂ) :
    (H * q + M * ρ - 2 * C * ρf) * (H * q + M * ρ - 2 * C * ρf)
      - 4 * ((C ^ 2 - M * H : ℝ) : ℂ) * (ρf ^ 2 - ρ * q)
    = (H * q + lowShift M C H ρ ρf) * (H * q + lowShift M C H ρ ρf)
      + ((M ^ 2 * ρ ^ 2 - 4 * M * ρf * (C * ρ - H * ρf) - lowShift M C H ρ ρf ^ 2 : ℝ) : ℂ) := by
  have hH' : (H : ℂ) ≠ 0 := Complex.ofReal_ne_zero.mpr hH
  unfold lowShift
  push_cast
  field

theorem low_norm {ι : Type} {l : Filter ι} {Q : ι → ℂ} {k : ℝ} (hH : 0 < H)
    (hi : Tendsto (fun i => (Q i).im) l atBot) :
    Tendsto (fun i => ‖(H : ℂ) * Q i + k‖) l atTop := by
  refine tendsto_atTop_mono (f := fun i => H * (-(Q i).im)) (fun i => ?_) ?_
  · have := neg_le_of_abs_le (Complex.abs_im_le_norm ((H : ℂ) * Q i + k))
    rw [Complex.add_im, Complex.im_ofReal_mul, Complex.ofReal_im] at this
    linarith
  · exact (tendsto_neg_atBot_atTop.comp hi).const_mul_atTop hH

/-- The root with the sign of the fast wave, at low frequency. -/
theorem low_slow1 {ι : Type} {l : Filter ι} {Q : ι → ℂ} {q0 : ℝ} (hH : 0 < H)
    (hT : C ^ 2 - M * H ≠ 0) (hr : ∀ i, (Q i).re = q0)
    (hi : Tendsto (fun i => (Q i).im) l atBot) (hs : 0 < H * q0 + lowShift M C H ρ ρf) :
    Tendsto (fun i => slow1 M C H ρ ρf (Q i)) l (nhds ((ρ / H : ℝ) : ℂ)) := by
  have hT' : ((C ^ 2 - M * H : ℝ) : ℂ) ≠ 0 := Complex.ofReal_ne_zero.mpr hT
  have hH' : (H : ℂ) ≠ 0 := Complex.ofReal_ne_zero.mpr hH.ne'
  have k := csqrt_sq_add_tendsto (u := fun i => (H : ℂ) * Q i + lowShift M C H ρ ρf)
    ((M ^ 2 * ρ ^ 2 - 4 * M * ρf * (C * ρ - H * ρf) - lowShift M C H ρ ρf ^ 2 : ℝ) : ℂ) hs
    (fun i => by rw [Complex.add_re, Complex.re_ofReal_mul, Complex.ofReal_re, hr]) (low_norm hH hi)
  have k2 := (k.div_const (2 * ((C ^ 2 - M * H : ℝ) : ℂ))).add_const ((ρ / H : ℝ) : ℂ)
  rw [zero_div, zero_add] at k2
  refine k2.congr fun i => ?_
  unfold slow1
  rw [disc_low hH.ne']
  generalize ((H * Q i + lowShift M C H ρ ρf) * (H * Q i + lowShift M C H ρ ρf)
      + ((M ^ 2 * ρ ^ 2 - 4 * M * ρf * (C * ρ - H * ρf) - lowShift M C H ρ ρf ^ 2 : ℝ) : ℂ)).sqrt = r
  have e : ((C ^ 2 - M * H : ℝ) : ℂ) = C ^ 2 - M * H := by push_cast; rfl
  rw [e] at hT' ⊢
  rw [mul_comm (M : ℂ) H] at hT' ⊢
  unfold lowShift
  push_cast
  field

theorem low_slow2 {ι : Type} {l : Filter ι} {Q : ι → ℂ} {q0 : ℝ} (hH : 0 < H)
    (hT : C ^ 2 - M * H ≠ 0) (hr : ∀ i, (Q i).re = q0)
    (hi : Tendsto (fun i => (Q i).im) l atBot) (hs : H * q0 + lowShift M C H ρ ρf < 0) :
    Tendsto (fun i => slow2 M C H ρ ρf (Q i)) l (nhds ((ρ / H : ℝ) : ℂ)) := by
  have hT' : ((C ^ 2 - M * H : ℝ) : ℂ) ≠ 0 := Complex.ofReal_ne_zero.mpr hT
  have hH' : (H : ℂ) ≠ 0 := Complex.ofReal_ne_zero.mpr hH.ne'
  have k := csqrt_sq_add_tendsto (u := fun i => -((H : ℂ) * Q i + lowShift M C H ρ ρf))
    ((M ^ 2 * ρ ^ 2 - 4 * M * ρf * (C * ρ - H * ρf) - lowShift M C H ρ ρf ^ 2 : ℝ) : ℂ)
    (r := -(H * q0 + lowShift M C H ρ ρf)) (by linarith)
    (fun i => by
      rw [Complex.neg_re, Complex.add_re, Complex.re_ofReal_mul, Complex.ofReal_re, hr])
    (by simpa only [norm_neg] using low_norm hH hi)
  have k2 := (k.neg.div_const (2 * ((C ^ 2 - M * H : ℝ) : ℂ))).add_const ((ρ / H : ℝ) : ℂ)
  rw [neg_zero, zero_div, zero_add] at k2
  refine k2.congr fun i => ?_
  unfold slow2
  rw [disc_low hH.ne', neg_mul_neg]
  generalize ((H * Q i + lowShift M C H ρ ρf) * (H * Q i + lowShift M C H ρ ρf)
      + ((M ^ 2 * ρ ^ 2 - 4 * M * ρf * (C * ρ - H * ρf) - lowShift M C H ρ ρf ^ 2 : ℝ) : ℂ)).sqrt = r
  have e : ((C ^ 2 - M * H : ℝ) : ℂ) = C ^ 2 - M * H := by push_cast; rfl
  rw [e] at hT' ⊢
  rw [mul_comm (M : ℂ) H] at hT' ⊢
  unfold lowShift
  push_cast
  field

/-- The other root moves off to infinity: its velocity vanishes. -/
theorem other_velocity {ι : Type} {l : Filter ι} {Q s t : ι → ℂ} {q0 r T B : ℝ} (hH : 0 < H)
    (hT : T < 0) (hr : ∀ i, (Q i).re = q0) (hi : Tendsto (fun i => (Q i).im) l atBot)
    (hsum : ∀ i, s i + t i = -(H * Q i + (B : ℂ)) / (T : ℂ))
    (hs : Tendsto s l (nhds (r : ℂ))) : Tendsto (fun i => phaseVelocity (t i)) l (nhds 0) := by
  have e : ∀ i, t i = (((-H / T : ℝ) : ℂ) * Q i + ((-B / T : ℝ) : ℂ)) - s i := fun i => by
    have hT' : (T : ℂ) ≠ 0 := Complex.ofReal_ne_zero.mpr hT.ne
    have := hsum i
    rw [eq_comm, sub_eq_iff_eq_add, add_comm (t i), this]
    push_cast
    field
  have hp : 0 < -H / T := div_pos_of_neg_of_neg (by linarith) hT
  have tre : Tendsto (fun i => (t i).re) l (nhds (-H / T * q0 + -B / T - r)) := by
    have h1 : Tendsto (fun i => (s i).re) l (nhds r) := by
      have := (Complex.continuous_re.tendsto _).comp hs
      rwa [Complex.ofReal_re] at this
    refine (h1.const_sub (-H / T * q0 + -B / T)).congr fun i => ?_
    rw [e i, Complex.sub_re, Complex.add_re, Complex.re_ofReal_mul, Complex.ofReal_re, hr]
  have tim : Tendsto (fun i => (t i).im) l atBot := by
    have h1 : Tendsto (fun i => (s i).im) l (nhds 0) := by
      have := (Complex.continuous_im.tendsto _).comp hs
      rwa [Complex.ofReal_im] at this
    have h2 : Tendsto (fun i => -H / T * (Q i).im + -(s i).im) l atBot :=
      (hi.const_mul_atBot hp).atBot_add h1.neg
    refine h2.congr fun i => ?_
    rw [e i, Complex.sub_im, Complex.add_im, Complex.im_ofReal_mul, Complex.ofReal_im]
    ring
  have tn : Tendsto (fun i => ‖t i‖) l atTop := by
    refine tendsto_atTop_mono (f := fun i => -(t i).im) (fun i => ?_) (tendsto_neg_atBot_atTop.comp tim)
    have := neg_le_of_abs_le (Complex.abs_im_le_norm (t i))
    linarith
  have tsum : Tendsto (fun i => (‖t i‖ + (t i).re) / 2) l atTop :=
    (tn.atTop_add tre).atTop_div_const (by norm_num)
  have troot := Real.tendsto_sqrt_atTop.comp tsum
  have := troot.const_div_atTop 1
  refine this.congr fun i => ?_
  unfold phaseVelocity
  rw [csqrt_re]; rfl

/-- At low frequency the drag is dominated by viscosity. -/
theorem drag_low (hη : 0 < η) (hκ : 0 < κ) :
    (∀ᶠ f in nhdsWithin 0 (Set.Ioi 0), 0 < f ∧ poreParam ρf η a f < 0.1) ∧
    (∀ f : ℝ, (drag ρf η φ κ τ (2 * Real.pi * f) 1).re = τ * ρf / φ) ∧
    Tendsto (fun f => (drag ρf η φ κ τ (2 * Real.pi * f) 1).im) (nhdsWithin 0 (Set.Ioi 0)) atBot := by
  have hπ := Real.pi_pos
  refine ⟨?_, fun f => ?_, ?_⟩
  · have hc : Continuous (fun f => poreParam ρf η a f) := by unfold poreParam; fun_prop
    have h0 : poreParam ρf η a 0 < 0.1 := by unfold poreParam; norm_num
    have := (hc.tendsto 0).eventually (gt_mem_nhds h0)
    exact (eventually_mem_nhdsWithin.mono fun f hf => hf).and (this.filter_mono nhdsWithin_le_nhds)
  · rw [drag_re, Complex.one_im]; simp
  · have e : ∀ f : ℝ, (drag ρf η φ κ τ (2 * Real.pi * f) 1).im = -(η / (2 * Real.pi * κ) * f⁻¹) :=
      fun f => by
        rw [drag_im, Complex.one_re, mul_one, show 2 * Real.pi * f * κ = 2 * Real.pi * κ * f by ring,
          div_mul_eq_div_div, div_eq_mul_inv (η / (2 * Real.pi * κ))]
    simp only [e]
    exact tendsto_neg_atTop_atBot.comp (tendsto_inv_nhdsGT_zero.const_mul_atTop (by positivity))

theorem vels_eval (h : BiotRock Kd G K0 Kf ρ0 ρf φ τ) :
    vels (fin Kd) (fin G) (fin K0) (fin ρ0) (fin Kf) (fin ρf) (fin φ)
      = (fin (1000 * √(1 / (bulkDensity ρ0 ρf φ / undrained Kd G K0 Kf φ))),
         fin (1000 * √(1 / (bulkDensity ρ0 ρf φ / G))), fin (bulkDensity ρ0 ρf φ)) := by
  have h0 := GassmannRock.mineral_pos h.toGassmannRock
  have g := GassmannRock.gK_gt h.toGassmannRock
  have g0 : 0 < gK Kd K0 Kf φ := lt_of_le_of_lt h.dry_nonneg g
  have hφ1 : 0 < 1 - φ := by linarith [h.por_lt]
  have hφ := h.por_pos; have hs := h.solid; have hf := h.fluid; have hG := h.shear
  have hB := GassmannRock.gB_pos h.toGassmannRock
  have eH : undrained Kd G K0 Kf φ = gK Kd K0 Kf φ + 4 / 3 * G := by
    have hkf := h.fluid_pos.ne'
    have e : gB Kd K0 Kf φ = K0 * (1 + φ * (K0 / Kf - 1)) - Kd := by unfold gB; field
    unfold undrained gK
    rw [storage_eq h.toGassmannRock, ← e]
    unfold biotCoef
    generalize gB Kd K0 Kf φ = B at *
    field
  have eρ : bulkDensity ρ0 ρf φ = ρ0 * (1 - φ) + ρf * φ := by unfold bulkDensity; ring
  rw [one_div_div, one_div_div, eH, eρ]
  unfold vels
  rw [Gassmann_eval h0.ne' h.fluid_pos.ne' hB.ne']
  have c : (4. : ℝ) / 3 = 4 / 3 := by norm_num
  have c2 : (1e3 : ℝ) = 1000 := by norm_num
  fl_eval [c, c2]
  simp only [mul_comm (√_)]

theorem slow3_low {ι : Type} {l : Filter ι} {Q : ι → ℂ} (hG : 0 < G)
    (hi : Tendsto (fun i => (Q i).im) l atBot) :
    Tendsto (fun i => slow3 G ρ ρf (Q i)) l (nhds ((ρ / G : ℝ) : ℂ)) := by
  have hn : Tendsto (fun i => ‖Q i‖) l atTop := by
    refine tendsto_atTop_mono (f := fun i => -(Q i).im) (fun i => ?_) (tendsto_neg_atBot_atTop.comp hi)
    have := neg_le_of_abs_le (Complex.abs_im_le_norm (Q i))
    linarith
  have hinv : Tendsto (fun i => (Q i)⁻¹) l (nhds 0) := by
    rw [tendsto_zero_iff_norm_tendsto_zero]
    refine (tendsto_inv_atTop_zero.comp hn).congr fun i => ?_
    rw [norm_inv]; rfl
  have h1 := ((hinv.const_mul ((ρf ^ 2 : ℝ) : ℂ)).const_sub (ρ : ℂ)).div_const (G : ℂ)
  rw [mul_zero, sub_zero] at h1
  have hne : ∀ᶠ i in l, Q i ≠ 0 := by
    filter_upwards [hn.eventually (eventually_gt_atTop 0)] with i h
    exact norm_pos_iff.mp h
  have hG0 : (G : ℂ) ≠ 0 := Complex.ofReal_ne_zero.mpr hG.ne'
  rw [Complex.ofReal_div]
  refine h1.congr' ?_
  filter_upwards [hne] with i h
  unfold slow3
  push_cast
  field

/-- What the low-frequency theorems need about the frequencies near zero. -/
theorem low_setup (jv0 jv1 : Cx Fl → Cx Fl) (h : BiotRock Kd G K0 Kf ρ0 ρf φ τ)
    (hη : 0 < η) (hκ : 0 < κ) :
    ∃ Q : ℝ → ℂ, (∀ f, (Q f).re = τ * ρf / φ) ∧
      Tendsto (fun f => (Q f).im) (nhdsWithin 0 (Set.Ioi 0)) atBot ∧
      ∀ᶠ f in nhdsWithin 0 (Set.Ioi 0),
        Biot jv0 jv1 (fin Kd) (fin G) (fin K0) (fin Kf) (fin ρ0) (fin ρf)
          (fin η) (fin φ) (fin κ) (fin a) (fin τ) (fin f)
        = Biot_waves (fin (storage Kd K0 Kf φ)) (fin (biotCoef Kd K0 * storage Kd K0 Kf φ))
          (fin (undrained Kd G K0 Kf φ)) (fin G) (fin (bulkDensity ρ0 ρf φ)) (fin ρf) (cx (Q f))
        ∧ (Q f).im ≠ 0 := by
  obtain ⟨h1, h2, h3⟩ := drag_low (ρf := ρf) (φ := φ) (τ := τ) (a := a) hη hκ
  refine ⟨_, h2, h3, ?_⟩
  filter_upwards [h1] with f hf
  refine ⟨Biot_eval jv0 jv1 h hη hκ hf.1 (Biot_F_low _ _ hf.2), ?_⟩
  rw [drag_im, Complex.one_re]
  have := Real.pi_pos; have := hf.1
  have : 0 < η * 1 / (2 * Real.pi * f * κ) := by positivity
  linarith

theorem low_shift_eq (hH : undrained Kd G K0 Kf φ ≠ 0) (q ρ : ℝ) :
    undrained Kd G K0 Kf φ * q
      + lowShift (storage Kd K0 Kf φ) (biotCoef Kd K0 * storage Kd K0 Kf φ)
        (undrained Kd G K0 Kf φ) ρ ρf
    = ((Kd + 4 / 3 * G) * ((Kd + 4 / 3 * G) * q - storage Kd K0 Kf φ * ρ)
        + 2 * (Kd + 4 / 3 * G) * storage Kd K0 Kf φ * biotCoef Kd K0 * (biotCoef Kd K0 * q - ρf)
        + (biotCoef Kd K0 * storage Kd K0 Kf φ) ^ 2
          * (biotCoef Kd K0 ^ 2 * q + ρ - 2 * biotCoef Kd K0 * ρf))
      / undrained Kd G K0 Kf φ := by
  unfold lowShift
  rw [eq_div_iff hH]
  have e : undrained Kd G K0 Kf φ = Kd + 4 / 3 * G + biotCoef Kd K0 ^ 2 * storage Kd K0 Kf φ := rfl
  generalize undrained Kd G K0 Kf φ = H at *
  generalize storage Kd K0 Kf φ = M at *
  generalize biotCoef Kd K0 = β at *
  generalize Kd + 4 / 3 * G = x at *
  field_simp
  subst e
  ring

theorem low_sign (h : BiotRock Kd G K0 Kf ρ0 ρf φ τ) (hG : 0 < G) (hv : Kd ≤ (1 - φ) * K0)
    (hc : Kf / ρf ≤ (Kd + 4 / 3 * G) / bulkDensity ρ0 ρf φ) :
    0 < undrained Kd G K0 Kf φ * (τ * ρf / φ)
      + lowShift (storage Kd K0 Kf φ) (biotCoef Kd K0 * storage Kd K0 Kf φ)
        (undrained Kd G K0 Kf φ) (bulkDensity ρ0 ρf φ) ρf := by
  have hH := undrained_pos h.toGassmannRock hG
  have hρ := bulkDensity_pos h
  have hM := storage_pos h.toGassmannRock
  have hβ := biotCoef_pos h.toGassmannRock
  have hφ := h.por_pos
  have hf := h.fluid
  have h0 := GassmannRock.mineral_pos h.toGassmannRock
  have hkf := h.fluid_pos
  have hx : 0 < Kd + 4 / 3 * G := by have := h.dry_nonneg; positivity
  have hβφ : φ ≤ biotCoef Kd K0 := by
    unfold biotCoef
    have : Kd / K0 ≤ 1 - φ := (div_le_iff₀ h0).mpr hv
    linarith
  have hMφ : storage Kd K0 Kf φ ≤ Kf / φ := by
    unfold storage
    rw [← inv_div φ Kf]
    apply inv_anti₀ (by positivity)
    have : 0 ≤ (biotCoef Kd K0 - φ) / K0 := div_nonneg (by linarith) h0.le
    linarith
  have hq : ρf / φ ≤ τ * ρf / φ := by
    rw [mul_div_assoc]
    exact le_mul_of_one_le_left (by positivity) h.tort
  rw [low_shift_eq hH.ne']
  have hρ2 : bulkDensity ρ0 ρf φ = (1 - φ) * ρ0 + φ * ρf := rfl
  have hs : 0 < (1 - φ) * ρ0 := mul_pos (by linarith [h.por_lt]) h.solid
  generalize undrained Kd G K0 Kf φ = H at *
  generalize storage Kd K0 Kf φ = M at *
  generalize biotCoef Kd K0 = β at *
  generalize Kd + 4 / 3 * G = x at *
  generalize bulkDensity ρ0 ρf φ = ρ at *
  generalize τ * ρf / φ = q at *
  apply div_pos _ hH
  have a1 : 0 ≤ x * q - M * ρ := by
    have b1 : Kf * ρ ≤ x * ρf := by rwa [div_le_div_iff₀ hf hρ] at hc
    have b2 : M * ρ ≤ Kf / φ * ρ := mul_le_mul_of_nonneg_right hMφ hρ.le
    have b3 : x * (ρf / φ) ≤ x * q := mul_le_mul_of_nonneg_left hq hx.le
    have b4 : Kf / φ * ρ ≤ x * (ρf / φ) := by
      rw [div_mul_eq_mul_div, ← mul_div_assoc]
      exact div_le_div_of_nonneg_right b1 hφ.le
    linarith
  have a2 : 0 ≤ β * q - ρf := by
    have b1 : φ * (ρf / φ) = ρf := by field
    have b2 : φ * (ρf / φ) ≤ β * q := mul_le_mul hβφ hq (by positivity) hβ.le
    linarith
  have a3 : 0 < β ^ 2 * q + ρ - 2 * β * ρf := by
    have b1 : β ^ 2 * (ρf / φ) ≤ β ^ 2 * q := mul_le_mul_of_nonneg_left hq (by positivity)
    have b2 : β ^ 2 * (ρf / φ) + φ * ρf - 2 * β * ρf = ρf * (β - φ) ^ 2 / φ := by field
    have b3 : 0 ≤ ρf * (β - φ) ^ 2 / φ := by positivity
    linarith
  have c1 : 0 ≤ x * (x * q - M * ρ) := mul_nonneg hx.le a1
  have c2 : 0 ≤ 2 * x * M * β * (β * q - ρf) := mul_nonneg (by positivity) a2
  have c3 : 0 < (β * M) ^ 2 * (β ^ 2 * q + ρ - 2 * β * ρf) := mul_pos (by positivity) a3
  linarith

/-- In a rock whose fluid is not faster than its dry frame (and whose frame obeys the Voigt bound),
the first P wave and the S wave tend to Gassmann's velocities as the frequency goes to zero, the
second P wave stops, and the attenuation of the two propagating waves vanishes.  `Fluid.vels`
returns metres per second where `Fluid.Biot` returns kilometres per second. -/
theorem C76_low_frequency (jv0 jv1 : Cx Fl → Cx Fl) (h : BiotRock Kd G K0 Kf ρ0 ρf φ τ)
    (hG : 0 < G) (hη : 0 < η) (hκ : 0 < κ) (hv : Kd ≤ (1 - φ) * K0)
    (hc : Kf / ρf ≤ (Kd + 4 / 3 * G) / bulkDensity ρ0 ρf φ) :
    ∃ vp vs ρ : ℝ,
      vels (fin Kd) (fin G) (fin K0) (fin ρ0) (fin Kf) (fin ρf) (fin φ)
        = (fin (1000 * vp), fin (1000 * vs), fin ρ) ∧
      TendsTo (fun f => (Biot jv0 jv1 (fin Kd) (fin G) (fin K0) (fin Kf) (fin ρ0) (fin ρf) (fin η)
        (fin φ) (fin κ) (fin a) (fin τ) (fin f)).1) (nhdsWithin 0 (Set.Ioi 0)) vp ∧
      TendsTo (fun f => (Biot jv0 jv1 (fin Kd) (fin G) (fin K0) (fin Kf) (fin ρ0) (fin ρf) (fin η)
        (fin φ) (fin κ) (fin a) (fin τ) (fin f)).2.1) (nhdsWithin 0 (Set.Ioi 0)) 0 ∧
      TendsTo (fun f => (Biot jv0 jv1 (fin Kd) (fin G) (fin K0) (fin Kf) (fin ρ0) (fin ρf) (fin η)
        (fin φ) (fin κ) (fin a) (fin τ) (fin f)).2.2.1) (nhdsWithin 0 (Set.Ioi 0)) vs ∧
      TendsTo (fun f => (Biot jv0 jv1 (fin Kd) (fin G) (fin K0) (fin Kf) (fin ρ0) (fin ρf) (fin η)
        (fin φ) (fin κ) (fin a) (fin τ) (fin f)).2.2.2.1) (nhdsWithin 0 (Set.Ioi 0)) 0 ∧
      TendsTo (fun f => (Biot jv0 jv1 (fin Kd) (fin G) (fin K0) (fin Kf) (fin ρ0) (fin ρf) (fin η)
        (fin φ) (fin κ) (fin a) (fin τ) (fin f)).2.2.2.2.2) (nhdsWithin 0 (Set.Ioi 0)) 0 := by
  have hT := wave_lead_neg (G := G) h.toGassmannRock hG
  have hH := undrained_pos h.toGassmannRock hG
  have hρ := bulkDensity_pos h
  obtain ⟨Q, hr, hi, hev⟩ := low_setup (a := a) jv0 jv1 h hη hκ
  have hsign : 0 < undrained Kd G K0 Kf φ * (τ * ρf / φ)
      + lowShift (storage Kd K0 Kf φ) (biotCoef Kd K0 * storage Kd K0 Kf φ)
        (undrained Kd G K0 Kf φ) (bulkDensity ρ0 ρf φ) ρf := low_sign h hG hv hc
  have t1 := low_slow1 hH hT.ne hr hi hsign
  have t2 := other_velocity (B := storage Kd K0 Kf φ * bulkDensity ρ0 ρf φ
      - 2 * (biotCoef Kd K0 * storage Kd K0 Kf φ) * ρf) hH hT hr hi
    (fun i => by rw [slow_sum hT.ne]; push_cast; ring) t1
  have t3 := slow3_low (ρ := bulkDensity ρ0 ρf φ) (ρf := ρf) hG hi
  obtain ⟨w1, q1⟩ := quality_tendsto (div_pos hρ hH) t1
  obtain ⟨w3, q3⟩ := quality_tendsto (div_pos hρ hG) t3
  refine ⟨_, _, _, vels_eval h, ⟨_, ?_, phaseVelocity_tendsto (div_pos hρ hH) t1⟩, ⟨_, ?_, t2⟩,
    ⟨_, ?_, phaseVelocity_tendsto (div_pos hρ hG) t3⟩, ⟨_, ?_, q1⟩, ⟨_, ?_, q3⟩⟩
  · filter_upwards [hev] with f hf
    rw [hf.1, waves_eval hρ hH.le hG hT.ne hf.2]
  · filter_upwards [hev] with f hf
    rw [hf.1, waves_eval hρ hH.le hG hT.ne hf.2]
  · filter_upwards [hev] with f hf
    rw [hf.1, waves_eval hρ hH.le hG hT.ne hf.2]
  · filter_upwards [hev, w1] with f hf hw
    rw [hf.1, waves_eval hρ hH.le hG hT.ne hf.2]
    exact fl_div hw.ne'
  · filter_upwards [hev, w3] with f hf hw
    rw [hf.1, waves_eval hρ hH.le hG hT.ne hf.2]
    exact fl_div hw.ne'

/-- Without the condition on the sound speeds the two P waves can come back under each other's
name: the "fast" wave is then the one that stops and the "slow" one tends to Gassmann's velocity. -/
theorem C76_labels_swapped (jv0 jv1 : Cx Fl → Cx Fl) (h : BiotRock Kd G K0 Kf ρ0 ρf φ τ)
    (hG : 0 < G) (hη : 0 < η) (hκ : 0 < κ)
    (hc : (Kd + 4 / 3 * G) * ((Kd + 4 / 3 * G) * (τ * ρf / φ)
            - storage Kd K0 Kf φ * bulkDensity ρ0 ρf φ)
        + 2 * (Kd + 4 / 3 * G) * storage Kd K0 Kf φ * biotCoef Kd K0
          * (biotCoef Kd K0 * (τ * ρf / φ) - ρf)
        + (biotCoef Kd K0 * storage Kd K0 Kf φ) ^ 2
          * (biotCoef Kd K0 ^ 2 * (τ * ρf / φ) + bulkDensity ρ0 ρf φ - 2 * biotCoef Kd K0 * ρf) < 0) :
    ∃ vp vs ρ : ℝ, 0 < vp ∧
      vels (fin Kd) (fin G) (fin K0) (fin ρ0) (fin Kf) (fin ρf) (fin φ)
        = (fin (1000 * vp), fin (1000 * vs), fin ρ) ∧
      TendsTo (fun f => (Biot jv0 jv1 (fin Kd) (fin G) (fin K0) (fin Kf) (fin ρ0) (fin ρf) (fin η)
        (fin φ) (fin κ) (fin a) (fin τ) (fin f)).1) (nhdsWithin 0 (Set.Ioi 0)) 0 ∧
      TendsTo (fun f => (Biot jv0 jv1 (fin Kd) (fin G) (fin K0) (fin Kf) (fin ρ0) (fin ρf) (fin η)
        (fin φ) (fin κ) (fin a) (fin τ) (fin f)).2.1) (nhdsWithin 0 (Set.Ioi 0)) vp := by
  have hT := wave_lead_neg (G := G) h.toGassmannRock hG
  have hH := undrained_pos h.toGassmannRock hG
  have hρ := bulkDensity_pos h
  obtain ⟨Q, hr, hi, hev⟩ := low_setup (a := a) jv0 jv1 h hη hκ
  have hsign : undrained Kd G K0 Kf φ * (τ * ρf / φ)
      + lowShift (storage Kd K0 Kf φ) (biotCoef Kd K0 * storage Kd K0 Kf φ)
        (undrained Kd G K0 Kf φ) (bulkDensity ρ0 ρf φ) ρf < 0 := by
    rw [low_shift_eq hH.ne']
    exact div_neg_of_neg_of_pos hc hH
  have t1 := low_slow2 hH hT.ne hr hi hsign
  have t2 := other_velocity (B := storage Kd K0 Kf φ * bulkDensity ρ0 ρf φ
      - 2 * (biotCoef Kd K0 * storage Kd K0 Kf φ) * ρf) hH hT hr hi
    (fun i => by rw [add_comm, slow_sum hT.ne]; push_cast; ring) t1
  have hp : 0 < √(1 / (bulkDensity ρ0 ρf φ / undrained Kd G K0 Kf φ)) := by positivity
  refine ⟨_, _, _, hp, vels_eval h, ⟨_, ?_, t2⟩, ⟨_, ?_, phaseVelocity_tendsto (div_pos hρ hH) t1⟩⟩
  · filter_upwards [hev] with f hf
    rw [hf.1, waves_eval hρ hH.le hG hT.ne hf.2]
  · filter_upwards [hev] with f hf
    rw [hf.1, waves_eval hρ hH.le hG hT.ne hf.2]

/-- Water in sandstone meets the conditions of `C76_low_frequency`. -/
example : BiotRock 12 9 37 2.3 2.65 1 0.2 2 ∧ (12 : ℝ) ≤ (1 - 0.2) * 37
    ∧ (2.3 : ℝ) / 1 ≤ (12 + 4 / 3 * 9) / bulkDensity 2.65 1 0.2 :=
  ⟨{ dry_nonneg := by norm_num, dry_lt := by norm_num, fluid_pos := by norm_num,
     fluid_lt := by norm_num, por_pos := by norm_num, shear := by norm_num, por_lt := by norm_num,
     solid := by norm_num, fluid := by norm_num, tort := by norm_num },
   by norm_num, by unfold bulkDensity; norm_num⟩

/-- A dry loose sand (air in the pores, dry P modulus 0.1 GPa) meets those of
`C76_labels_swapped`. -/
example : BiotRock 0.06 0.03 37 0.00015 2.65 0.001 0.4 1.5 ∧
    ((0.06 : ℝ) + 4 / 3 * 0.03) * ((0.06 + 4 / 3 * 0.03) * (1.5 * 0.001 / 0.4)
            - storage 0.06 37 0.00015 0.4 * bulkDensity 2.65 0.001 0.4)
        + 2 * (0.06 + 4 / 3 * 0.03) * storage 0.06 37 0.00015 0.4 * biotCoef 0.06 37
          * (biotCoef 0.06 37 * (1.5 * 0.001 / 0.4) - 0.001)
        + (biotCoef 0.06 37 * storage 0.06 37 0.00015 0.4) ^ 2
          * (biotCoef 0.06 37 ^ 2 * (1.5 * 0.001 / 0.4) + bulkDensity 2.65 0.001 0.4
            - 2 * biotCoef 0.06 37 * 0.001) < 0 :=
  ⟨{ dry_nonneg := by norm_num, dry_lt := by norm_num, fluid_pos := by norm_num,
     fluid_lt := by norm_num, por_pos := by norm_num, shear := by norm_num, por_lt := by norm_num,
     solid := by norm_num, fluid := by norm_num, tort := by norm_num },
   by unfold storage biotCoef bulkDensity; norm_num⟩

end

end RockPhy.Props
