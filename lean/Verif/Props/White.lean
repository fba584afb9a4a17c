import Verif.Lemmas.Cx
import Verif.Lemmas.Diffusion
import Verif.Spec.Dispersion
import Verif.Model.Dispersion
import Verif.Props.BiotDispersion

/-! # C77: White and Dutta-Ode, dispersion of a patchily saturated rock -/

namespace RockPhy.Props

open Fl Fluid Spec Complex Filter Topology

/-! ## Impedances -/

/-- Impedance of the sphere. -/
noncomputable def sphZ (η κ a : ℝ) (α : ℂ) : ℂ :=
  η * a / κ * (Complex.sinh (α * a) / (α * a * Complex.cosh (α * a) - Complex.sinh (α * a)))

/-- Impedance of the shell. -/
noncomputable def shellZ (η κ a b : ℝ) (α : ℂ) : ℂ :=
  η * a / κ * (shellU α b a / (shellU α b a - a * shellU' α b a))

theorem quad {N D : ℂ} (h1 : 0 ≤ (D * (starRingEnd ℂ) N).re) (h2 : 0 < (D * (starRingEnd ℂ) N).im) :
    D ≠ 0 ∧ 0 ≤ (N / D).re ∧ (N / D).im < 0 := by
  have hD : D ≠ 0 := by
    rintro rfl
    simp at h2
  have hp := normSq_pos.mpr hD
  simp only [mul_re, mul_im, conj_re, conj_im] at h1 h2
  refine ⟨hD, ?_, ?_⟩
  · rw [div_re, ← add_div]
    exact div_nonneg (by nlinarith) hp.le
  · rw [div_im, ← sub_div]
    exact div_neg_of_neg_of_pos (by nlinarith) hp

theorem quad_re {N D : ℂ} (h1 : 0 < (D * (starRingEnd ℂ) N).re) : 0 < (N / D).re := by
  have hD : D ≠ 0 := by
    rintro rfl
    simp at h1
  have hp := normSq_pos.mpr hD
  simp only [mul_re, conj_re, conj_im] at h1
  rw [div_re, ← add_div]
  exact div_pos (by nlinarith) hp

theorem sph_quad {σ a : ℝ} (hσ : 0 < σ) (ha : 0 < a) (α : ℂ) (hα : α = σ * (1 + I)) :
    α * a * Complex.cosh (α * a) - Complex.sinh (α * a) ≠ 0 ∧
    0 < (Complex.sinh (α * a) / (α * a * Complex.cosh (α * a) - Complex.sinh (α * a))).re ∧
    (Complex.sinh (α * a) / (α * a * Complex.cosh (α * a) - Complex.sinh (α * a))).im < 0 := by
  have e : α * a = (σ * a : ℝ) * (1 + I) := by rw [hα]; push_cast; ring
  have hs : 0 < σ * a := mul_pos hσ ha
  have hp := sphere_prod (σ * a)
  rw [e]
  generalize σ * a = s at *
  have h1 : 0 < (((s : ℂ) * (1 + I) * Complex.cosh (s * (1 + I)) - Complex.sinh (s * (1 + I))) *
      (starRingEnd ℂ) (Complex.sinh (s * (1 + I)))).re := by
    rw [hp]
    have := sphere_re (t := 2 * s) (by linarith)
    rw [show 2 * s / 2 = s by ring] at this
    simp only [add_re, ofReal_re, mul_re, I_re, I_im, ofReal_im]
    linarith
  have h2 : 0 < (((s : ℂ) * (1 + I) * Complex.cosh (s * (1 + I)) - Complex.sinh (s * (1 + I))) *
      (starRingEnd ℂ) (Complex.sinh (s * (1 + I)))).im := by
    rw [hp]
    have := sin_lt_sinh (t := 2 * s) (by linarith)
    have : 0 < s * (Real.sinh (2 * s) - Real.sin (2 * s)) := mul_pos hs (by linarith)
    simp only [add_im, ofReal_re, mul_im, I_re, I_im, ofReal_im]
    linarith
  obtain ⟨q1, q2, q3⟩ := quad h1.le h2
  exact ⟨q1, quad_re h1, q3⟩

theorem shell_quad {σ a b : ℝ} (hσ : 0 < σ) (ha : 0 < a) (hab : a < b) (α : ℂ)
    (hα : α = σ * (1 + I)) :
    shellU α b a - a * shellU' α b a ≠ 0 ∧
    0 ≤ (shellU α b a / (shellU α b a - a * shellU' α b a)).re ∧
    (shellU α b a / (shellU α b a - a * shellU' α b a)).im < 0 := by
  have h2 : α ^ 2 = (2 * σ ^ 2 : ℝ) * I := by
    rw [hα]; push_cast
    linear_combination (σ : ℂ) ^ 2 * I_sq
  obtain ⟨e1, e2⟩ := shell_energy h2 (by positivity) ha hab
  have ha' : (a : ℂ) ≠ 0 := ofReal_ne_zero.mpr ha.ne'
  have e : (shellU α b a - a * shellU' α b a) * (starRingEnd ℂ) (shellU α b a)
      = (-a : ℝ) * shellE α b a := by
    unfold shellE; push_cast; field
  apply quad
  · rw [e, re_ofReal_mul]; nlinarith
  · rw [e, im_ofReal_mul]; nlinarith

theorem sphZ_sign {η κ σ a : ℝ} (hη : 0 < η) (hκ : 0 < κ) (hσ : 0 < σ) (ha : 0 < a) (α : ℂ)
    (hα : α = σ * (1 + I)) : 0 < (sphZ η κ a α).re ∧ (sphZ η κ a α).im < 0 := by
  obtain ⟨-, h1, h2⟩ := sph_quad hσ ha α hα
  have hc : 0 < η * a / κ := by positivity
  unfold sphZ
  rw [show (η * a / κ : ℂ) = (η * a / κ : ℝ) by push_cast; rfl, re_ofReal_mul, im_ofReal_mul]
  exact ⟨mul_pos hc h1, mul_neg_of_pos_of_neg hc h2⟩

theorem shellZ_sign {η κ σ a b : ℝ} (hη : 0 < η) (hκ : 0 < κ) (hσ : 0 < σ) (ha : 0 < a)
    (hab : a < b) (α : ℂ) (hα : α = σ * (1 + I)) :
    0 ≤ (shellZ η κ a b α).re ∧ (shellZ η κ a b α).im < 0 := by
  obtain ⟨-, h1, h2⟩ := shell_quad hσ ha hab α hα
  have hc : 0 < η * a / κ := by positivity
  unfold shellZ
  rw [show (η * a / κ : ℂ) = (η * a / κ : ℝ) by push_cast; rfl, re_ofReal_mul, im_ofReal_mul]
  exact ⟨mul_nonneg hc.le h1, mul_neg_of_pos_of_neg hc h2⟩

theorem Z1_eval {η κ a : ℝ} {α : ℂ} (hκ : κ ≠ 0)
    (hD : α * a * Complex.cosh (α * a) - Complex.sinh (α * a) ≠ 0) :
    White_Z1 (fin η) (fin κ) (fin a) (cx α) = cx (sphZ η κ a α) := by
  have he := Complex.exp_ne_zero (α * a)
  have e1 : Complex.exp (-2 * α * a) = (Complex.exp (α * a))⁻¹ * (Complex.exp (α * a))⁻¹ := by
    rw [← Complex.exp_neg, ← Complex.exp_add]; congr 1; ring
  have ed : (α * a - 1) + (α * a + 1) * Complex.exp (-2 * α * a)
      = 2 * (Complex.exp (α * a))⁻¹ * (α * a * Complex.cosh (α * a) - Complex.sinh (α * a)) := by
    rw [e1, Complex.cosh, Complex.sinh, Complex.exp_neg]; field
  have en : 1 - Complex.exp (-2 * α * a) = 2 * (Complex.exp (α * a))⁻¹ * Complex.sinh (α * a) := by
    rw [e1, Complex.sinh, Complex.exp_neg]; field
  have hd : (α * a - 1) + (α * a + 1) * Complex.exp (-2 * α * a) ≠ 0 := by
    rw [ed]
    exact mul_ne_zero (mul_ne_zero two_ne_zero (inv_ne_zero he)) hD
  have h2 : (-2 : Fl) = fin (-2) := by rw [fl_nat, fl_neg]
  unfold White_Z1
  rw [fl_mul, fl_div hκ, fl_one, h2]
  simp only [cx_ofR, cx_mul, cx_exp, cx_sub, cx_add]
  push_cast
  rw [cx_div hd]
  congr 1
  unfold sphZ
  rw [ed, en]
  have h2 : (2 : ℂ) * (Complex.exp (α * a))⁻¹ ≠ 0 := mul_ne_zero two_ne_zero (inv_ne_zero he)
  generalize (2 : ℂ) * (Complex.exp (α * a))⁻¹ = t at *
  field

theorem Z2_eval {η κ a b : ℝ} {α : ℂ} (hκ : κ ≠ 0)
    (hD : shellU α b a - a * shellU' α b a ≠ 0) :
    White_Z2 (fin η) (fin κ) (fin a) (fin b) (cx α) = cx (shellZ η κ a b α) := by
  have he := Complex.exp_ne_zero (α * (b - a))
  have e1 : Complex.exp (2 * α * (b - a)) = Complex.exp (α * (b - a)) * Complex.exp (α * (b - a)) := by
    rw [← Complex.exp_add]; congr 1; ring
  have ed : (α * b + 1) * (α * a - 1) - (α * b - 1) * (α * a + 1) * Complex.exp (2 * α * (b - a))
      = -(2 * Complex.exp (α * (b - a))) * (shellU α b a - a * shellU' α b a) := by
    unfold shellU shellU'
    rw [e1, Complex.cosh, Complex.sinh, Complex.exp_neg]; field
  have en : (α * b + 1) + (α * b - 1) * Complex.exp (2 * α * (b - a))
      = 2 * Complex.exp (α * (b - a)) * shellU α b a := by
    unfold shellU
    rw [e1, Complex.cosh, Complex.sinh, Complex.exp_neg]; field
  have h2 : (2 : ℂ) * Complex.exp (α * (b - a)) ≠ 0 := mul_ne_zero two_ne_zero he
  have hd : (α * b + 1) * (α * a - 1) - (α * b - 1) * (α * a + 1) * Complex.exp (2 * α * (b - a))
      ≠ 0 := by
    rw [ed]
    exact mul_ne_zero (neg_ne_zero.mpr h2) hD
  unfold White_Z2
  rw [fl_neg, fl_mul, fl_div hκ, fl_one, fl_nat, fl_sub]
  simp only [cx_ofR, cx_mul, cx_exp, cx_sub, cx_add]
  push_cast
  rw [cx_div hd]
  congr 1
  unfold shellZ
  rw [ed, en]
  generalize (2 : ℂ) * Complex.exp (α * (b - a)) = t at *
  field

/-! ## From the complex modulus to velocity and attenuation -/

theorem wave_eval {G ρ ω : ℝ} {K : ℂ} (hρ : 0 < ρ) (hM : 0 < (K + (4 / 3 * G : ℝ)).re) :
    White_wave (fin G) (fin ρ) (fin ω) (cx K)
      = (fin (phaseVelocity (ρ / (K + (4 / 3 * G : ℝ)))),
         fin (-(ω * (ρ / (K + (4 / 3 * G : ℝ)) : ℂ).sqrt.im))) := by
  have h3 : (4 * fin G / 3 : Fl) = fin (4 / 3 * G) := by
    rw [fl_nat, fl_mul, fl_nat, fl_div (by norm_num)]
    exact congrArg fin (by ring)
  unfold White_wave
  dsimp only
  rw [h3, cx_ofR, cx_add]
  generalize K + (4 / 3 * G : ℝ) = M at *
  rw [cx_abs, cx_re, cx_im]
  have hM0 : M ≠ 0 := by rintro rfl; simp at hM
  have hm : 0 < ‖M‖ := norm_pos_iff.mpr hM0
  have hθ := Real.arctan_mem_Ioo (M.im / M.re)
  set θ := Real.arctan (M.im / M.re) with hθd
  have hcos : 0 < Real.cos (θ / 2) :=
    Real.cos_pos_of_mem_Ioo ⟨by have := hθ.1; have := Real.pi_pos; linarith, by
      have := hθ.2; have := Real.pi_pos; linarith⟩
  set v : ℝ := √(‖M‖ / ρ) * 1 / Real.cos (θ / 2) with hv
  have hv0 : 0 < v := by rw [hv]; positivity
  -- the square root of the squared slowness
  have hsq : ‖M‖ ^ 2 = M.re ^ 2 + M.im ^ 2 := by
    rw [Complex.sq_norm, normSq_apply]; ring
  have hroot : √(1 + (M.im / M.re) ^ 2) = ‖M‖ / M.re := by
    rw [show 1 + (M.im / M.re) ^ 2 = (‖M‖ / M.re) ^ 2 by
      rw [div_pow, div_pow, hsq]; field]
    exact Real.sqrt_sq (by positivity)
  have hc1 : Real.cos θ = M.re / ‖M‖ := by
    rw [hθd, Real.cos_arctan, hroot]; field
  have hs1 : Real.sin θ = M.im / ‖M‖ := by
    rw [hθd, Real.sin_arctan, hroot]; field
  have hd1 : Real.cos θ = 2 * Real.cos (θ / 2) ^ 2 - 1 := by
    rw [← Real.cos_two_mul]; congr 1; ring
  have hd2 : Real.sin θ = 2 * Real.sin (θ / 2) * Real.cos (θ / 2) := by
    rw [← Real.sin_two_mul]; congr 1; ring
  have hss := Real.sin_sq_add_cos_sq (θ / 2)
  generalize hcs : Real.cos (θ / 2) = c at *
  generalize hsn : Real.sin (θ / 2) = n at *
  have hr2 : √(‖M‖ / ρ) ^ 2 = ‖M‖ / ρ := Real.sq_sqrt (by positivity)
  have hrp : 0 < √(‖M‖ / ρ) := Real.sqrt_pos.mpr (by positivity)
  have hMd : M = (‖M‖ * (2 * c ^ 2 - 1) : ℝ) + (‖M‖ * (2 * n * c) : ℝ) * I := by
    have a1 : M.re = ‖M‖ * (2 * c ^ 2 - 1) := by rw [← hd1, hc1]; field
    have a2 : M.im = ‖M‖ * (2 * n * c) := by rw [← hd2, hs1]; field
    rw [← a1, ← a2, re_add_im]
  have hsqrt : (ρ / M : ℂ).sqrt = ((c : ℂ) - n * I) / (√(‖M‖ / ρ) : ℝ) := by
    apply csqrt_eq
    · have hr2' : (((√(‖M‖ / ρ) : ℝ) : ℂ)) ^ 2 = (‖M‖ : ℂ) / ρ := by
        rw [← ofReal_pow, hr2]; push_cast; rfl
      have hrc : ((√(‖M‖ / ρ) : ℝ) : ℂ) ≠ 0 := ofReal_ne_zero.mpr hrp.ne'
      have hρc : (ρ : ℂ) ≠ 0 := ofReal_ne_zero.mpr hρ.ne'
      have hmc : (‖M‖ : ℂ) ≠ 0 := ofReal_ne_zero.mpr hm.ne'
      have hssc : (n : ℂ) ^ 2 + (c : ℂ) ^ 2 = 1 := by
        rw [← ofReal_pow, ← ofReal_pow, ← ofReal_add, hss, ofReal_one]
      have key : M = ‖M‖ * ((c : ℂ) + n * I) ^ 2 := by
        calc M = _ := hMd
          _ = _ := by
            push_cast
            linear_combination (-(‖M‖ : ℂ) * (n : ℂ) ^ 2) * I_sq + (‖M‖ : ℂ) * hssc
      have hprod : ((c : ℂ) + n * I) * ((c : ℂ) - n * I) = 1 := by
        linear_combination (-(n : ℂ) ^ 2) * I_sq + hssc
      have hne : (c : ℂ) + n * I ≠ 0 := by
        intro h0; rw [h0, zero_mul] at hprod; exact zero_ne_one hprod
      rw [div_mul_div_comm, ← sq, ← sq, hr2']
      rw [show (ρ : ℂ) / M = ρ / (‖M‖ * ((c : ℂ) + n * I) ^ 2) by rw [← key]]
      have hinv : ((c : ℂ) - n * I) = ((c : ℂ) + n * I)⁻¹ := by
        exact eq_inv_of_mul_eq_one_right hprod
      rw [hinv]
      field
    · rw [div_ofReal_re]
      apply div_pos _ hrp
      simp; exact hcos
  have hre : (ρ / M : ℂ).sqrt.re = c / √(‖M‖ / ρ) := by
    rw [hsqrt, div_ofReal_re]; simp
  have him : (ρ / M : ℂ).sqrt.im = -n / √(‖M‖ / ρ) := by
    rw [hsqrt, div_ofReal_im]; simp
  have hvel : phaseVelocity (ρ / M) = v := by
    unfold phaseVelocity; rw [hre, hv]; field
  rw [fl_div hM.ne', fl_arctan, fl_div hρ.ne', fl_sqrt (by positivity), fl_one, fl_mul, fl_nat,
    fl_div (by norm_num), fl_cos, ← hθd, hcs, fl_div hcos.ne', ← hv, fl_div hv0.ne',
    fl_tan (by rw [hcs]; exact hcos.ne'),
    Real.tan_eq_sin_div_cos, hsn, hcs, fl_mul, hvel, him]
  refine Prod.ext rfl (congrArg fin ?_)
  rw [hv]
  field

/-! ## Evaluation -/

theorem storage_inv {Kd K0 Kf φ : ℝ} (h : GassmannRock Kd K0 Kf φ) :
    φ / Kf + (1 - φ) / K0 - Kd / K0 ^ 2 = (storage Kd K0 Kf φ)⁻¹ := by
  have := h.fluid_pos; have := GassmannRock.mineral_pos h
  unfold storage biotCoef
  rw [inv_inv]
  field

theorem gK_storage {Kd K0 Kf φ : ℝ} (h : GassmannRock Kd K0 Kf φ) :
    gK Kd K0 Kf φ = Kd + biotCoef Kd K0 ^ 2 * storage Kd K0 Kf φ := by
  have e := storage_inv h
  have := h.fluid_pos; have h0 := GassmannRock.mineral_pos h
  have e2 : φ / Kf + (1 - φ) / K0 - Kd / K0 ^ 2 = gB Kd K0 Kf φ / K0 ^ 2 := by
    unfold gB; field
  have hB := GassmannRock.gB_pos h
  have e3 : storage Kd K0 Kf φ = K0 ^ 2 / gB Kd K0 Kf φ := by
    rw [← inv_inv (storage Kd K0 Kf φ), ← e, e2, inv_div]
  rw [e3]
  unfold gK biotCoef
  field

theorem KE_eval {Kd K0 Kf φ : ℝ} (h : GassmannRock Kd K0 Kf φ) (hd : 0 < Kd) :
    White_KE (fin Kd) (fin K0) (fin φ) (fin Kf) (fin (gK Kd K0 Kf φ)) (fin (storage Kd K0 Kf φ))
      = fin (storage Kd K0 Kf φ * Kd / gK Kd K0 Kf φ) := by
  have e := GassmannRock.gK_eq h
  have l := GassmannRock.gK_lt h
  have g := GassmannRock.gK_gt h
  have h0 := GassmannRock.mineral_pos h
  have hφ := h.por_pos
  have hf := h.fluid_pos
  have d1 : 0 < K0 - Kf := by have := h.fluid_lt; linarith
  have d2 : 0 < K0 - Kd := by have := h.dry_lt; linarith
  have d3 : 0 < K0 - gK Kd K0 Kf φ := by linarith
  unfold GassmannEq at e
  generalize gK Kd K0 Kf φ = K at *
  have hK : 0 < K := by linarith
  have hden : φ * K * (1 - Kf / K0) ≠ 0 := by
    have : 1 - Kf / K0 = (K0 - Kf) / K0 := by field
    rw [this]; positivity
  unfold White_KE
  fl_eval []
  have e2 : Kf / (φ * (K0 - Kf)) = K0 * (K - Kd) / ((K0 - K) * (K0 - Kd)) := by
    have : Kf / (φ * (K0 - Kf)) = K / (K0 - K) - Kd / (K0 - Kd) := by linarith
    rw [this]; field
  have e3 : Kf * (1 - K / K0) * (1 - Kd / K0) / (φ * K * (1 - Kf / K0))
      = (K0 - K) * (K0 - Kd) / (K0 * K) * (Kf / (φ * (K0 - Kf))) := by
    have : 1 - Kf / K0 = (K0 - Kf) / K0 := by field
    rw [this]; field
  rw [e3, e2]
  refine congrArg fin ?_
  field

/-- Direction and size of the complex wave number of diffusion. -/
noncomputable def wAlpha (ω η κ E : ℝ) : ℂ := (√(ω * η / (2 * κ * E)) : ℝ) * (1 + I)

theorem wAlpha_eval {ω η κ E : ℝ} (hω : 0 < ω) (hη : 0 < η) (hκ : 0 < κ) (hE : 0 < E) :
    Cx.sqrt (Cx.I * Cx.ofR (fin ω) * Cx.ofR (fin η) / Cx.ofR (fin κ * fin E))
      = cx (wAlpha ω η κ E) := by
  have hκc : (κ : ℂ) ≠ 0 := ofReal_ne_zero.mpr hκ.ne'
  have hEc : (E : ℂ) ≠ 0 := ofReal_ne_zero.mpr hE.ne'
  have hp : 0 < ω * η / (2 * κ * E) := by positivity
  rw [fl_mul, cx_I, cx_ofR, cx_ofR, cx_ofR, cx_mul, cx_mul,
    cx_div (ofReal_ne_zero.mpr (by positivity)), cx_sqrt]
  congr 1
  unfold wAlpha
  apply csqrt_eq
  · have : (((√(ω * η / (2 * κ * E)) : ℝ) : ℂ)) ^ 2 = (ω : ℂ) * η / (2 * κ * E) := by
      rw [← ofReal_pow, Real.sq_sqrt hp.le]; push_cast; rfl
    have e : (1 + I) ^ 2 = 2 * I := by linear_combination I_sq
    rw [← sq, mul_pow, this, e]
    push_cast
    field
  · rw [re_ofReal_mul]
    have := Real.sqrt_pos.mpr hp
    simpa using this

/-- Patchy modulus without pressure exchange. -/
noncomputable def wInf (K1 K2 G s : ℝ) : ℝ :=
  (K2 * (3 * K1 + 4 * G) + 4 * G * (K1 - K2) * s) / ((3 * K1 + 4 * G) - 3 * (K1 - K2) * s)

/-- Strength of the pressure exchange. -/
noncomputable def wC (Kd G β S1 S2 a s : ℝ) : ℝ :=
  3 * s / a * (β ^ 2 * (S1 - S2) ^ 2 * (3 * Kd + 4 * G) * Kd
    / (((Kd + β ^ 2 * S2) * (3 * (Kd + β ^ 2 * S1) + 4 * G)
        + 4 * G * ((Kd + β ^ 2 * S1) - (Kd + β ^ 2 * S2)) * s)
      * (Kd + β ^ 2 * S1) * (Kd + β ^ 2 * S2)))

noncomputable def wZ (Kd β S1 S2 η1 η2 κ a s ω : ℝ) : ℂ :=
  sphZ η1 κ a (wAlpha ω η1 κ (S1 * Kd / (Kd + β ^ 2 * S1)))
    + shellZ η2 κ a (a / s ^ (1 / 3 : ℝ)) (wAlpha ω η2 κ (S2 * Kd / (Kd + β ^ 2 * S2)))

noncomputable def wK (Kd G β S1 S2 η1 η2 κ a s ω : ℝ) : ℂ :=
  wInf (Kd + β ^ 2 * S1) (Kd + β ^ 2 * S2) G s
    / (1 + wInf (Kd + β ^ 2 * S1) (Kd + β ^ 2 * S2) G s
      * (wC Kd G β S1 S2 a s / (I * ω * wZ Kd β S1 S2 η1 η2 κ a s ω)))

/-- The constants of the patchy rock. -/
structure Patch (Kd G β S1 S2 η1 η2 κ a s : ℝ) : Prop where
  dry : 0 < Kd
  shear : 0 ≤ G
  beta : 0 < β
  s1 : 0 < S1
  s2 : 0 < S2
  visc1 : 0 < η1
  visc2 : 0 < η2
  perm : 0 < κ
  radius : 0 < a
  sat : 0 < s
  sat_lt : s < 1

variable {Kd G β S1 S2 η1 η2 κ a s ω : ℝ}

theorem outer_gt (ha : 0 < a) (hs : 0 < s) (hs1 : s < 1) : a < a / s ^ (1 / 3 : ℝ) := by
  have h1 : s ^ (1 / 3 : ℝ) < 1 := Real.rpow_lt_one hs.le hs1 (by norm_num)
  have h0 : 0 < s ^ (1 / 3 : ℝ) := Real.rpow_pos_of_pos hs _
  rw [lt_div_iff₀ h0]
  nlinarith

theorem outer_cube (hs : 0 < s) : (a / s ^ (1 / 3 : ℝ)) ^ 3 = a ^ 3 / s := by
  rw [div_pow, ← Real.rpow_natCast (s ^ (1 / 3 : ℝ)), ← Real.rpow_mul hs.le]
  norm_num

theorem Patch.N_pos (h : Patch Kd G β S1 S2 η1 η2 κ a s) :
    0 < (Kd + β ^ 2 * S2) * (3 * (Kd + β ^ 2 * S1) + 4 * G)
        + 4 * G * ((Kd + β ^ 2 * S1) - (Kd + β ^ 2 * S2)) * s := by
  have := h.dry; have := h.shear; have := h.beta; have := h.s1; have := h.s2; have := h.sat
  have h1 : 0 < Kd + β ^ 2 * S1 := by positivity
  have h2 : 0 < Kd + β ^ 2 * S2 := by positivity
  have : 0 < 1 - s := by linarith [h.sat_lt]
  generalize Kd + β ^ 2 * S1 = K1 at *
  generalize Kd + β ^ 2 * S2 = K2 at *
  have : 0 < 3 * K1 * K2 + 4 * G * (K2 * (1 - s) + K1 * s) := by positivity
  linarith

theorem Patch.D_pos (h : Patch Kd G β S1 S2 η1 η2 κ a s) :
    0 < (3 * (Kd + β ^ 2 * S1) + 4 * G)
        - 3 * ((Kd + β ^ 2 * S1) - (Kd + β ^ 2 * S2)) * s := by
  have := h.dry; have := h.shear; have := h.beta; have := h.s1; have := h.s2; have := h.sat
  have h1 : 0 < Kd + β ^ 2 * S1 := by positivity
  have h2 : 0 < Kd + β ^ 2 * S2 := by positivity
  have : 0 < 1 - s := by linarith [h.sat_lt]
  generalize Kd + β ^ 2 * S1 = K1 at *
  generalize Kd + β ^ 2 * S2 = K2 at *
  have : 0 < 3 * K1 * (1 - s) + 3 * K2 * s + 4 * G := by positivity
  linarith

theorem Patch.inf_pos (h : Patch Kd G β S1 S2 η1 η2 κ a s) :
    0 < wInf (Kd + β ^ 2 * S1) (Kd + β ^ 2 * S2) G s := div_pos h.N_pos h.D_pos

theorem Patch.C_nonneg (h : Patch Kd G β S1 S2 η1 η2 κ a s) : 0 ≤ wC Kd G β S1 S2 a s := by
  have := h.dry; have := h.shear; have := h.beta; have := h.s1; have := h.s2; have := h.sat
  have := h.radius
  have := h.N_pos
  unfold wC
  positivity

theorem Patch.C_pos (h : Patch Kd G β S1 S2 η1 η2 κ a s) (hne : S1 ≠ S2) :
    0 < wC Kd G β S1 S2 a s := by
  have := h.dry; have := h.shear; have := h.beta; have := h.s1; have := h.s2; have := h.sat
  have := h.radius
  have := h.N_pos
  have : 0 < (S1 - S2) ^ 2 := by
    have := sub_ne_zero.mpr hne
    positivity
  unfold wC
  positivity

theorem Patch.E1_pos (h : Patch Kd G β S1 S2 η1 η2 κ a s) : 0 < S1 * Kd / (Kd + β ^ 2 * S1) := by
  have := h.dry; have := h.s1; have := h.beta
  positivity
theorem Patch.E2_pos (h : Patch Kd G β S1 S2 η1 η2 κ a s) : 0 < S2 * Kd / (Kd + β ^ 2 * S2) := by
  have := h.dry; have := h.s2; have := h.beta
  positivity

theorem Patch.Z_sign (h : Patch Kd G β S1 S2 η1 η2 κ a s) (hω : 0 < ω) :
    0 < (wZ Kd β S1 S2 η1 η2 κ a s ω).re ∧ (wZ Kd β S1 S2 η1 η2 κ a s ω).im < 0 := by
  have h1 := h.visc1; have h2 := h.visc2; have hκ := h.perm
  have e1 := h.E1_pos
  have e2 := h.E2_pos
  obtain ⟨a1, a2⟩ := sphZ_sign h1 hκ (Real.sqrt_pos.mpr (by positivity)) h.radius
    (wAlpha ω η1 κ (S1 * Kd / (Kd + β ^ 2 * S1))) rfl
  obtain ⟨b1, b2⟩ := shellZ_sign h2 hκ (Real.sqrt_pos.mpr (by positivity)) h.radius
    (outer_gt h.radius h.sat h.sat_lt) (wAlpha ω η2 κ (S2 * Kd / (Kd + β ^ 2 * S2))) rfl
  unfold wZ
  rw [add_re, add_im]
  exact ⟨add_pos_of_pos_of_nonneg a1 b1, add_neg a2 b2⟩

theorem resp_sign {k c : ℝ} {Z : ℂ} (hk : 0 < k) (hc : 0 ≤ c) (hω : 0 < ω) (h1 : 0 ≤ Z.re)
    (h2 : Z.im < 0) :
    1 + (k : ℂ) * (c / (I * ω * Z)) ≠ 0 ∧ 0 < (k / (1 + (k : ℂ) * (c / (I * ω * Z)))).re ∧
    0 ≤ (k / (1 + (k : ℂ) * (c / (I * ω * Z)))).im ∧
    (0 < c → 0 < Z.re → 0 < (k / (1 + (k : ℂ) * (c / (I * ω * Z)))).im) := by
  have hZ : Z ≠ 0 := by rintro rfl; simp at h2
  have hn := normSq_pos.mpr hZ
  have hωc : (ω : ℂ) ≠ 0 := ofReal_ne_zero.mpr hω.ne'
  have e : 1 + (k : ℂ) * (c / (I * ω * Z))
      = ((1 + k * c / (ω * normSq Z) * (-Z.im) : ℝ) : ℂ) + ((k * c / (ω * normSq Z) * (-Z.re) : ℝ) : ℂ) * I := by
    have hzz : (normSq Z : ℂ) = (Z.re - Z.im * I) * Z := by
      rw [normSq_eq_conj_mul_self]
      congr 1
      apply Complex.ext <;> simp
    have hnc : (normSq Z : ℂ) ≠ 0 := ofReal_ne_zero.mpr hn.ne'
    have : 1 / Z = (Z.re - Z.im * I) / normSq Z := by
      rw [eq_div_iff hnc, hzz]; field
    have e2 : (c : ℂ) / (I * ω * Z) = c / (I * ω) * (1 / Z) := by field
    rw [e2, this]
    push_cast
    have hI := I_ne_zero
    field_simp
    linear_combination ((k : ℂ) * c * Z.re) * I_sq
  rw [e]
  have t0 : 0 ≤ k * c / (ω * normSq Z) := by positivity
  have t1 : 0 < 1 + k * c / (ω * normSq Z) * (-Z.im) := by nlinarith
  have t2 : k * c / (ω * normSq Z) * (-Z.re) ≤ 0 := by nlinarith
  have t3 : 0 < c → 0 < Z.re → k * c / (ω * normSq Z) * (-Z.re) < 0 := fun h3 h4 => by
    have : 0 < k * c / (ω * normSq Z) := by positivity
    nlinarith
  generalize 1 + k * c / (ω * normSq Z) * (-Z.im) = x at *
  generalize k * c / (ω * normSq Z) * (-Z.re) = y at *
  have hne : (x : ℂ) + y * I ≠ 0 := fun h0 => by
    have := congrArg Complex.re h0
    simp at this; linarith
  have hq := normSq_pos.mpr hne
  refine ⟨hne, ?_, ?_, fun h3 h4 => ?_⟩
  · rw [div_re, ← add_div]
    apply div_pos _ hq
    simp
    exact mul_pos hk t1
  · rw [div_im, ← sub_div]
    apply div_nonneg _ hq.le
    simp
    nlinarith
  · rw [div_im, ← sub_div]
    apply div_pos _ hq
    have := t3 h3 h4
    simp
    nlinarith

theorem Patch.K_sign (h : Patch Kd G β S1 S2 η1 η2 κ a s) (hω : 0 < ω) :
    0 < (wK Kd G β S1 S2 η1 η2 κ a s ω).re ∧ 0 ≤ (wK Kd G β S1 S2 η1 η2 κ a s ω).im := by
  obtain ⟨z1, z2⟩ := h.Z_sign hω
  obtain ⟨-, h1, h2, -⟩ := resp_sign h.inf_pos h.C_nonneg hω z1.le z2
  exact ⟨h1, h2⟩

variable {K0 Kf1 Kf2 φ ρ0 ρ1 ρ2 f : ℝ}

theorem patch_beta_pos (h : PatchRock Kd G K0 φ ρ0 ρ1 ρ2 Kf1 Kf2 η1 η2 κ a s) :
    0 < biotCoef Kd K0 := by
  have h0 := GassmannRock.mineral_pos h.inner
  have := h.inner.dry_lt
  unfold biotCoef
  rw [sub_pos, div_lt_one h0]
  exact this

theorem toPatch (h : PatchRock Kd G K0 φ ρ0 ρ1 ρ2 Kf1 Kf2 η1 η2 κ a s) :
    Patch Kd G (biotCoef Kd K0) (storage Kd K0 Kf1 φ) (storage Kd K0 Kf2 φ) η1 η2 κ a s :=
  ⟨h.dry, h.shear, patch_beta_pos h, storage_pos h.inner, storage_pos h.outer, h.visc1, h.visc2, h.perm,
    h.radius, h.sat, h.sat_lt⟩

theorem W_eval (hp : Patch Kd G β S1 S2 η1 η2 κ a s) (K1 K2 : ℝ) (e1 : K1 = Kd + β ^ 2 * S1)
    (e2 : K2 = Kd + β ^ 2 * S2) :
    3 * fin a ** 2 * ((fin K1 - fin Kd) / fin β * (3 * fin K2 + 4 * fin G)
        / (fin K2 * (3 * fin K1 + 4 * fin G) + 4 * fin G * (fin K1 - fin K2) * fin s)
      - (fin K2 - fin Kd) / fin β * (3 * fin K1 + 4 * fin G)
        / (fin K2 * (3 * fin K1 + 4 * fin G) + 4 * fin G * (fin K1 - fin K2) * fin s))
      * (-(fin β * fin S1 / fin K1) + fin β * fin S2 / fin K2)
    = fin (-(a ^ 3 / s * wC Kd G β S1 S2 a s)) := by
  have hβ := hp.beta
  have k1 : 0 < K1 := by rw [e1]; have := hp.dry; have := hp.s1; positivity
  have k2 : 0 < K2 := by rw [e2]; have := hp.dry; have := hp.s2; positivity
  have hN := hp.N_pos
  rw [← e1, ← e2] at hN
  have hN' := hN.ne'
  have ha := hp.radius
  have hs := hp.sat
  fl_eval []
  unfold wC
  rw [← e1, ← e2]
  have d1 : S1 = (K1 - Kd) / β ^ 2 := by rw [e1]; field
  have d2 : S2 = (K2 - Kd) / β ^ 2 := by rw [e2]; field
  rw [d1, d2]
  generalize K2 * (3 * K1 + 4 * G) + 4 * G * (K1 - K2) * s = N at *
  refine congrArg fin ?_
  field

theorem Kinf_eval (hp : Patch Kd G β S1 S2 η1 η2 κ a s) (K1 K2 : ℝ) (e1 : K1 = Kd + β ^ 2 * S1)
    (e2 : K2 = Kd + β ^ 2 * S2) :
    (fin K2 * (3 * fin K1 + 4 * fin G) + 4 * fin G * (fin K1 - fin K2) * fin s)
      / ((3 * fin K1 + 4 * fin G) - 3 * (fin K1 - fin K2) * fin s) = fin (wInf K1 K2 G s) := by
  have hD := hp.D_pos
  rw [← e1, ← e2] at hD
  have := hD.ne'
  fl_eval []
  rfl

theorem White_eval (h : PatchRock Kd G K0 φ ρ0 ρ1 ρ2 Kf1 Kf2 η1 η2 κ a s) (hf : 0 < f) (K : ℂ)
    (hK : K = wK Kd G (biotCoef Kd K0) (storage Kd K0 Kf1 φ) (storage Kd K0 Kf2 φ) η1 η2 κ a s
      (2 * Real.pi * f)) (ρ : ℝ) (hρ : ρ = (1 - φ) * ρ0 + φ * s * ρ1 + φ * (1 - s) * ρ2) :
    White_Dutta_Ode (fin Kd) (fin G) (fin K0) (fin φ) (fin ρ0) (fin ρ1) (fin ρ2) (fin Kf1) (fin Kf2)
        (fin η1) (fin η2) (fin κ) (fin a) (fin s) (fin f)
      = (fin (phaseVelocity (ρ / (K + (4 / 3 * G : ℝ)))),
         fin (-(2 * Real.pi * f * (ρ / (K + (4 / 3 * G : ℝ)) : ℂ).sqrt.im)), cx K) := by
  have hp := toPatch h
  have hπ := Real.pi_pos
  have hω : 0 < 2 * Real.pi * f := by positivity
  have h0 := GassmannRock.mineral_pos h.inner
  have g1 := Gassmann_eval h0.ne' h.inner.fluid_pos.ne' (GassmannRock.gB_pos h.inner).ne' (0 : Fl)
  have g2 := Gassmann_eval h0.ne' h.outer.fluid_pos.ne' (GassmannRock.gB_pos h.outer).ne' (0 : Fl)
  have ke1 := KE_eval h.inner h.dry
  have ke2 := KE_eval h.outer h.dry
  have a1 : inv (fin φ / fin Kf1 + (1 - fin φ) / fin K0 - fin Kd / fin K0 ** 2)
      = fin (storage Kd K0 Kf1 φ) := by
    have e := storage_inv h.inner
    have hs := storage_pos h.inner
    have := h.inner.fluid_pos
    have hne : φ / Kf1 + (1 - φ) / K0 - Kd / K0 ^ 2 ≠ 0 := by rw [e]; positivity
    have : K0 ^ 2 ≠ 0 := by positivity
    fl_eval []
    rw [e, inv_inv]
  have a2 : inv (fin φ / fin Kf2 + (1 - fin φ) / fin K0 - fin Kd / fin K0 ** 2)
      = fin (storage Kd K0 Kf2 φ) := by
    have e := storage_inv h.outer
    have hs := storage_pos h.outer
    have := h.outer.fluid_pos
    have hne : φ / Kf2 + (1 - φ) / K0 - Kd / K0 ^ 2 ≠ 0 := by rw [e]; positivity
    have : K0 ^ 2 ≠ 0 := by positivity
    fl_eval []
    rw [e, inv_inv]
  have hb : fin a / fin s **. (1 / 3) = fin (a / s ^ (1 / 3 : ℝ)) := by
    have : s ^ (1 / 3 : ℝ) ≠ 0 := (Real.rpow_pos_of_pos h.sat _).ne'
    rw [fl_one, fl_nat, fl_div (by norm_num), fl_rpow h.sat, fl_div this]
  have hom : (2 * pi * fin f : Fl) = fin (2 * Real.pi * f) := by
    rw [fl_nat, fl_pi, fl_mul, fl_mul]
  unfold White_Dutta_Ode
  dsimp only
  rw [g1, g2, a1, a2, hb, hom]
  dsimp only
  rw [ke1, ke2, gK_storage h.inner, gK_storage h.outer]
  have hS : (1 - fin Kd / fin K0 : Fl) = fin (biotCoef Kd K0) := by
    rw [fl_one, fl_div h0.ne', fl_sub]; rfl
  rw [hS, wAlpha_eval hω h.visc1 h.perm hp.E1_pos, wAlpha_eval hω h.visc2 h.perm hp.E2_pos]
  have hN := hp.N_pos
  have hD := hp.D_pos
  have hβ := hp.beta
  have k1 : 0 < Kd + biotCoef Kd K0 ^ 2 * storage Kd K0 Kf1 φ := by
    have := hp.dry; have := hp.s1; positivity
  have k2 : 0 < Kd + biotCoef Kd K0 ^ 2 * storage Kd K0 Kf2 φ := by
    have := hp.dry; have := hp.s2; positivity
  have hbc := outer_cube (a := a) h.sat
  have q1 := sph_quad (Real.sqrt_pos.mpr (div_pos (mul_pos hω h.visc1)
    (mul_pos (mul_pos two_pos h.perm) hp.E1_pos))) h.radius
    (wAlpha (2 * Real.pi * f) η1 κ (storage Kd K0 Kf1 φ * Kd
      / (Kd + biotCoef Kd K0 ^ 2 * storage Kd K0 Kf1 φ))) rfl
  have q2 := shell_quad (Real.sqrt_pos.mpr (div_pos (mul_pos hω h.visc2)
    (mul_pos (mul_pos two_pos h.perm) hp.E2_pos))) h.radius (outer_gt h.radius h.sat h.sat_lt)
    (wAlpha (2 * Real.pi * f) η2 κ (storage Kd K0 Kf2 φ * Kd
      / (Kd + biotCoef Kd K0 ^ 2 * storage Kd K0 Kf2 φ))) rfl
  have hW := W_eval hp _ _ rfl rfl
  have hI := Kinf_eval hp _ _ rfl rfl
  have hb3 : fin (a / s ^ (1 / 3 : ℝ)) ** 3 = fin (a ^ 3 / s) := by
    rw [← hbc]; simp only [fl]
  rw [Z1_eval h.perm.ne' q1.1, Z2_eval h.perm.ne' q2.1, hW, hI, hb3]
  obtain ⟨z1, z2⟩ := hp.Z_sign hω
  have r := resp_sign hp.inf_pos hp.C_nonneg hω z1.le z2
  have hs := hp.K_sign hω
  rw [← hK] at hs
  have e : (1 - fin φ) * fin ρ0 + fin φ * fin s * fin ρ1 + fin φ * (1 - fin s) * fin ρ2 = fin ρ := by
    rw [hρ]; simp only [fl]
  rw [e, fl_one]
  have hKs : White_wave (fin G) (fin ρ) (fin (2 * Real.pi * f)) (cx K)
      = (fin (phaseVelocity (ρ / (K + (4 / 3 * G : ℝ)))),
         fin (-(2 * Real.pi * f * (ρ / (K + (4 / 3 * G : ℝ)) : ℂ).sqrt.im))) := by
    apply wave_eval (by rw [hρ]; exact h.dens)
    rw [add_re, ofReal_re]
    have := h.shear
    linarith [hs.1]
  have hZ0 : sphZ η1 κ a (wAlpha (2 * Real.pi * f) η1 κ (storage Kd K0 Kf1 φ * Kd
      / (Kd + biotCoef Kd K0 ^ 2 * storage Kd K0 Kf1 φ)))
    + shellZ η2 κ a (a / s ^ (1 / 3 : ℝ)) (wAlpha (2 * Real.pi * f) η2 κ (storage Kd K0 Kf2 φ * Kd
      / (Kd + biotCoef Kd K0 ^ 2 * storage Kd K0 Kf2 φ)))
    = wZ Kd (biotCoef Kd K0) (storage Kd K0 Kf1 φ) (storage Kd K0 Kf2 φ) η1 η2 κ a s
      (2 * Real.pi * f) := rfl
  rw [cx_add, hZ0]
  have hZne : wZ Kd (biotCoef Kd K0) (storage Kd K0 Kf1 φ) (storage Kd K0 Kf2 φ) η1 η2 κ a s
      (2 * Real.pi * f) ≠ 0 := fun h0 => by rw [h0] at z2; simp at z2
  unfold wK at hK
  generalize wZ Kd (biotCoef Kd K0) (storage Kd K0 Kf1 φ) (storage Kd K0 Kf2 φ) η1 η2 κ a s
      (2 * Real.pi * f) = Z at *
  generalize wC Kd G (biotCoef Kd K0) (storage Kd K0 Kf1 φ) (storage Kd K0 Kf2 φ) a s = c at *
  generalize wInf (Kd + biotCoef Kd K0 ^ 2 * storage Kd K0 Kf1 φ)
    (Kd + biotCoef Kd K0 ^ 2 * storage Kd K0 Kf2 φ) G s = k at *
  have hω' := hω.ne'
  generalize 2 * Real.pi * f = ω at *
  have ha3 : a ^ 3 / s ≠ 0 := by have := h.radius; have := h.sat; positivity
  generalize a ^ 3 / s = t at *
  have hωc : (ω : ℂ) ≠ 0 := ofReal_ne_zero.mpr hω'
  have htc : (t : ℂ) ≠ 0 := ofReal_ne_zero.mpr ha3
  have hX : Cx.ofR (fin k) / (Cx.ofR (fin 1) - Cx.ofR (fin k)
      * (Cx.ofR (fin (-(t * c))) / (Cx.ofR (fin t) * Cx.I * Cx.ofR (fin ω) * cx Z))) = cx K := by
    have hd : (t : ℂ) * I * ω * Z ≠ 0 :=
      mul_ne_zero (mul_ne_zero (mul_ne_zero htc I_ne_zero) hωc) hZne
    have e3 : (1 : ℝ) - (k : ℂ) * (((-(t * c) : ℝ) : ℂ) / ((t : ℂ) * I * ω * Z))
        = 1 + (k : ℂ) * (c / (I * ω * Z)) := by
      have hI0 := I_ne_zero
      push_cast; field
    rw [cx_I, cx_ofR, cx_ofR, cx_ofR, cx_ofR, cx_ofR, cx_mul, cx_mul, cx_mul, cx_div hd, cx_mul,
      cx_sub, e3, cx_div r.1, hK]
  rw [hX, hKs]

/-! ## Properties at a fixed frequency -/

theorem Patch.K_im_pos (h : Patch Kd G β S1 S2 η1 η2 κ a s) (hω : 0 < ω) (hne : S1 ≠ S2) :
    0 < (wK Kd G β S1 S2 η1 η2 κ a s ω).im := by
  obtain ⟨z1, z2⟩ := h.Z_sign hω
  exact (resp_sign h.inf_pos h.C_nonneg hω z1.le z2).2.2.2 (h.C_pos hne) z1

theorem Patch.K_same (h : Patch Kd G β S1 S1 η1 η2 κ a s) :
    wK Kd G β S1 S1 η1 η2 κ a s ω = (Kd + β ^ 2 * S1 : ℝ) := by
  have hD := h.D_pos
  have hc : wC Kd G β S1 S1 a s = 0 := by unfold wC; simp
  have hk : wInf (Kd + β ^ 2 * S1) (Kd + β ^ 2 * S1) G s = Kd + β ^ 2 * S1 := by
    unfold wInf
    rw [div_eq_iff hD.ne']
    ring
  unfold wK
  rw [hc, hk]
  simp

theorem csqrt_im_sign {z : ℂ} (hr : 0 < z.re) :
    0 < z.sqrt.re ∧ 2 * z.sqrt.re * z.sqrt.im = z.im := by
  refine ⟨csqrt_re_pos (Or.inr hr), ?_⟩
  have := congrArg Complex.im (csqrt_sq z)
  rw [mul_im] at this
  linarith

theorem storage_inj (h1 : GassmannRock Kd K0 Kf1 φ) (h2 : GassmannRock Kd K0 Kf2 φ)
    (h : storage Kd K0 Kf1 φ = storage Kd K0 Kf2 φ) : Kf1 = Kf2 := by
  have e1 := storage_inv h1
  have e2 := storage_inv h2
  rw [h, ← e2] at e1
  have e3 : φ / Kf1 = φ / Kf2 := by linarith
  have := h1.fluid_pos; have := h2.fluid_pos; have := h1.por_pos
  field_simp at e3
  linarith

/-- At every positive frequency the complex bulk modulus has a positive real part and a
non-negative imaginary part.  Velocity and attenuation are the phase velocity and the decay rate
`-Im k` of the plane wave of wave number `k = ω √(ρ / M)`, `M = K + 4/3 G`.  Waves lose energy if
and only if the two fluids differ in bulk modulus. -/
theorem C77_passive (h : PatchRock Kd G K0 φ ρ0 ρ1 ρ2 Kf1 Kf2 η1 η2 κ a s) (hf : 0 < f) :
    ∃ (K : ℂ) (v α : ℝ),
      White_Dutta_Ode (fin Kd) (fin G) (fin K0) (fin φ) (fin ρ0) (fin ρ1) (fin ρ2) (fin Kf1)
        (fin Kf2) (fin η1) (fin η2) (fin κ) (fin a) (fin s) (fin f) = (fin v, fin α, ⟨fin K.re, fin K.im⟩) ∧
      0 < K.re ∧ 0 ≤ K.im ∧ (0 < K.im ↔ Kf1 ≠ Kf2) ∧
      v = phaseVelocity (((1 - φ) * ρ0 + φ * s * ρ1 + φ * (1 - s) * ρ2 : ℝ) / (K + (4 / 3 * G : ℝ))) ∧
      α = -(2 * Real.pi * f * (((1 - φ) * ρ0 + φ * s * ρ1 + φ * (1 - s) * ρ2 : ℝ)
        / (K + (4 / 3 * G : ℝ)) : ℂ).sqrt.im) ∧
      0 < v ∧ 0 ≤ α ∧ (0 < α ↔ Kf1 ≠ Kf2) := by
  have hp := toPatch h
  have hω : 0 < 2 * Real.pi * f := by have := Real.pi_pos; positivity
  have e := White_eval h hf _ rfl _ rfl
  obtain ⟨k1, k2⟩ := hp.K_sign hω
  have k3 : 0 < (wK Kd G (biotCoef Kd K0) (storage Kd K0 Kf1 φ) (storage Kd K0 Kf2 φ) η1 η2 κ a s
      (2 * Real.pi * f)).im ↔ Kf1 ≠ Kf2 := by
    constructor
    · rintro hi rfl
      rw [hp.K_same, ofReal_im] at hi
      exact lt_irrefl _ hi
    · intro hne
      exact hp.K_im_pos hω fun e => hne (storage_inj h.inner h.outer e)
  have hd := h.dens
  have hG := h.shear
  generalize (1 - φ) * ρ0 + φ * s * ρ1 + φ * (1 - s) * ρ2 = ρ at *
  generalize wK Kd G (biotCoef Kd K0) (storage Kd K0 Kf1 φ) (storage Kd K0 Kf2 φ) η1 η2 κ a s
      (2 * Real.pi * f) = K at *
  refine ⟨K, _, _, e, k1, k2, k3, rfl, rfl, ?_⟩
  have m1 : 0 < (K + (4 / 3 * G : ℝ)).re := by rw [add_re, ofReal_re]; linarith
  have m2 : (K + (4 / 3 * G : ℝ)).im = K.im := by rw [add_im, ofReal_im, add_zero]
  generalize K + (4 / 3 * G : ℝ) = M at *
  have hM : M ≠ 0 := by rintro rfl; simp at m1
  have hn := normSq_pos.mpr hM
  have w1 : (ρ / M : ℂ).re = ρ * M.re / normSq M := by rw [div_re]; simp
  have w2 : (ρ / M : ℂ).im = -(ρ * K.im / normSq M) := by rw [div_im, ← m2]; simp
  obtain ⟨r1, r2⟩ := csqrt_im_sign (z := (ρ / M : ℂ)) (by rw [w1]; positivity)
  rw [w2] at r2
  unfold phaseVelocity
  generalize (ρ / M : ℂ).sqrt = q at *
  have a1 : -(2 * Real.pi * f * q.im) = K.im * (2 * Real.pi * f * ρ / (normSq M * (2 * q.re))) := by
    have : q.im = -(ρ * K.im / normSq M) / (2 * q.re) := by
      rw [eq_div_iff (by positivity)]; linarith
    rw [this]; field
  have a2 : 0 < 2 * Real.pi * f * ρ / (normSq M * (2 * q.re)) := by positivity
  refine ⟨by positivity, ?_, ?_⟩
  · rw [a1]; positivity
  · rw [a1, ← k3]
    constructor
    · intro h0
      exact (pos_iff_pos_of_mul_pos h0).mpr a2
    · intro h0; positivity

theorem vels_wood (h : GassmannRock Kd K0 Kf1 φ) (hG : 0 ≤ G)
    (hρ : 0 < (1 - φ) * ρ0 + φ * s * ρ1 + φ * (1 - s) * ρ2) :
    ∃ vs ρ : ℝ, vels (fin Kd) (fin G) (fin K0) (fin ρ0) (fin Kf1) (fin (s * ρ1 + (1 - s) * ρ2)) (fin φ)
      = (fin (1000 * √(1 / (((1 - φ) * ρ0 + φ * s * ρ1 + φ * (1 - s) * ρ2)
            / (gK Kd K0 Kf1 φ + 4 / 3 * G)))), fin (1000 * vs), fin ρ) := by
  have h0 := GassmannRock.mineral_pos h
  have g1 := Gassmann_eval h0.ne' h.fluid_pos.ne' (GassmannRock.gB_pos h).ne' (fin G)
  have hg := GassmannRock.gK_gt h
  have hd := h.dry_nonneg
  unfold vels
  dsimp only
  rw [g1]
  have e : fin ρ0 * (1 - fin φ) + fin (s * ρ1 + (1 - s) * ρ2) * fin φ
      = fin ((1 - φ) * ρ0 + φ * s * ρ1 + φ * (1 - s) * ρ2) := by
    simp only [fl]
    exact congrArg fin (by ring)
  have e4 : (4. / 3 : Fl) = fin (4 / 3) := by
    rw [fl_sci, fl_nat, fl_div (by norm_num)]; norm_num
  have e3 : (1e3 : Fl) = fin 1000 := by rw [fl_sci]; norm_num
  rw [e, e4, e3]
  generalize (1 - φ) * ρ0 + φ * s * ρ1 + φ * (1 - s) * ρ2 = ρ at *
  generalize gK Kd K0 Kf1 φ = K at *
  have p1 : 0 ≤ (K + 4 / 3 * G) / ρ := div_nonneg (by linarith) hρ.le
  refine ⟨√(G / ρ), ρ, ?_⟩
  rw [fl_mul, fl_add, fl_div hρ.ne', fl_div hρ.ne', fl_sqrt p1, fl_sqrt (by positivity), fl_mul,
    fl_mul, one_div_div, mul_comm, mul_comm (√(G / ρ))]

theorem real_velocity {ρ k : ℝ} (hρ : 0 < ρ) (hk : 0 < k) :
    phaseVelocity ((ρ : ℂ) / (k : ℂ)) = √(1 / (ρ / k)) ∧ ((ρ : ℂ) / (k : ℂ)).sqrt.im = 0 := by
  have e : ((ρ : ℂ) / (k : ℂ)).sqrt = (√(ρ / k) : ℝ) := by
    have p : 0 < ρ / k := by positivity
    apply csqrt_eq
    · rw [← ofReal_mul, Real.mul_self_sqrt p.le]; push_cast; rfl
    · rw [ofReal_re]; exact Real.sqrt_pos.mpr p
  unfold phaseVelocity
  rw [e, ofReal_re, ofReal_im, Real.sqrt_div' 1 (by positivity), Real.sqrt_one]
  exact ⟨rfl, rfl⟩

/-- Two fluids of the same bulk modulus: Gassmann's modulus, the velocity of the saturated rock and
no attenuation, whatever the viscosities, densities and saturation. -/
theorem C77_same_fluid (h : PatchRock Kd G K0 φ ρ0 ρ1 ρ2 Kf1 Kf1 η1 η2 κ a s) (hf : 0 < f) :
    ∃ vp vs ρ : ℝ,
      vels (fin Kd) (fin G) (fin K0) (fin ρ0) (fin Kf1) (fin (s * ρ1 + (1 - s) * ρ2)) (fin φ)
        = (fin (1000 * vp), fin (1000 * vs), fin ρ) ∧
      White_Dutta_Ode (fin Kd) (fin G) (fin K0) (fin φ) (fin ρ0) (fin ρ1) (fin ρ2) (fin Kf1)
        (fin Kf1) (fin η1) (fin η2) (fin κ) (fin a) (fin s) (fin f)
      = (fin vp, 0, ⟨(Gassmann (fin Kd) (fin G) (fin K0) (fin Kf1) (fin φ)).1, 0⟩) := by
  have hp := toPatch h
  have h0 := GassmannRock.mineral_pos h.inner
  have g1 := Gassmann_eval h0.ne' h.inner.fluid_pos.ne' (GassmannRock.gB_pos h.inner).ne' (fin G)
  obtain ⟨vs, ρ, hv⟩ := vels_wood (s := s) h.inner h.shear h.dens
  refine ⟨_, vs, ρ, hv, ?_⟩
  rw [White_eval h hf _ hp.K_same.symm _ rfl, g1, gK_storage h.inner]
  have hk : 0 < Kd + biotCoef Kd K0 ^ 2 * storage Kd K0 Kf1 φ := by
    have := hp.dry; have := hp.s1; have := hp.beta; positivity
  have hG := h.shear
  rw [← ofReal_add, (real_velocity h.dens (by positivity)).1,
    (real_velocity h.dens (by positivity)).2, mul_zero, neg_zero, fl_zero]
  rfl

/-! ## Limits -/

theorem wAlpha_sq {E : ℝ} (hω : 0 ≤ ω) (hη : 0 < η1) (hκ : 0 < κ) (hE : 0 < E) :
    wAlpha ω η1 κ E ^ 2 * E = I * ω * (η1 / κ) := by
  have hp : 0 ≤ ω * η1 / (2 * κ * E) := by positivity
  have hκc : (κ : ℂ) ≠ 0 := ofReal_ne_zero.mpr hκ.ne'
  have hEc : (E : ℂ) ≠ 0 := ofReal_ne_zero.mpr hE.ne'
  have : (((√(ω * η1 / (2 * κ * E)) : ℝ) : ℂ)) ^ 2 = (ω : ℂ) * η1 / (2 * κ * E) := by
    rw [← ofReal_pow, Real.sq_sqrt hp]; push_cast; rfl
  have e : (1 + I) ^ 2 = 2 * I := by linear_combination I_sq
  unfold wAlpha
  rw [mul_pow, this, e]
  field

theorem wAlpha_ne {E : ℝ} (hω : 0 < ω) (hη : 0 < η1) (hκ : 0 < κ) (hE : 0 < E) :
    wAlpha ω η1 κ E ≠ 0 := by
  unfold wAlpha
  refine mul_ne_zero (ofReal_ne_zero.mpr (Real.sqrt_pos.mpr (by positivity)).ne') fun h => ?_
  have := congrArg Complex.re h
  simp at this

theorem wAlpha_tendsto {E : ℝ} (hη : 0 < η1) (hκ : 0 < κ) (hE : 0 < E) (k : ℝ) (hk : k ≠ 0) :
    Tendsto (fun ω => wAlpha ω η1 κ E * k) (𝓝[>] 0) (𝓝[≠] 0) := by
  rw [tendsto_nhdsWithin_iff]
  constructor
  · have : Tendsto (fun ω => wAlpha ω η1 κ E * k) (𝓝 0) (𝓝 (wAlpha 0 η1 κ E * k)) := by
      apply Continuous.tendsto
      unfold wAlpha
      fun_prop
    have e : wAlpha 0 η1 κ E * k = 0 := by unfold wAlpha; simp
    rw [e] at this
    exact this.mono_left nhdsWithin_le_nhds
  · filter_upwards [self_mem_nhdsWithin] with ω hω
    exact mul_ne_zero (wAlpha_ne hω hη hκ hE) (ofReal_ne_zero.mpr hk)

theorem sph_low {E : ℝ} (hη : 0 < η1) (hκ : 0 < κ) (hE : 0 < E) (ha : 0 < a) :
    Tendsto (fun ω : ℝ => I * ω * sphZ η1 κ a (wAlpha ω η1 κ E)) (𝓝[>] 0) (𝓝 ((3 * E / a : ℝ) : ℂ)) := by
  have hx := wAlpha_tendsto hη hκ hE a ha.ne'
  have l1 := sinh_div_tendsto.comp hx
  have l2 := sphD_tendsto.comp hx
  have l3 := (tendsto_const_nhds (x := ((E / a : ℝ) : ℂ))).mul (l1.div l2 (by norm_num))
  have e : ((E / a : ℝ) : ℂ) * (1 / (1 / 3)) = ((3 * E / a : ℝ) : ℂ) := by push_cast; ring
  rw [e] at l3
  refine l3.congr' ?_
  filter_upwards [self_mem_nhdsWithin] with ω hω
  have hω : 0 < ω := hω
  have hq := wAlpha_sq hω.le hη hκ hE
  have hα := wAlpha_ne hω hη hκ hE
  have hs := (sph_quad (Real.sqrt_pos.mpr (by positivity)) ha (wAlpha ω η1 κ E) rfl).1
  have hac : (a : ℂ) ≠ 0 := ofReal_ne_zero.mpr ha.ne'
  have hκc : (κ : ℂ) ≠ 0 := ofReal_ne_zero.mpr hκ.ne'
  show _ * ((Complex.sinh (wAlpha ω η1 κ E * a) / (wAlpha ω η1 κ E * a))
    / ((wAlpha ω η1 κ E * a * Complex.cosh (wAlpha ω η1 κ E * a) - Complex.sinh (wAlpha ω η1 κ E * a))
      / (wAlpha ω η1 κ E * a) ^ 3)) = _
  unfold sphZ
  generalize wAlpha ω η1 κ E = α at *
  generalize hD : α * a * Complex.cosh (α * a) - Complex.sinh (α * a) = D at *
  generalize Complex.sinh (α * a) = N at *
  have e2 : I * (ω : ℂ) * (η1 * a / κ * (N / D)) = (I * ω * (η1 / κ)) * (a * (N / D)) := by ring
  rw [e2, ← hq]
  push_cast
  field

theorem shell_low {E b : ℝ} (hη : 0 < η1) (hκ : 0 < κ) (hE : 0 < E) (ha : 0 < a) (hab : a < b) :
    Tendsto (fun ω : ℝ => I * ω * shellZ η1 κ a b (wAlpha ω η1 κ E)) (𝓝[>] 0)
      (𝓝 ((3 * E * a ^ 2 / (b ^ 3 - a ^ 3) : ℝ) : ℂ)) := by
  have hba : b - a ≠ 0 := (sub_pos.mpr hab).ne'
  have hb3 : b ^ 3 - a ^ 3 ≠ 0 := by
    have : a ^ 3 < b ^ 3 := pow_lt_pow_left₀ hab ha.le (by norm_num)
    exact (sub_pos.mpr this).ne'
  have hx := wAlpha_tendsto hη hκ hE (b - a) hba
  have l1 := sinh_div_tendsto.comp hx
  have l2 := sphD_tendsto.comp hx
  have l0 : Tendsto (fun ω => Complex.cosh (wAlpha ω η1 κ E * (b - a : ℝ))) (𝓝[>] 0) (𝓝 1) := by
    have := (Complex.continuous_cosh.tendsto 0).comp (hx.mono_right nhdsWithin_le_nhds)
    rwa [Complex.cosh_zero] at this
  have lN := (l0.const_mul (b : ℂ)).sub (l1.const_mul ((b - a : ℝ) : ℂ))
  have lD := (l2.const_mul (((b - a : ℝ) : ℂ) ^ 3)).add
    (l1.const_mul ((a : ℂ) * b * ((b - a : ℝ) : ℂ)))
  have hb3c : (b : ℂ) ^ 3 - (a : ℂ) ^ 3 ≠ 0 := by
    rw [← ofReal_pow, ← ofReal_pow, ← ofReal_sub]; exact ofReal_ne_zero.mpr hb3
  have eD : ((b - a : ℝ) : ℂ) ^ 3 * (1 / 3) + (a : ℂ) * b * ((b - a : ℝ) : ℂ) * 1
      = ((b : ℂ) ^ 3 - (a : ℂ) ^ 3) / 3 := by push_cast; ring
  rw [eD] at lD
  have l3 := (tendsto_const_nhds (x := ((E * a : ℝ) : ℂ))).mul (lN.div lD
    (div_ne_zero hb3c (by norm_num)))
  have e : ((E * a : ℝ) : ℂ) * (((b : ℂ) * 1 - ((b - a : ℝ) : ℂ) * 1) / (((b : ℂ) ^ 3 - (a : ℂ) ^ 3) / 3))
      = ((3 * E * a ^ 2 / (b ^ 3 - a ^ 3) : ℝ) : ℂ) := by push_cast; field
  rw [e] at l3
  refine l3.congr' ?_
  filter_upwards [self_mem_nhdsWithin] with ω hω
  have hω : 0 < ω := hω
  have hq := wAlpha_sq hω.le hη hκ hE
  have hα := wAlpha_ne hω hη hκ hE
  have hs := (shell_quad (Real.sqrt_pos.mpr (by positivity)) ha hab (wAlpha ω η1 κ E) rfl).1
  have hac : (a : ℂ) ≠ 0 := ofReal_ne_zero.mpr ha.ne'
  have hbc : ((b - a : ℝ) : ℂ) ≠ 0 := ofReal_ne_zero.mpr hba
  have hκc : (κ : ℂ) ≠ 0 := ofReal_ne_zero.mpr hκ.ne'
  show _ * ((b * Complex.cosh (wAlpha ω η1 κ E * (b - a : ℝ))
      - ((b - a : ℝ) : ℂ) * (Complex.sinh (wAlpha ω η1 κ E * (b - a : ℝ)) / (wAlpha ω η1 κ E * (b - a : ℝ))))
    / (((b - a : ℝ) : ℂ) ^ 3 * ((wAlpha ω η1 κ E * (b - a : ℝ) * Complex.cosh (wAlpha ω η1 κ E * (b - a : ℝ))
        - Complex.sinh (wAlpha ω η1 κ E * (b - a : ℝ))) / (wAlpha ω η1 κ E * (b - a : ℝ)) ^ 3)
      + a * b * ((b - a : ℝ) : ℂ) * (Complex.sinh (wAlpha ω η1 κ E * (b - a : ℝ)) / (wAlpha ω η1 κ E * (b - a : ℝ)))))
    = _
  unfold shellZ
  generalize wAlpha ω η1 κ E = α at *
  have eU : (b : ℂ) * Complex.cosh (α * (b - a : ℝ))
      - ((b - a : ℝ) : ℂ) * (Complex.sinh (α * (b - a : ℝ)) / (α * (b - a : ℝ))) = shellU α b a / α := by
    unfold shellU
    rw [← ofReal_sub]
    field
  have eV : ((b - a : ℝ) : ℂ) ^ 3 * ((α * (b - a : ℝ) * Complex.cosh (α * (b - a : ℝ))
        - Complex.sinh (α * (b - a : ℝ))) / (α * (b - a : ℝ)) ^ 3)
      + a * b * ((b - a : ℝ) : ℂ) * (Complex.sinh (α * (b - a : ℝ)) / (α * (b - a : ℝ)))
      = (shellU α b a - a * shellU' α b a) / α ^ 3 := by
    unfold shellU shellU'
    rw [← ofReal_sub]
    have hd : (b : ℂ) = ((b - a : ℝ) : ℂ) + a := by push_cast; ring
    generalize ((b - a : ℝ) : ℂ) = d at *
    rw [hd]
    field
  rw [eU, eV]
  generalize shellU α b a - a * shellU' α b a = D at *
  generalize shellU α b a = N at *
  have e2 : I * (ω : ℂ) * (η1 * a / κ * (N / D)) = (I * ω * (η1 / κ)) * (a * (N / D)) := by ring
  rw [e2, ← hq]
  push_cast
  field


/-- Storage of a rock filled with the mixed fluid. -/
noncomputable def mixS (S1 S2 s : ℝ) : ℝ := S1 * S2 / (s * S2 + (1 - s) * S1)

theorem Patch.low (h : Patch Kd G β S1 S2 η1 η2 κ a s) :
    Tendsto (fun ω => wK Kd G β S1 S2 η1 η2 κ a s ω) (𝓝[>] 0)
      (𝓝 ((Kd + β ^ 2 * mixS S1 S2 s : ℝ) : ℂ)) := by
  have e1 := h.E1_pos
  have e2 := h.E2_pos
  have ha := h.radius
  have hab := outer_gt ha h.sat h.sat_lt
  have hs := h.sat
  have hs1 : 0 < 1 - s := by linarith [h.sat_lt]
  have hb3 : (a / s ^ (1 / 3 : ℝ)) ^ 3 - a ^ 3 = a ^ 3 * (1 - s) / s := by
    rw [outer_cube hs]; field
  have l1 := sph_low h.visc1 h.perm e1 ha
  have l2 := shell_low h.visc2 h.perm e2 ha hab
  rw [hb3] at l2
  have l3 := l1.add l2
  rw [← ofReal_add] at l3
  have hL : 0 < 3 * (S1 * Kd / (Kd + β ^ 2 * S1)) / a
      + 3 * (S2 * Kd / (Kd + β ^ 2 * S2)) * a ^ 2 / (a ^ 3 * (1 - s) / s) := by positivity
  have hLc : ((3 * (S1 * Kd / (Kd + β ^ 2 * S1)) / a
      + 3 * (S2 * Kd / (Kd + β ^ 2 * S2)) * a ^ 2 / (a ^ 3 * (1 - s) / s) : ℝ) : ℂ) ≠ 0 :=
    ofReal_ne_zero.mpr hL.ne'
  have hc := h.C_nonneg
  have hk := h.inf_pos
  have l4 := ((tendsto_const_nhds (x := (wC Kd G β S1 S2 a s : ℂ))).div l3 hLc).const_mul
    (wInf (Kd + β ^ 2 * S1) (Kd + β ^ 2 * S2) G s : ℂ)
  have l5 := (tendsto_const_nhds (x := (1 : ℂ))).add l4
  have hlim : wInf (Kd + β ^ 2 * S1) (Kd + β ^ 2 * S2) G s
      / (1 + wInf (Kd + β ^ 2 * S1) (Kd + β ^ 2 * S2) G s
        * (wC Kd G β S1 S2 a s / (3 * (S1 * Kd / (Kd + β ^ 2 * S1)) / a
      + 3 * (S2 * Kd / (Kd + β ^ 2 * S2)) * a ^ 2 / (a ^ 3 * (1 - s) / s))))
      = Kd + β ^ 2 * mixS S1 S2 s := by
    have hN := h.N_pos
    have hD := h.D_pos
    have hd := h.dry
    have h1 := h.s1
    have h2 := h.s2
    have hβ := h.beta
    have hT : 0 < s * S2 + (1 - s) * S1 := by positivity
    have hKL : Kd + β ^ 2 * mixS S1 S2 s
        = ((1 - s) * S1 * (Kd + β ^ 2 * S2) + s * S2 * (Kd + β ^ 2 * S1)) / (s * S2 + (1 - s) * S1) := by
      unfold mixS; field
    have hU : 0 < (1 - s) * S1 * (Kd + β ^ 2 * S2) + s * S2 * (Kd + β ^ 2 * S1) := by positivity
    have hY : wC Kd G β S1 S2 a s / (3 * (S1 * Kd / (Kd + β ^ 2 * S1)) / a
        + 3 * (S2 * Kd / (Kd + β ^ 2 * S2)) * a ^ 2 / (a ^ 3 * (1 - s) / s))
        = s * (1 - s) * β ^ 2 * (S1 - S2) ^ 2 * (3 * Kd + 4 * G)
          / (((Kd + β ^ 2 * S2) * (3 * (Kd + β ^ 2 * S1) + 4 * G)
              + 4 * G * ((Kd + β ^ 2 * S1) - (Kd + β ^ 2 * S2)) * s)
            * ((1 - s) * S1 * (Kd + β ^ 2 * S2) + s * S2 * (Kd + β ^ 2 * S1))) := by
      have k1 : 0 < Kd + β ^ 2 * S1 := by positivity
      have k2 : 0 < Kd + β ^ 2 * S2 := by positivity
      have hLe : 3 * (S1 * Kd / (Kd + β ^ 2 * S1)) / a
          + 3 * (S2 * Kd / (Kd + β ^ 2 * S2)) * a ^ 2 / (a ^ 3 * (1 - s) / s)
          = 3 * Kd * ((1 - s) * S1 * (Kd + β ^ 2 * S2) + s * S2 * (Kd + β ^ 2 * S1))
            / (a * (1 - s) * (Kd + β ^ 2 * S1) * (Kd + β ^ 2 * S2)) := by
        generalize Kd + β ^ 2 * S1 = K1 at *
        generalize Kd + β ^ 2 * S2 = K2 at *
        field
      rw [hLe]
      unfold wC
      generalize (Kd + β ^ 2 * S2) * (3 * (Kd + β ^ 2 * S1) + 4 * G)
              + 4 * G * ((Kd + β ^ 2 * S1) - (Kd + β ^ 2 * S2)) * s = N at *
      generalize (1 - s) * S1 * (Kd + β ^ 2 * S2) + s * S2 * (Kd + β ^ 2 * S1) = U at *
      generalize Kd + β ^ 2 * S1 = K1 at *
      generalize Kd + β ^ 2 * S2 = K2 at *
      field
    rw [hY, hKL]
    unfold wInf
    generalize hNe : (Kd + β ^ 2 * S2) * (3 * (Kd + β ^ 2 * S1) + 4 * G)
              + 4 * G * ((Kd + β ^ 2 * S1) - (Kd + β ^ 2 * S2)) * s = N at *
    generalize hDe : 3 * (Kd + β ^ 2 * S1) + 4 * G
        - 3 * ((Kd + β ^ 2 * S1) - (Kd + β ^ 2 * S2)) * s = D at *
    generalize hUe : (1 - s) * S1 * (Kd + β ^ 2 * S2) + s * S2 * (Kd + β ^ 2 * S1) = U at *
    have key : D * U + s * (1 - s) * β ^ 2 * (S1 - S2) ^ 2 * (3 * Kd + 4 * G)
        = N * (s * S2 + (1 - s) * S1) := by
      rw [← hNe, ← hDe, ← hUe]; ring
    have : 1 + N / D * (s * (1 - s) * β ^ 2 * (S1 - S2) ^ 2 * (3 * Kd + 4 * G) / (N * U))
        = N * (s * S2 + (1 - s) * S1) / (D * U) := by
      rw [← key]; field
    rw [this]
    field
  have hne : (1 : ℂ) + wInf (Kd + β ^ 2 * S1) (Kd + β ^ 2 * S2) G s
      * ((wC Kd G β S1 S2 a s : ℂ) / ((3 * (S1 * Kd / (Kd + β ^ 2 * S1)) / a
      + 3 * (S2 * Kd / (Kd + β ^ 2 * S2)) * a ^ 2 / (a ^ 3 * (1 - s) / s) : ℝ) : ℂ)) ≠ 0 := by
    rw [← ofReal_div, ← ofReal_mul, ← ofReal_one, ← ofReal_add, ofReal_ne_zero]
    positivity
  have l6 := (tendsto_const_nhds (x := (wInf (Kd + β ^ 2 * S1) (Kd + β ^ 2 * S2) G s : ℂ))).div l5 hne
  rw [← ofReal_div, ← ofReal_mul, ← ofReal_one, ← ofReal_add, ← ofReal_div, hlim] at l6
  refine l6.congr fun ω => ?_
  show (wInf (Kd + β ^ 2 * S1) (Kd + β ^ 2 * S2) G s : ℂ) / _ = _
  unfold wK wZ
  rw [mul_add (I * (ω : ℂ))]
  rfl

theorem sph_high {E : ℝ} (hη : 0 < η1) (hκ : 0 < κ) (hE : 0 < E) (ha : 0 < a) :
    Tendsto (fun ω : ℝ => ω * ‖sphZ η1 κ a (wAlpha ω η1 κ E)‖) atTop atTop := by
  set k := √(η1 / (2 * κ * E)) * a with hk
  have hk0 : 0 < k := mul_pos (Real.sqrt_pos.mpr (by positivity)) ha
  have hbound : ∀ᶠ ω : ℝ in atTop, η1 * a / κ / (4 * k + 1) * √ω ≤ ω * ‖sphZ η1 κ a (wAlpha ω η1 κ E)‖ := by
    filter_upwards [eventually_ge_atTop (1 : ℝ), eventually_ge_atTop ((1 / k) ^ 2)] with ω hω hω2
    have hω0 : 0 < ω := by linarith
    have hsω : 1 ≤ √ω := Real.one_le_sqrt.mpr hω
    have hss : √ω * √ω = ω := Real.mul_self_sqrt hω0.le
    have hs1 : 1 ≤ k * √ω := by
      have : 1 / k ≤ √ω := Real.le_sqrt_of_sq_le hω2
      rw [div_le_iff₀ hk0] at this
      linarith
    have hα : wAlpha ω η1 κ E * a = (k * √ω : ℝ) * (1 + I) := by
      unfold wAlpha
      rw [show ω * η1 / (2 * κ * E) = η1 / (2 * κ * E) * ω by ring, Real.sqrt_mul (by positivity), hk]
      push_cast; ring
    unfold sphZ
    rw [hα]
    generalize hst : k * √ω = t at *
    have n1 := sphere_norm t
    have n2 := sphere_cosh_norm t
    have hch : Real.cosh (2 * t) ≥ 3 := by
      rw [Real.cosh_two_mul, Real.cosh_sq]
      have := Real.self_le_sinh_iff.mpr (by linarith : 0 ≤ t)
      nlinarith
    have hcos := Real.cos_le_one (2 * t)
    have hcs : ‖Complex.cosh (t * (1 + I))‖ ≤ 2 * ‖Complex.sinh (t * (1 + I))‖ := by
      apply le_of_sq_le_sq _ (by positivity)
      rw [mul_pow, Complex.sq_norm, Complex.sq_norm, n1, n2]
      linarith
    have hsp : 0 < ‖Complex.sinh (t * (1 + I))‖ := by
      rw [norm_pos_iff]
      intro h0
      rw [h0, map_zero] at n1
      linarith
    have hD0 := (sph_quad (σ := t) (a := 1) (by linarith) one_pos (t * (1 + I)) rfl).1
    rw [ofReal_one, mul_one] at hD0
    have hxn : ‖(t : ℂ) * (1 + I)‖ ≤ 2 * t := by
      rw [norm_mul, norm_real, Real.norm_of_nonneg (by linarith)]
      have : ‖(1 : ℂ) + I‖ ≤ 2 := by
        have := norm_add_le (1 : ℂ) I
        rw [norm_one, norm_I] at this; linarith
      nlinarith
    have hDn : ‖(t : ℂ) * (1 + I) * Complex.cosh (t * (1 + I)) - Complex.sinh (t * (1 + I))‖
        ≤ (4 * t + 1) * ‖Complex.sinh (t * (1 + I))‖ := by
      have b1 := norm_sub_le ((t : ℂ) * (1 + I) * Complex.cosh (t * (1 + I))) (Complex.sinh (t * (1 + I)))
      rw [norm_mul] at b1
      have b2 : ‖(t : ℂ) * (1 + I)‖ * ‖Complex.cosh (t * (1 + I))‖
          ≤ 2 * t * (2 * ‖Complex.sinh (t * (1 + I))‖) :=
        mul_le_mul hxn hcs (norm_nonneg _) (by linarith)
      linarith
    have hDp : 0 < ‖(t : ℂ) * (1 + I) * Complex.cosh (t * (1 + I)) - Complex.sinh (t * (1 + I))‖ :=
      norm_pos_iff.mpr hD0
    rw [show (η1 * a / κ : ℂ) = (η1 * a / κ : ℝ) by push_cast; rfl, norm_mul, norm_real,
      Real.norm_of_nonneg (by positivity), norm_div]
    generalize ‖(t : ℂ) * (1 + I) * Complex.cosh (t * (1 + I)) - Complex.sinh (t * (1 + I))‖ = D at *
    generalize ‖Complex.sinh (t * (1 + I))‖ = N at *
    have c1 : 1 / ((4 * k + 1) * √ω) ≤ N / D := by
      rw [div_le_div_iff₀ (by positivity) hDp]
      have : 4 * t + 1 ≤ (4 * k + 1) * √ω := by rw [← hst]; nlinarith
      nlinarith
    have c2 : η1 * a / κ / (4 * k + 1) * √ω = ω * (η1 * a / κ * (1 / ((4 * k + 1) * √ω))) := by
      have hr : 0 < √ω := by linarith
      generalize √ω = r at *
      rw [← hss]; field
    rw [c2]
    apply mul_le_mul_of_nonneg_left _ hω0.le
    exact mul_le_mul_of_nonneg_left c1 (by positivity)
  refine tendsto_atTop_mono' _ hbound ?_
  exact Real.tendsto_sqrt_atTop.const_mul_atTop (by positivity)

theorem norm_le_add {z w : ℂ} (h1 : 0 ≤ z.re) (h2 : 0 ≤ w.re) (h3 : z.im ≤ 0) (h4 : w.im ≤ 0) :
    ‖z‖ ≤ ‖z + w‖ := by
  rw [Complex.norm_def, Complex.norm_def]
  apply Real.sqrt_le_sqrt
  rw [normSq_apply, normSq_apply, add_re, add_im]
  nlinarith

theorem Patch.high (h : Patch Kd G β S1 S2 η1 η2 κ a s) :
    Tendsto (fun ω => wK Kd G β S1 S2 η1 η2 κ a s ω) atTop
      (𝓝 ((wInf (Kd + β ^ 2 * S1) (Kd + β ^ 2 * S2) G s : ℝ) : ℂ)) := by
  have e1 := h.E1_pos
  have e2 := h.E2_pos
  have hz : Tendsto (fun ω : ℝ => ‖I * ω * wZ Kd β S1 S2 η1 η2 κ a s ω‖) atTop atTop := by
    refine tendsto_atTop_mono' _ ?_ (sph_high h.visc1 h.perm e1 h.radius)
    filter_upwards [eventually_gt_atTop (0 : ℝ)] with ω hω
    have hη1 := h.visc1; have hη2 := h.visc2; have hκ := h.perm
    obtain ⟨a1, a2⟩ := sphZ_sign h.visc1 h.perm (Real.sqrt_pos.mpr (by positivity)) h.radius
      (wAlpha ω η1 κ (S1 * Kd / (Kd + β ^ 2 * S1))) rfl
    obtain ⟨b1, b2⟩ := shellZ_sign h.visc2 h.perm (Real.sqrt_pos.mpr (by positivity)) h.radius
      (outer_gt h.radius h.sat h.sat_lt) (wAlpha ω η2 κ (S2 * Kd / (Kd + β ^ 2 * S2))) rfl
    rw [norm_mul, norm_mul, norm_I, one_mul, norm_real, Real.norm_of_nonneg hω.le]
    exact mul_le_mul_of_nonneg_left (norm_le_add a1.le b1 a2.le b2.le) hω.le
  have l1 : Tendsto (fun ω : ℝ => (wC Kd G β S1 S2 a s : ℂ) / (I * ω * wZ Kd β S1 S2 η1 η2 κ a s ω))
      atTop (𝓝 0) := by
    rw [tendsto_zero_iff_norm_tendsto_zero]
    refine (hz.const_div_atTop ‖(wC Kd G β S1 S2 a s : ℂ)‖).congr fun ω => ?_
    rw [norm_div]
  have l2 := (tendsto_const_nhds (x := (1 : ℂ))).add
    (l1.const_mul (wInf (Kd + β ^ 2 * S1) (Kd + β ^ 2 * S2) G s : ℂ))
  rw [mul_zero, add_zero] at l2
  have l3 := (tendsto_const_nhds (x := (wInf (Kd + β ^ 2 * S1) (Kd + β ^ 2 * S2) G s : ℂ))).div l2
    one_ne_zero
  rw [div_one] at l3
  exact l3

theorem wood_rock (h1 : GassmannRock Kd K0 Kf1 φ) (h2 : GassmannRock Kd K0 Kf2 φ) (hs : 0 < s)
    (hs1 : s < 1) : GassmannRock Kd K0 (wood s Kf1 Kf2) φ ∧
      storage Kd K0 (wood s Kf1 Kf2) φ = mixS (storage Kd K0 Kf1 φ) (storage Kd K0 Kf2 φ) s := by
  have f1 := h1.fluid_pos
  have f2 := h2.fluid_pos
  have h0 := GassmannRock.mineral_pos h1
  have hs' : 0 < 1 - s := by linarith
  have hr : GassmannRock Kd K0 (wood s Kf1 Kf2) φ := by
    refine ⟨h1.dry_nonneg, h1.dry_lt, ?_, ?_, h1.por_pos⟩
    · unfold wood; positivity
    · unfold wood
      rw [div_lt_iff₀ (by positivity)]
      have a1 : 1 < K0 / Kf1 := (one_lt_div f1).mpr h1.fluid_lt
      have a2 : 1 < K0 / Kf2 := (one_lt_div f2).mpr h2.fluid_lt
      have : K0 * (s / Kf1 + (1 - s) / Kf2) = s * (K0 / Kf1) + (1 - s) * (K0 / Kf2) := by ring
      rw [this]
      nlinarith
  refine ⟨hr, ?_⟩
  have e1 := storage_inv h1
  have e2 := storage_inv h2
  have e3 := storage_inv hr
  have p1 := storage_pos h1
  have p2 := storage_pos h2
  have p3 := storage_pos hr
  have hw : φ / wood s Kf1 Kf2 = s * (φ / Kf1) + (1 - s) * (φ / Kf2) := by
    unfold wood; field
  rw [hw] at e3
  generalize storage Kd K0 Kf1 φ = S1 at *
  generalize storage Kd K0 Kf2 φ = S2 at *
  generalize storage Kd K0 (wood s Kf1 Kf2) φ = S at *
  have e4 : S⁻¹ = s * S1⁻¹ + (1 - s) * S2⁻¹ := by linear_combination -e3 + s * e1 + (1 - s) * e2
  rw [← inv_inv S, e4]
  unfold mixS
  field

/-- Limits of velocity when the modulus tends to a positive real number. -/
theorem wave_limit {l : Filter ℝ} {K : ℝ → ℂ} {ρ k : ℝ} (hρ : 0 < ρ) (hk : 0 < k) (hG : 0 ≤ G)
    (hK : Tendsto K l (𝓝 (k : ℂ))) :
    Tendsto (fun f => phaseVelocity (ρ / (K f + (4 / 3 * G : ℝ)))) l (𝓝 √(1 / (ρ / (k + 4 / 3 * G)))) ∧
    Tendsto (fun f => (ρ / (K f + (4 / 3 * G : ℝ)) : ℂ).sqrt.im) l (𝓝 0) := by
  have hkG : 0 < k + 4 / 3 * G := by positivity
  have l1 : Tendsto (fun f => (ρ : ℂ) / (K f + (4 / 3 * G : ℝ))) l (𝓝 ((ρ / (k + 4 / 3 * G) : ℝ) : ℂ)) := by
    have l2 := hK.add_const ((4 / 3 * G : ℝ) : ℂ)
    rw [← ofReal_add] at l2
    have l3 := (tendsto_const_nhds (x := (ρ : ℂ))).div l2 (ofReal_ne_zero.mpr hkG.ne')
    rwa [← ofReal_div] at l3
  refine ⟨phaseVelocity_tendsto (by positivity) l1, ?_⟩
  have := (Complex.continuous_im.tendsto _).comp
    (csqrt_tendsto (r := ρ / (k + 4 / 3 * G)) (by positivity) l1)
  rwa [ofReal_im] at this

/-- As the frequency falls to zero the modulus tends to Gassmann's modulus for the mixed fluid, the
velocity to that of `Fluid.vels` for it (`vels` returns thousands), the attenuation to zero. -/
theorem C77_low_frequency (h : PatchRock Kd G K0 φ ρ0 ρ1 ρ2 Kf1 Kf2 η1 η2 κ a s) :
    ∃ K vp vs ρ : ℝ,
      Gassmann (fin Kd) (fin G) (fin K0) (fin (wood s Kf1 Kf2)) (fin φ) = (fin K, fin G) ∧
      vels (fin Kd) (fin G) (fin K0) (fin ρ0) (fin (wood s Kf1 Kf2)) (fin (s * ρ1 + (1 - s) * ρ2))
        (fin φ) = (fin (1000 * vp), fin (1000 * vs), fin ρ) ∧
      TendsTo (fun f => (White_Dutta_Ode (fin Kd) (fin G) (fin K0) (fin φ) (fin ρ0) (fin ρ1) (fin ρ2)
        (fin Kf1) (fin Kf2) (fin η1) (fin η2) (fin κ) (fin a) (fin s) (fin f)).1) (𝓝[>] 0) vp ∧
      TendsTo (fun f => (White_Dutta_Ode (fin Kd) (fin G) (fin K0) (fin φ) (fin ρ0) (fin ρ1) (fin ρ2)
        (fin Kf1) (fin Kf2) (fin η1) (fin η2) (fin κ) (fin a) (fin s) (fin f)).2.1) (𝓝[>] 0) 0 ∧
      TendsTo (fun f => (White_Dutta_Ode (fin Kd) (fin G) (fin K0) (fin φ) (fin ρ0) (fin ρ1) (fin ρ2)
        (fin Kf1) (fin Kf2) (fin η1) (fin η2) (fin κ) (fin a) (fin s) (fin f)).2.2.re) (𝓝[>] 0) K ∧
      TendsTo (fun f => (White_Dutta_Ode (fin Kd) (fin G) (fin K0) (fin φ) (fin ρ0) (fin ρ1) (fin ρ2)
        (fin Kf1) (fin Kf2) (fin η1) (fin η2) (fin κ) (fin a) (fin s) (fin f)).2.2.im) (𝓝[>] 0) 0 := by
  have hp := toPatch h
  obtain ⟨hr, hS⟩ := wood_rock h.inner h.outer h.sat h.sat_lt
  have h0 := GassmannRock.mineral_pos hr
  have g1 := Gassmann_eval h0.ne' hr.fluid_pos.ne' (GassmannRock.gB_pos hr).ne' (fin G)
  obtain ⟨vs, ρ, hv⟩ := vels_wood (s := s) hr h.shear h.dens
  have hπ := Real.pi_pos
  have hom : Tendsto (fun f : ℝ => 2 * Real.pi * f) (𝓝[>] 0) (𝓝[>] 0) := by
    rw [tendsto_nhdsWithin_iff]
    constructor
    · have : Tendsto (fun f : ℝ => 2 * Real.pi * f) (𝓝 0) (𝓝 (2 * Real.pi * 0)) := by
        apply Continuous.tendsto; fun_prop
      rw [mul_zero] at this
      exact this.mono_left nhdsWithin_le_nhds
    · filter_upwards [self_mem_nhdsWithin] with f hf
      have hf : 0 < f := hf
      exact Set.mem_Ioi.mpr (by positivity)
  have hK := hp.low.comp hom
  rw [← hS, ← gK_storage hr] at hK
  have hgk := GassmannRock.gK_gt hr
  have hk0 : 0 < gK Kd K0 (wood s Kf1 Kf2) φ := by linarith [h.dry]
  obtain ⟨w1, w2⟩ := wave_limit h.dens hk0 h.shear hK
  have hom0 : Tendsto (fun f : ℝ => 2 * Real.pi * f) (𝓝[>] 0) (𝓝 0) :=
    hom.mono_right nhdsWithin_le_nhds
  have w3 := (hom0.mul w2).neg
  rw [mul_zero, neg_zero] at w3
  have hre := (Complex.continuous_re.tendsto _).comp hK
  have him := (Complex.continuous_im.tendsto _).comp hK
  rw [ofReal_re] at hre
  rw [ofReal_im] at him
  refine ⟨_, _, vs, ρ, g1, hv, ⟨_, ?_, w1⟩, ⟨_, ?_, w3⟩, ⟨_, ?_, hre⟩, ⟨_, ?_, him⟩⟩ <;>
  · filter_upwards [self_mem_nhdsWithin] with f hf
    rw [White_eval h hf _ rfl _ rfl]
    rfl

theorem Patch.hill (hp : Patch Kd G β S1 S2 η1 η2 κ a s) :
    1 / (wInf (Kd + β ^ 2 * S1) (Kd + β ^ 2 * S2) G s + 4 / 3 * G)
      = s / (Kd + β ^ 2 * S1 + 4 / 3 * G) + (1 - s) / (Kd + β ^ 2 * S2 + 4 / 3 * G) := by
  have hD := hp.D_pos
  have hN := hp.N_pos
  have hG := hp.shear
  have k1 : 0 < Kd + β ^ 2 * S1 := by
    have := hp.dry; have := hp.s1; have := hp.beta; positivity
  have k2 : 0 < Kd + β ^ 2 * S2 := by
    have := hp.dry; have := hp.s2; have := hp.beta; positivity
  unfold wInf
  generalize Kd + β ^ 2 * S1 = K1 at *
  generalize Kd + β ^ 2 * S2 = K2 at *
  have e : (K2 * (3 * K1 + 4 * G) + 4 * G * (K1 - K2) * s) / (3 * K1 + 4 * G - 3 * (K1 - K2) * s)
      + 4 / 3 * G = (3 * K1 + 4 * G) * (3 * K2 + 4 * G)
        / (3 * (3 * K1 + 4 * G - 3 * (K1 - K2) * s)) := by
    rw [eq_div_iff (by positivity), add_mul]
    field_simp
    ring
  rw [e]
  have p1 : 0 < K1 + 4 / 3 * G := by positivity
  have p2 : 0 < K2 + 4 / 3 * G := by positivity
  have p3 : 0 < 3 * K1 + 4 * G := by positivity
  have p4 : 0 < 3 * K2 + 4 * G := by positivity
  rw [one_div_div, show K1 + 4 / 3 * G = (3 * K1 + 4 * G) / 3 by ring,
    show K2 + 4 / 3 * G = (3 * K2 + 4 * G) / 3 by ring]
  field

/-- As the frequency grows the modulus tends to the real patchy modulus in which the two saturated
regions do not exchange fluid: their P-wave moduli are averaged harmonically (Hill). -/
theorem C77_high_frequency (h : PatchRock Kd G K0 φ ρ0 ρ1 ρ2 Kf1 Kf2 η1 η2 κ a s) :
    ∃ K1 K2 K : ℝ,
      Gassmann (fin Kd) (fin G) (fin K0) (fin Kf1) (fin φ) = (fin K1, fin G) ∧
      Gassmann (fin Kd) (fin G) (fin K0) (fin Kf2) (fin φ) = (fin K2, fin G) ∧
      0 < K ∧ 1 / (K + 4 / 3 * G) = s / (K1 + 4 / 3 * G) + (1 - s) / (K2 + 4 / 3 * G) ∧
      TendsTo (fun f => (White_Dutta_Ode (fin Kd) (fin G) (fin K0) (fin φ) (fin ρ0) (fin ρ1) (fin ρ2)
        (fin Kf1) (fin Kf2) (fin η1) (fin η2) (fin κ) (fin a) (fin s) (fin f)).1) atTop
        √((K + 4 / 3 * G) / ((1 - φ) * ρ0 + φ * s * ρ1 + φ * (1 - s) * ρ2)) ∧
      TendsTo (fun f => (White_Dutta_Ode (fin Kd) (fin G) (fin K0) (fin φ) (fin ρ0) (fin ρ1) (fin ρ2)
        (fin Kf1) (fin Kf2) (fin η1) (fin η2) (fin κ) (fin a) (fin s) (fin f)).2.2.re) atTop K ∧
      TendsTo (fun f => (White_Dutta_Ode (fin Kd) (fin G) (fin K0) (fin φ) (fin ρ0) (fin ρ1) (fin ρ2)
        (fin Kf1) (fin Kf2) (fin η1) (fin η2) (fin κ) (fin a) (fin s) (fin f)).2.2.im) atTop 0 := by
  have hp := toPatch h
  have h0 := GassmannRock.mineral_pos h.inner
  have g1 := Gassmann_eval h0.ne' h.inner.fluid_pos.ne' (GassmannRock.gB_pos h.inner).ne' (fin G)
  have g2 := Gassmann_eval h0.ne' h.outer.fluid_pos.ne' (GassmannRock.gB_pos h.outer).ne' (fin G)
  have hπ := Real.pi_pos
  have hom : Tendsto (fun f : ℝ => 2 * Real.pi * f) atTop atTop :=
    tendsto_id.const_mul_atTop (by positivity)
  have hK := hp.high.comp hom
  obtain ⟨w1, -⟩ := wave_limit h.dens hp.inf_pos h.shear hK
  rw [one_div_div] at w1
  have hre := (Complex.continuous_re.tendsto _).comp hK
  have him := (Complex.continuous_im.tendsto _).comp hK
  rw [ofReal_re] at hre
  rw [ofReal_im] at him
  refine ⟨_, _, _, g1, g2, hp.inf_pos, ?_, ⟨_, ?_, w1⟩, ⟨_, ?_, hre⟩, ⟨_, ?_, him⟩⟩
  · rw [gK_storage h.inner, gK_storage h.outer]
    exact hp.hill
  all_goals
    filter_upwards [eventually_gt_atTop (0 : ℝ)] with f hf
    rw [White_eval h hf _ rfl _ rfl]
    rfl


/-! ## The pressure exchange -/

theorem sphere_diffusion {α : ℂ} {d : ℝ} (hα : α ^ 2 = I * ω / d) :
    RadialDiffusion ω d (fun r => Complex.sinh (α * r) / r)
      (fun r => (α * r * Complex.cosh (α * r) - Complex.sinh (α * r)) / (r : ℂ) ^ 2) := by
  intro r hr
  have hrc : (r : ℂ) ≠ 0 := ofReal_ne_zero.mpr hr.ne'
  have hl : HasDerivAt (fun z : ℂ => α * z) α (r : ℂ) := by
    simpa using (hasDerivAt_id (r : ℂ)).const_mul α
  constructor
  · have := (hl.csinh.div (hasDerivAt_id (r : ℂ)) hrc).comp_ofReal
    refine this.congr_deriv ?_
    simp only [id]
    field
  · have h1 := ((hl.mul hl.ccosh).sub hl.csinh).comp_ofReal
    have h2 : HasDerivAt (fun r : ℝ => (r : ℂ) ^ 2
        * ((α * r * Complex.cosh (α * r) - Complex.sinh (α * r)) / (r : ℂ) ^ 2))
        (α * Complex.cosh (α * r) + α * r * (Complex.sinh (α * r) * α) - Complex.cosh (α * r) * α) r := by
      refine h1.congr_of_eventuallyEq ?_
      filter_upwards [Ioi_mem_nhds hr] with t ht
      have htc : (t : ℂ) ≠ 0 := ofReal_ne_zero.mpr (ne_of_gt ht)
      simp only [Pi.sub_apply, Pi.mul_apply]
      field
    refine h2.congr_deriv ?_
    rw [← hα]
    field

theorem shell_diffusion {α : ℂ} {d b : ℝ} (hα : α ^ 2 = I * ω / d) :
    RadialDiffusion ω d (fun r => shellU α b r / r)
      (fun r => (r * shellU' α b r - shellU α b r) / (r : ℂ) ^ 2) := by
  intro r hr
  have hrc : (r : ℂ) ≠ 0 := ofReal_ne_zero.mpr hr.ne'
  have h3 : HasDerivAt (fun x : ℝ => (x : ℂ)) 1 r := by
    simpa using (hasDerivAt_id (r : ℂ)).comp_ofReal
  constructor
  · refine ((shellU_deriv α b r).div h3 hrc).congr_deriv ?_
    field
  · have h1 := (h3.mul (shellU'_deriv α b r)).sub (shellU_deriv α b r)
    have h2 : HasDerivAt (fun r : ℝ => (r : ℂ) ^ 2
        * ((r * shellU' α b r - shellU α b r) / (r : ℂ) ^ 2))
        (1 * shellU' α b r + r * (α ^ 2 * shellU α b r) - shellU' α b r) r := by
      refine h1.congr_of_eventuallyEq ?_
      filter_upwards [Ioi_mem_nhds hr] with t ht
      have htc : (t : ℂ) ≠ 0 := ofReal_ne_zero.mpr (ne_of_gt ht)
      simp only [Pi.sub_apply, Pi.mul_apply]
      field
    refine h2.congr_deriv ?_
    rw [← hα]
    field

/-- How the modulus departs from the high-frequency modulus `K∞`: the compliance gains a term
inversely proportional to the impedance of the fluid exchange.  The impedance is `η/κ` times
pressure over pressure gradient at the interface `r = a`, summed over both sides, for pressures that
diffuse radially, are bounded at the centre and have no gradient at the outer radius `b`,
`a³ = s b³`. -/
theorem C77_exchange (h : PatchRock Kd G K0 φ ρ0 ρ1 ρ2 Kf1 Kf2 η1 η2 κ a s) (hf : 0 < f) :
    ∃ (K1 K2 Ki b : ℝ) (K : ℂ) (p1 p1' p2 p2' : ℝ → ℂ),
      Gassmann (fin Kd) (fin G) (fin K0) (fin Kf1) (fin φ) = (fin K1, fin G) ∧
      Gassmann (fin Kd) (fin G) (fin K0) (fin Kf2) (fin φ) = (fin K2, fin G) ∧
      (White_Dutta_Ode (fin Kd) (fin G) (fin K0) (fin φ) (fin ρ0) (fin ρ1) (fin ρ2) (fin Kf1)
        (fin Kf2) (fin η1) (fin η2) (fin κ) (fin a) (fin s) (fin f)).2.2 = ⟨fin K.re, fin K.im⟩ ∧
      0 < Ki ∧ 1 / (Ki + 4 / 3 * G) = s / (K1 + 4 / 3 * G) + (1 - s) / (K2 + 4 / 3 * G) ∧
      a < b ∧ a ^ 3 = s * b ^ 3 ∧
      RadialDiffusion (2 * Real.pi * f) (diffusivity Kd K0 Kf1 φ K1 κ η1) p1 p1' ∧
      (∃ p0, p0 ≠ 0 ∧ Tendsto p1 (𝓝[>] 0) (𝓝 p0)) ∧
      RadialDiffusion (2 * Real.pi * f) (diffusivity Kd K0 Kf2 φ K2 κ η2) p2 p2' ∧
      p2 b ≠ 0 ∧ p2' b = 0 ∧ p1' a ≠ 0 ∧ p2' a ≠ 0 ∧
      1 / K = 1 / Ki + (3 / b ^ 3 * (a ^ 2 * biotCoef Kd K0 ^ 2
            * (storage Kd K0 Kf1 φ - storage Kd K0 Kf2 φ) ^ 2 * (3 * Kd + 4 * G) * Kd)
          / (Ki * (3 * ((1 - s) * K1 + s * K2) + 4 * G) * K1 * K2) : ℝ)
        / (I * (2 * Real.pi * f : ℝ)
          * (η1 / κ * (p1 a / p1' a) - η2 / κ * (p2 a / p2' a))) := by
  have hp := toPatch h
  have h0 := GassmannRock.mineral_pos h.inner
  have g1 := Gassmann_eval h0.ne' h.inner.fluid_pos.ne' (GassmannRock.gB_pos h.inner).ne' (fin G)
  have g2 := Gassmann_eval h0.ne' h.outer.fluid_pos.ne' (GassmannRock.gB_pos h.outer).ne' (fin G)
  have hω : 0 < 2 * Real.pi * f := by have := Real.pi_pos; positivity
  have e := White_eval h hf _ rfl _ rfl
  have ha := h.radius
  have hac : (a : ℂ) ≠ 0 := ofReal_ne_zero.mpr ha.ne'
  have hab := outer_gt ha h.sat h.sat_lt
  have hb3 := outer_cube (a := a) h.sat
  have hb : 0 < a / s ^ (1 / 3 : ℝ) := ha.trans hab
  have hκ := h.perm; have hη1 := h.visc1; have hη2 := h.visc2
  have hκc : (κ : ℂ) ≠ 0 := ofReal_ne_zero.mpr hκ.ne'
  have hη1c : (η1 : ℂ) ≠ 0 := ofReal_ne_zero.mpr hη1.ne'
  have hη2c : (η2 : ℂ) ≠ 0 := ofReal_ne_zero.mpr hη2.ne'
  have hE1 := hp.E1_pos
  have hE2 := hp.E2_pos
  have q1 := wAlpha_sq hω.le hη1 hκ hE1
  have q2 := wAlpha_sq hω.le hη2 hκ hE2
  have n1 := wAlpha_ne hω hη1 hκ hE1
  have n2 := wAlpha_ne hω hη2 hκ hE2
  have d1 := (sph_quad (Real.sqrt_pos.mpr (by positivity)) ha
    (wAlpha (2 * Real.pi * f) η1 κ (storage Kd K0 Kf1 φ * Kd
      / (Kd + biotCoef Kd K0 ^ 2 * storage Kd K0 Kf1 φ))) rfl).1
  have d2 := (shell_quad (Real.sqrt_pos.mpr (by positivity)) ha hab
    (wAlpha (2 * Real.pi * f) η2 κ (storage Kd K0 Kf2 φ * Kd
      / (Kd + biotCoef Kd K0 ^ 2 * storage Kd K0 Kf2 φ))) rfl).1
  have s1 : wAlpha (2 * Real.pi * f) η1 κ (storage Kd K0 Kf1 φ * Kd
      / (Kd + biotCoef Kd K0 ^ 2 * storage Kd K0 Kf1 φ)) ^ 2
      = I * (2 * Real.pi * f : ℝ) / (diffusivity Kd K0 Kf1 φ (gK Kd K0 Kf1 φ) κ η1 : ℝ) := by
    unfold diffusivity
    rw [gK_storage h.inner]
    generalize storage Kd K0 Kf1 φ * Kd / (Kd + biotCoef Kd K0 ^ 2 * storage Kd K0 Kf1 φ) = E at *
    have hEc : (E : ℂ) ≠ 0 := ofReal_ne_zero.mpr hE1.ne'
    rw [eq_div_iff (ofReal_ne_zero.mpr (by positivity))]
    push_cast at q1 ⊢
    linear_combination (κ / η1 : ℂ) * q1 + (I * (2 * Real.pi * f)) * (by field : (κ / η1 * (η1 / κ) : ℂ) = 1)
  have s2 : wAlpha (2 * Real.pi * f) η2 κ (storage Kd K0 Kf2 φ * Kd
      / (Kd + biotCoef Kd K0 ^ 2 * storage Kd K0 Kf2 φ)) ^ 2
      = I * (2 * Real.pi * f : ℝ) / (diffusivity Kd K0 Kf2 φ (gK Kd K0 Kf2 φ) κ η2 : ℝ) := by
    unfold diffusivity
    rw [gK_storage h.outer]
    generalize storage Kd K0 Kf2 φ * Kd / (Kd + biotCoef Kd K0 ^ 2 * storage Kd K0 Kf2 φ) = E at *
    have hEc : (E : ℂ) ≠ 0 := ofReal_ne_zero.mpr hE2.ne'
    rw [eq_div_iff (ofReal_ne_zero.mpr (by positivity))]
    push_cast at q2 ⊢
    linear_combination (κ / η2 : ℂ) * q2 + (I * (2 * Real.pi * f)) * (by field : (κ / η2 * (η2 / κ) : ℂ) = 1)
  obtain ⟨z1, z2⟩ := hp.Z_sign hω
  have r := resp_sign hp.inf_pos hp.C_nonneg hω z1.le z2
  have hhill := hp.hill
  rw [← gK_storage h.inner, ← gK_storage h.outer] at hhill
  refine ⟨_, _, _, _, _, _, _, _, _, g1, g2, by rw [e]; rfl, ?_, hhill, hab, ?_, sphere_diffusion s1, ?_,
    shell_diffusion (b := a / s ^ (1 / 3 : ℝ)) s2, ?_, ?_, ?_, ?_, ?_⟩
  · have := hp.inf_pos
    rwa [← gK_storage h.inner, ← gK_storage h.outer] at this
  · have := h.sat
    rw [hb3]; field
  · refine ⟨_, n1, ?_⟩
    generalize wAlpha (2 * Real.pi * f) η1 κ (storage Kd K0 Kf1 φ * Kd
      / (Kd + biotCoef Kd K0 ^ 2 * storage Kd K0 Kf1 φ)) = α at *
    have hx : Tendsto (fun r : ℝ => α * r) (𝓝[>] 0) (𝓝[≠] 0) := by
      rw [tendsto_nhdsWithin_iff]
      constructor
      · have : Tendsto (fun r : ℝ => α * r) (𝓝 0) (𝓝 (α * (0 : ℝ))) := by
          apply Continuous.tendsto; fun_prop
        rw [ofReal_zero, mul_zero] at this
        exact this.mono_left nhdsWithin_le_nhds
      · filter_upwards [self_mem_nhdsWithin] with t ht
        exact mul_ne_zero n1 (ofReal_ne_zero.mpr (ne_of_gt ht))
    have := (sinh_div_tendsto.comp hx).const_mul α
    rw [mul_one] at this
    refine this.congr' ?_
    filter_upwards [self_mem_nhdsWithin] with t ht
    have htc : (t : ℂ) ≠ 0 := ofReal_ne_zero.mpr (ne_of_gt ht)
    show α * (Complex.sinh (α * t) / (α * t)) = _
    field
  · refine div_ne_zero ?_ (ofReal_ne_zero.mpr hb.ne')
    unfold shellU
    rw [sub_self, mul_zero, Complex.cosh_zero, Complex.sinh_zero, mul_one, sub_zero]
    exact mul_ne_zero n2 (ofReal_ne_zero.mpr hb.ne')
  · have hbc : ((a / s ^ (1 / 3 : ℝ) : ℝ) : ℂ) ≠ 0 := ofReal_ne_zero.mpr hb.ne'
    unfold shellU shellU'
    rw [sub_self, mul_zero, Complex.cosh_zero, Complex.sinh_zero]
    rw [div_eq_zero_iff]
    left; ring
  · exact div_ne_zero d1 (pow_ne_zero 2 hac)
  · refine div_ne_zero (fun h0 => d2 ?_) (pow_ne_zero 2 hac)
    linear_combination -h0
  · have hsp : (η1 / κ : ℂ) * (Complex.sinh (wAlpha (2 * Real.pi * f) η1 κ (storage Kd K0 Kf1 φ * Kd
        / (Kd + biotCoef Kd K0 ^ 2 * storage Kd K0 Kf1 φ)) * a) / a
        / ((wAlpha (2 * Real.pi * f) η1 κ (storage Kd K0 Kf1 φ * Kd
        / (Kd + biotCoef Kd K0 ^ 2 * storage Kd K0 Kf1 φ)) * a
        * Complex.cosh (wAlpha (2 * Real.pi * f) η1 κ (storage Kd K0 Kf1 φ * Kd
        / (Kd + biotCoef Kd K0 ^ 2 * storage Kd K0 Kf1 φ)) * a)
        - Complex.sinh (wAlpha (2 * Real.pi * f) η1 κ (storage Kd K0 Kf1 φ * Kd
        / (Kd + biotCoef Kd K0 ^ 2 * storage Kd K0 Kf1 φ)) * a)) / (a : ℂ) ^ 2))
      - (η2 / κ : ℂ) * (shellU (wAlpha (2 * Real.pi * f) η2 κ (storage Kd K0 Kf2 φ * Kd
        / (Kd + biotCoef Kd K0 ^ 2 * storage Kd K0 Kf2 φ))) (a / s ^ (1 / 3 : ℝ)) a / a
        / ((a * shellU' (wAlpha (2 * Real.pi * f) η2 κ (storage Kd K0 Kf2 φ * Kd
        / (Kd + biotCoef Kd K0 ^ 2 * storage Kd K0 Kf2 φ))) (a / s ^ (1 / 3 : ℝ)) a
        - shellU (wAlpha (2 * Real.pi * f) η2 κ (storage Kd K0 Kf2 φ * Kd
        / (Kd + biotCoef Kd K0 ^ 2 * storage Kd K0 Kf2 φ))) (a / s ^ (1 / 3 : ℝ)) a) / (a : ℂ) ^ 2))
      = wZ Kd (biotCoef Kd K0) (storage Kd K0 Kf1 φ) (storage Kd K0 Kf2 φ) η1 η2 κ a s
        (2 * Real.pi * f) := by
      unfold wZ sphZ shellZ
      generalize wAlpha (2 * Real.pi * f) η1 κ (storage Kd K0 Kf1 φ * Kd
        / (Kd + biotCoef Kd K0 ^ 2 * storage Kd K0 Kf1 φ)) = α1 at *
      generalize wAlpha (2 * Real.pi * f) η2 κ (storage Kd K0 Kf2 φ * Kd
        / (Kd + biotCoef Kd K0 ^ 2 * storage Kd K0 Kf2 φ)) = α2 at *
      generalize shellU α2 (a / s ^ (1 / 3 : ℝ)) a = U at *
      generalize shellU' α2 (a / s ^ (1 / 3 : ℝ)) a = U' at *
      generalize α1 * a * Complex.cosh (α1 * a) - Complex.sinh (α1 * a) = D at *
      have d3 : a * U' - U ≠ 0 := fun h0 => d2 (by linear_combination -h0)
      have e1 : U / a / ((a * U' - U) / (a : ℂ) ^ 2) = -(a * (U / (U - a * U'))) := by
        have : a * U' - U = -(U - a * U') := by ring
        rw [this]
        generalize U - a * U' = V at *
        field
      rw [e1]
      field
    rw [hsp]
    have hc : (3 / (a / s ^ (1 / 3 : ℝ)) ^ 3 * (a ^ 2 * biotCoef Kd K0 ^ 2
            * (storage Kd K0 Kf1 φ - storage Kd K0 Kf2 φ) ^ 2 * (3 * Kd + 4 * G) * Kd)
          / (wInf (gK Kd K0 Kf1 φ) (gK Kd K0 Kf2 φ) G s
            * (3 * ((1 - s) * gK Kd K0 Kf1 φ + s * gK Kd K0 Kf2 φ) + 4 * G)
            * gK Kd K0 Kf1 φ * gK Kd K0 Kf2 φ) : ℝ)
        = wC Kd G (biotCoef Kd K0) (storage Kd K0 Kf1 φ) (storage Kd K0 Kf2 φ) a s := by
      have hD := hp.D_pos
      have hN := hp.N_pos
      have k1 : 0 < Kd + biotCoef Kd K0 ^ 2 * storage Kd K0 Kf1 φ := by
        have := hp.dry; have := hp.s1; have := hp.beta; positivity
      have k2 : 0 < Kd + biotCoef Kd K0 ^ 2 * storage Kd K0 Kf2 φ := by
        have := hp.dry; have := hp.s2; have := hp.beta; positivity
      have hs := h.sat
      unfold wC wInf
      rw [hb3, gK_storage h.inner, gK_storage h.outer]
      generalize Kd + biotCoef Kd K0 ^ 2 * storage Kd K0 Kf1 φ = K1 at *
      generalize Kd + biotCoef Kd K0 ^ 2 * storage Kd K0 Kf2 φ = K2 at *
      rw [show 3 * ((1 - s) * K1 + s * K2) + 4 * G = 3 * K1 + 4 * G - 3 * (K1 - K2) * s by ring]
      generalize K2 * (3 * K1 + 4 * G) + 4 * G * (K1 - K2) * s = N at *
      generalize 3 * K1 + 4 * G - 3 * (K1 - K2) * s = D at *
      field
    rw [hc]
    have hi := hp.inf_pos
    rw [← gK_storage h.inner, ← gK_storage h.outer] at hi r
    unfold wK
    rw [← gK_storage h.inner, ← gK_storage h.outer]
    have hic : (wInf (gK Kd K0 Kf1 φ) (gK Kd K0 Kf2 φ) G s : ℂ) ≠ 0 := ofReal_ne_zero.mpr hi.ne'
    generalize wInf (gK Kd K0 Kf1 φ) (gK Kd K0 Kf2 φ) G s = k at *
    rw [one_div_div, add_div, mul_div_cancel_left₀ _ hic]


/-! ## Where there is no number -/

/-- A complex result that is not a number. -/
def cbad : Cx Fl := ⟨bad, bad⟩

theorem cadd_bad (x : Cx Fl) : x + cbad = cbad := by
  show Cx.mk _ _ = _
  simp only [cbad, fl]
theorem cbad_add (x : Cx Fl) : cbad + x = cbad := by
  show Cx.mk _ _ = _
  simp only [cbad, fl]
theorem csub_bad (x : Cx Fl) : x - cbad = cbad := by
  show Cx.mk _ _ = _
  simp only [cbad, fl]
theorem cbad_sub (x : Cx Fl) : cbad - x = cbad := by
  show Cx.mk _ _ = _
  simp only [cbad, fl]
theorem cmul_bad (x : Cx Fl) : x * cbad = cbad := by
  show Cx.mk _ _ = _
  simp only [cbad, fl]
theorem cbad_mul (x : Cx Fl) : cbad * x = cbad := by
  show Cx.mk _ _ = _
  simp only [cbad, fl]
theorem cdiv_bad (x : Cx Fl) : x / cbad = cbad := by
  show Cx.mk _ _ = _
  simp only [cbad, fl]
theorem mul_cases (x y : Cx Fl) : x * y = cbad ∨ ∃ z w : ℂ, x = cx z ∧ y = cx w := by
  rcases x with ⟨x1, x2⟩
  rcases y with ⟨y1, y2⟩
  rcases x1 with x1 | _ <;> rcases x2 with x2 | _ <;> rcases y1 with y1 | _ <;> rcases y2 with y2 | _
  · exact Or.inr ⟨⟨x1, x2⟩, ⟨y1, y2⟩, rfl, rfl⟩
  all_goals
    left
    show Cx.mk _ _ = _
    simp only [cbad, fl]

/-- Dividing by a product with zero gives no number. -/
theorem div_zero_mul (n x y : Cx Fl) (hx : x = cbad ∨ x = cx 0) : n / (x * y) = cbad := by
  rcases hx with rfl | rfl
  · rw [cbad_mul, cdiv_bad]
  · rcases mul_cases (cx 0) y with h | ⟨z, w, -, rfl⟩
    · rw [h, cdiv_bad]
    · rw [cx_mul, zero_mul, cx_div_zero]; rfl

theorem White_wave_bad (G ρ ω : Fl) : White_wave G ρ ω cbad = (bad, bad) := by
  unfold White_wave
  dsimp only
  rw [cbad_add]
  have h1 : PyNum.arctan (cbad.im / cbad.re) = bad := rfl
  have h2 : cbad.abs = bad := rfl
  have h3 : PyNum.sqrt bad = bad := rfl
  have h4 : PyNum.cos bad = bad := rfl
  have h5 : PyNum.tan bad = bad := rfl
  rw [h1, h2]
  simp only [fl, h3, h4, h5]

theorem modulus_bad (k n d : Cx Fl) (h : n / d = cbad) :
    k / (Cx.ofR 1 - k * (n / d)) = cbad := by
  rw [h, cmul_bad, csub_bad, cdiv_bad]

theorem shell_bad (η κ a : Fl) (α : Cx Fl) : White_Z2 η κ a a α = cbad := by
  unfold White_Z2
  rcases mul_cases α (Cx.ofR a) with h | ⟨z, w, rfl, hw⟩
  · rw [h]
    simp only [cbad_add, cbad_sub, cbad_mul, cdiv_bad]
  · rcases a with a | _
    · have e : (fin a - fin a : Fl) = fin 0 := by rw [fl_sub, sub_self]
      rw [e, fl_one, fl_nat, cx_ofR, cx_ofR, cx_ofR, cx_ofR]
      simp only [cx_mul, cx_exp, cx_add, cx_sub]
      rw [ofReal_zero, mul_zero, Complex.exp_zero, mul_one, ofReal_one]
      have : (z * a + 1) * (z * a - 1) - (z * a - 1) * (z * a + 1) * 1 = 0 := by ring
      rw [this, cx_div_zero]
      rfl
    · have := congrArg Cx.re hw
      exact absurd this.symm fin_ne_bad

theorem shell_bad' (η κ a : Fl) (α : Cx Fl) : White_Z2 η κ a bad α = cbad := by
  unfold White_Z2
  have h : α * Cx.ofR bad = cbad := by
    show Cx.mk _ _ = _
    simp only [cbad, fl, Cx.ofR]
  rw [h]
  simp only [cbad_add, cbad_sub, cbad_mul, cdiv_bad]

/-- Frequency zero and the single-fluid saturations zero and one give no number, whatever the other
arguments are; the single-fluid rock is not a special case of the function. -/
theorem C77_no_number (Kd G K0 φ ρ0 ρ1 ρ2 Kf1 Kf2 η1 η2 κ a s f : Fl) :
    White_Dutta_Ode Kd G K0 φ ρ0 ρ1 ρ2 Kf1 Kf2 η1 η2 κ a s 0 = (bad, bad, ⟨bad, bad⟩) ∧
    White_Dutta_Ode Kd G K0 φ ρ0 ρ1 ρ2 Kf1 Kf2 η1 η2 κ a 0 f = (bad, bad, ⟨bad, bad⟩) ∧
    White_Dutta_Ode Kd G K0 φ ρ0 ρ1 ρ2 Kf1 Kf2 η1 η2 κ a 1 f = (bad, bad, ⟨bad, bad⟩) := by
  refine ⟨?_, ?_, ?_⟩
  · unfold White_Dutta_Ode
    dsimp only
    have hx : ∀ b : Fl, Cx.ofR b * Cx.I * Cx.ofR (2 * pi * 0) = cbad
        ∨ Cx.ofR b * Cx.I * Cx.ofR (2 * pi * 0) = cx 0 := fun b => by
      have h0 : (2 * pi * 0 : Fl) = fin 0 := by
        rw [fl_nat, fl_pi, fl_zero, fl_mul, fl_mul, mul_zero]
      rw [h0, cx_ofR]
      rcases mul_cases (Cx.ofR b * Cx.I) (cx ((0 : ℝ) : ℂ)) with h | ⟨z, w, hz, hw⟩
      · exact Or.inl h
      · right
        rw [hz, cx_mul, ofReal_zero, mul_zero]
    rw [modulus_bad _ _ _ (div_zero_mul _ _ _ (hx _)), White_wave_bad]
    rfl
  · have hb : a / (0 : Fl) **. (1 / 3) = bad := by
      have e : (1 / 3 : Fl) = fin (1 / 3) := by rw [fl_one, fl_nat, fl_div (by norm_num)]
      rw [e, fl_zero, fl_rpow_zero (by norm_num), Real.zero_rpow (by norm_num), fl_div_zero]
    unfold White_Dutta_Ode
    dsimp only
    rw [hb, shell_bad']
    simp only [cadd_bad, cmul_bad, cdiv_bad, csub_bad, White_wave_bad]
    rfl
  · have hb : a / (1 : Fl) **. (1 / 3) = a := by
      rw [fl_one, fl_nat, fl_div (by norm_num), fl_rpow one_pos, Real.one_rpow]
      rcases a with a | _
      · rw [fl_div one_ne_zero, div_one]
      · rfl
    unfold White_Dutta_Ode
    dsimp only
    rw [hb, shell_bad]
    simp only [cadd_bad, cmul_bad, cdiv_bad, csub_bad, White_wave_bad]
    rfl

/-- A sandstone with gas pockets in water. -/
example : PatchRock 7 9 35 0.15 2.65 0.1 1 0.1 2.25 0.00001 0.001 0.0000001 0.1 0.1 := by
  refine ⟨⟨?_, ?_, ?_, ?_, ?_⟩, ⟨?_, ?_, ?_, ?_, ?_⟩, ?_, ?_, ?_, ?_, ?_, ?_, ?_, ?_, ?_⟩ <;> norm_num

end RockPhy.Props
