import Mathlib.Analysis.Calculus.MeanValue
import Verif.Spec.Cell
import Verif.Props.White

/-! # C104: patchy saturation and the pressure diffusion in a spherical cell -/

namespace RockPhy.Props

open Fl Fluid Spec Complex Filter Topology Set

/-! ## Any motion of the cell -/

theorem eq_ends {f : ℝ → ℂ} {x y : ℝ} (hxy : x < y) (hc : ContinuousOn f (Icc x y))
    (hd : ∀ r ∈ Ioo x y, HasDerivAt f 0 r) : f x = f y := by
  have key : ∀ L : ℂ →L[ℝ] ℝ, L (f x) = L (f y) := by
    intro L
    obtain ⟨c, -, hcs⟩ := exists_hasDerivAt_eq_slope (fun r => L (f r)) (fun _ => 0) hxy
      (L.continuous.comp_continuousOn hc) (fun r hr => by
        have := L.hasFDerivAt.comp_hasDerivAt r (hd r hr)
        rw [map_zero] at this
        exact this)
    have : (y - x) ≠ 0 := (sub_pos.mpr hxy).ne'
    field_simp at hcs
    linarith
  exact Complex.ext (key Complex.reCLM) (key Complex.imCLM)

theorem hasDerivAt_real (r : ℝ) : HasDerivAt (fun x : ℝ => (x : ℂ)) 1 r := by
  simpa using (hasDerivAt_id (r : ℂ)).comp_ofReal

section region

variable {Kd G β S κ η ω lo hi : ℝ} {u w p σ : ℝ → ℂ}

/-- Sum of radial stress and `4 G u / r`, the same everywhere in a region. -/
theorem region_C (h : PoroRegion Kd G β S κ η ω lo hi u w p σ) {r : ℝ}
    (hr0 : 0 < r) (hr : lo ≤ r) (hr' : r < hi) :
    σ r + 4 * G * (u r / r) = σ hi + 4 * G * (u hi / hi) := by
  have hsub : Icc r hi ⊆ Icc lo hi := Icc_subset_Icc_left hr
  refine eq_ends (f := fun r => σ r + 4 * G * (u r / r)) hr' ?_ fun t ht => ?_
  · refine (h.stress.mono hsub).add (continuousOn_const.mul
      ((h.displacement.mono hsub).div Complex.continuous_ofReal.continuousOn fun t ht => ?_))
    exact ofReal_ne_zero.mpr (hr0.trans_le ht.1).ne'
  · have t0 : (t : ℂ) ≠ 0 := ofReal_ne_zero.mpr (hr0.trans ht.1).ne'
    obtain ⟨u', w', p', σ', e, ζ, τ, du, dw, dp, dσ, -, -, e1, e2, e3, -, -⟩ :=
      h.equations t ⟨hr.trans_lt ht.1, ht.2⟩
    refine (dσ.add ((du.div (hasDerivAt_real t) t0).const_mul (4 * G : ℂ))).congr_deriv ?_
    have : σ' = -(2 / t * (σ t - τ)) := by linear_combination e3
    rw [this, e1, e2]
    field

/-- Frame dilatation and fluid content in terms of the pressure, and Darcy's law. -/
theorem region_pointwise (h : PoroRegion Kd G β S κ η ω lo hi u w p σ) (hlo : 0 ≤ lo)
    (hH : 0 < Kd + 4 / 3 * G) (hS : 0 < S) (hκ : 0 < κ) (hη : 0 < η) {H N : ℝ}
    (eH : H = Kd + 4 / 3 * G) (eN : N = S * H / (H + β ^ 2 * S)) {C : ℂ}
    (hC : C = σ hi + 4 * G * (u hi / hi)) {r : ℝ} (hr : r ∈ Ioo lo hi) :
    ∃ u' w' p' : ℂ, HasDerivAt u u' r ∧ HasDerivAt w w' r ∧ HasDerivAt p p' r ∧
      u' + 2 * u r / r = (β * p r + C) / H ∧
      w' + 2 * w r / r = -((p r + N * β * C / H) / N) ∧
      p' = -(I * ω * (η / κ) * w r) := by
  obtain ⟨u', w', p', σ', e, ζ, τ, du, dw, dp, dσ, e0, ez, e1, e2, e3, e4, e5⟩ := h.equations r hr
  have r0 : 0 < r := hlo.trans_lt hr.1
  have hC' := region_C h r0 hr.1.le hr.2
  rw [← hC] at hC'
  have rc : (r : ℂ) ≠ 0 := ofReal_ne_zero.mpr r0.ne'
  have hHp : 0 < H := eH ▸ hH
  have hHc : (H : ℂ) ≠ 0 := ofReal_ne_zero.mpr hHp.ne'
  have eHc : (H : ℂ) = Kd + 4 / 3 * G := by rw [eH]; push_cast; ring
  have hd : 0 < H + β ^ 2 * S := by positivity
  have hdc : (H : ℂ) + β ^ 2 * S ≠ 0 := by exact_mod_cast hd.ne'
  have hdc' : (H : ℂ) + S * β ^ 2 ≠ 0 := by rwa [mul_comm (S : ℂ)]
  have hSc : (S : ℂ) ≠ 0 := ofReal_ne_zero.mpr hS.ne'
  have hκc : (κ : ℂ) ≠ 0 := ofReal_ne_zero.mpr hκ.ne'
  have hηc : (η : ℂ) ≠ 0 := ofReal_ne_zero.mpr hη.ne'
  have eNc : (N : ℂ) = S * H / (H + β ^ 2 * S) := by rw [eN]; push_cast; ring
  have he : H * e = β * p r + C := by
    rw [← hC', e1, eHc]
    rw [e0]
    field
  refine ⟨u', w', p', du, dw, dp, ?_, ?_, ?_⟩
  · rw [← e0, eq_div_iff hHc, mul_comm]
    exact he
  · have hz : w' + 2 * w r / r = -ζ := by rw [ez]; ring
    rw [hz]
    congr 1
    have he' : e = (β * p r + C) / H := by rw [eq_div_iff hHc, mul_comm]; exact he
    rw [he'] at e4
    have hζ : ζ = p r / S + β * ((β * p r + C) / H) := by
      have : p r / S = ζ - β * ((β * p r + C) / H) := by
        rw [div_eq_iff hSc, mul_comm]; exact e4
      rw [this]; ring
    rw [hζ, eNc]
    generalize p r = P
    field
  · have : p' = -(η / κ * (I * ω * w r)) := by rw [e5]; field
    rw [this]; ring

/-- The frame displacement in terms of the flow. -/
theorem region_volume (h : PoroRegion Kd G β S κ η ω lo hi u w p σ) (hlo : 0 ≤ lo) (hlt : lo < hi)
    (hH : 0 < Kd + 4 / 3 * G) (hS : 0 < S) (hκ : 0 < κ) (hη : 0 < η) {H N : ℝ}
    (eH : H = Kd + 4 / 3 * G) (eN : N = S * H / (H + β ^ 2 * S)) {C : ℂ}
    (hC : C = σ hi + 4 * G * (u hi / hi)) :
    (hi : ℂ) ^ 2 * (u hi + β * N / H * w hi) - lo ^ 2 * (u lo + β * N / H * w lo)
      = C * (hi ^ 3 - lo ^ 3) / (3 * (H + β ^ 2 * S)) := by
  have hHp : 0 < H := eH ▸ hH
  have hHc : (H : ℂ) ≠ 0 := ofReal_ne_zero.mpr hHp.ne'
  have hd : 0 < H + β ^ 2 * S := by positivity
  have hdc : (H : ℂ) + β ^ 2 * S ≠ 0 := by exact_mod_cast hd.ne'
  have hdc' : (H : ℂ) + S * β ^ 2 ≠ 0 := by rwa [mul_comm (S : ℂ)]
  have hSc : (S : ℂ) ≠ 0 := ofReal_ne_zero.mpr hS.ne'
  have eNc : (N : ℂ) = S * H / (H + β ^ 2 * S) := by rw [eN]; push_cast; ring
  have key := eq_ends (f := fun r : ℝ => (r : ℂ) ^ 2 * (u r + β * N / H * w r)
    - C * r ^ 3 / (3 * (H + β ^ 2 * S))) hlt ?_ fun r hr => ?_
  · linear_combination -key
  · have hc := Complex.continuous_ofReal.continuousOn (s := Icc lo hi)
    exact ((hc.pow 2).mul (h.displacement.add (continuousOn_const.mul h.flow))).sub
      ((continuousOn_const.mul (hc.pow 3)).div_const _)
  · obtain ⟨u', w', p', du, dw, dp, e1, e2, e3⟩ := region_pointwise h hlo hH hS hκ hη eH eN hC hr
    have r0 : 0 < r := hlo.trans_lt hr.1
    have rc : (r : ℂ) ≠ 0 := ofReal_ne_zero.mpr r0.ne'
    have dr := hasDerivAt_real r
    refine (((dr.pow 2).mul (du.add (dw.const_mul (β * N / H : ℂ)))).sub
      (((dr.pow 3).const_mul C).div_const (3 * (H + β ^ 2 * S) : ℂ))).congr_deriv ?_
    have e1' : u' = (β * p r + C) / H - 2 * u r / r := by rw [← e1]; ring
    have e2' : w' = -((p r + N * β * C / H) / N) - 2 * w r / r := by rw [← e2]; ring
    simp only [Pi.add_apply, Pi.pow_apply]
    rw [e1', e2', eNc]
    push_cast
    field

/-- The diffusing part of the pressure: Wronskian with a solution `U` of `U'' = k² U`. -/
theorem region_wronskian (h : PoroRegion Kd G β S κ η ω lo hi u w p σ) (hlo : 0 ≤ lo) (hlt : lo < hi)
    (hH : 0 < Kd + 4 / 3 * G) (hS : 0 < S) (hκ : 0 < κ) (hη : 0 < η) {H N : ℝ}
    (eH : H = Kd + 4 / 3 * G) (eN : N = S * H / (H + β ^ 2 * S)) {C : ℂ}
    (hC : C = σ hi + 4 * G * (u hi / hi)) {k : ℂ} (hk : k ^ 2 * N = I * ω * (η / κ))
    {U U' : ℝ → ℂ} (hU : ∀ r, HasDerivAt U (U' r) r) (hU' : ∀ r, HasDerivAt U' (k ^ 2 * U r) r)
    {q : ℝ → ℂ} (hq : ∀ r, q r = p r + N * β * C / H) :
    (lo * q lo) * U' lo - (q lo - I * ω * (η / κ) * lo * w lo) * U lo
      = (hi * q hi) * U' hi - (q hi - I * ω * (η / κ) * hi * w hi) * U hi := by
  have hHp : 0 < H := eH ▸ hH
  have hd : 0 < H + β ^ 2 * S := by positivity
  have hN : 0 < N := by rw [eN]; positivity
  have hNc : (N : ℂ) ≠ 0 := ofReal_ne_zero.mpr hN.ne'
  have hq' : q = fun r => p r + N * β * C / H := funext hq
  have cq : ContinuousOn q (Icc lo hi) := by
    rw [hq']
    exact h.pressure.add continuousOn_const
  refine eq_ends (f := fun r : ℝ => (r * q r) * U' r
    - (q r - I * ω * (η / κ) * r * w r) * U r) hlt ?_ fun r hr => ?_
  · have hc := Complex.continuous_ofReal.continuousOn (s := Icc lo hi)
    have cU : ContinuousOn U (Icc lo hi) := fun r _ => (hU r).continuousAt.continuousWithinAt
    have cU' : ContinuousOn U' (Icc lo hi) := fun r _ => (hU' r).continuousAt.continuousWithinAt
    exact ((hc.mul cq).mul cU').sub ((cq.sub ((continuousOn_const.mul hc).mul h.flow)).mul cU)
  · obtain ⟨u', w', p', du, dw, dp, e1, e2, e3⟩ := region_pointwise h hlo hH hS hκ hη eH eN hC hr
    have r0 : 0 < r := hlo.trans_lt hr.1
    have rc : (r : ℂ) ≠ 0 := ofReal_ne_zero.mpr r0.ne'
    have dr := hasDerivAt_real r
    have dq : HasDerivAt q p' r := by
      rw [hq']
      simpa using dp.add_const (N * β * C / H : ℂ)
    refine (((dr.mul dq).mul (hU' r)).sub
      ((dq.sub ((dr.const_mul (I * ω * (η / κ) : ℂ)).mul dw)).mul (hU r))).congr_deriv ?_
    rw [← hq] at e2
    have e2' : w' = -(q r / N) - 2 * w r / r := by rw [← e2]; ring
    have hr2 : (r : ℂ) * (2 * w r / r) = 2 * w r := by field
    have hq2 : k ^ 2 * q r = I * ω * (η / κ) * (q r / N) := by rw [← hk]; field
    simp only [Pi.mul_apply, Pi.sub_apply]
    rw [e2', e3]
    linear_combination (-(U r) * I * ω * (η / κ)) * hr2 + r * U r * hq2

end region

variable {Kd G β S1 S2 η1 η2 κ a s ω : ℝ} {u1 w1 p1 σ1 u2 w2 p2 σ2 : ℝ → ℂ}

/-- With the P-wave modulus of the frame in place of its bulk modulus the constants are again those
of a patchy rock. -/
theorem Patch.stiff (h : Patch Kd G β S1 S2 η1 η2 κ a s) :
    Patch (Kd + 4 / 3 * G) 0 β S1 S2 η1 η2 κ a s :=
  ⟨by have := h.dry; have := h.shear; positivity, le_rfl, h.beta, h.s1, h.s2, h.visc1, h.visc2,
    h.perm, h.radius, h.sat, h.sat_lt⟩

theorem sinh_deriv (k : ℂ) (r : ℝ) :
    HasDerivAt (fun x : ℝ => Complex.sinh (k * x)) (k * Complex.cosh (k * r)) r := by
  have hl : HasDerivAt (fun z : ℂ => k * z) k (r : ℂ) := by
    simpa using (hasDerivAt_id (r : ℂ)).const_mul k
  simpa [mul_comm] using hl.csinh.comp_ofReal

theorem cosh_deriv (k : ℂ) (r : ℝ) :
    HasDerivAt (fun x : ℝ => k * Complex.cosh (k * x)) (k ^ 2 * Complex.sinh (k * r)) r := by
  have hl : HasDerivAt (fun z : ℂ => k * z) k (r : ℂ) := by
    simpa using (hasDerivAt_id (r : ℂ)).const_mul k
  refine (hl.ccosh.const_mul k).comp_ofReal.congr_deriv ?_
  ring

/-- The sum of the impedances of sphere and shell when the rock is confined laterally. -/
theorem Patch.Z_ne (h : Patch Kd G β S1 S2 η1 η2 κ a s) (hω : 0 < ω) :
    wZ Kd β S1 S2 η1 η2 κ a s ω ≠ 0 := by
  intro h0
  have := (h.Z_sign hω).1
  rw [h0] at this
  simp at this

/-- Compliance of the confined cell. -/
theorem Patch.stiff_eq (h : Patch Kd 0 β S1 S2 η1 η2 κ a s) (hω : 0 < ω) :
    wK Kd 0 β S1 S2 η1 η2 κ a s ω * (s / (Kd + β ^ 2 * S1) + (1 - s) / (Kd + β ^ 2 * S2)
      + 3 * s / a * (β * (S2 * Kd / (Kd + β ^ 2 * S2) - S1 * Kd / (Kd + β ^ 2 * S1)) / Kd) ^ 2
        / (I * ω * wZ Kd β S1 S2 η1 η2 κ a s ω)) = 1 := by
  have hZ := h.Z_ne hω
  obtain ⟨z1, z2⟩ := h.Z_sign hω
  have hd := (resp_sign h.inf_pos h.C_nonneg hω z1.le z2).1
  have hD := h.D_pos
  have k1 : 0 < Kd + β ^ 2 * S1 := by have := h.dry; have := h.s1; positivity
  have k2 : 0 < Kd + β ^ 2 * S2 := by have := h.dry; have := h.s2; positivity
  have hω' : (ω : ℂ) ≠ 0 := ofReal_ne_zero.mpr hω.ne'
  have hI := h.inf_pos
  have e1 : s / (Kd + β ^ 2 * S1) + (1 - s) / (Kd + β ^ 2 * S2)
      = 1 / wInf (Kd + β ^ 2 * S1) (Kd + β ^ 2 * S2) 0 s := by
    unfold wInf
    have : 3 * (Kd + β ^ 2 * S1) - 3 * (Kd + β ^ 2 * S1 - (Kd + β ^ 2 * S2)) * s ≠ 0 := by
      simpa using hD.ne'
    generalize Kd + β ^ 2 * S1 = K1 at *
    generalize Kd + β ^ 2 * S2 = K2 at *
    simp only [mul_zero, add_zero, zero_mul]
    field
  have e2 : 3 * s / a * (β * (S2 * Kd / (Kd + β ^ 2 * S2) - S1 * Kd / (Kd + β ^ 2 * S1)) / Kd) ^ 2
      = wC Kd 0 β S1 S2 a s := by
    unfold wC
    have := h.dry; have := h.radius
    simp only [mul_zero, add_zero, zero_mul]
    field
  have e1c : (s / (Kd + β ^ 2 * S1) + (1 - s) / (Kd + β ^ 2 * S2) : ℂ)
      = 1 / wInf (Kd + β ^ 2 * S1) (Kd + β ^ 2 * S2) 0 s := by exact_mod_cast congrArg ofReal e1
  have e2c : (3 * s / a * (β * (S2 * Kd / (Kd + β ^ 2 * S2) - S1 * Kd / (Kd + β ^ 2 * S1)) / Kd) ^ 2 : ℂ)
      = wC Kd 0 β S1 S2 a s := by exact_mod_cast congrArg ofReal e2
  rw [e1c, e2c]
  unfold wK
  generalize wInf (Kd + β ^ 2 * S1) (Kd + β ^ 2 * S2) 0 s = k at *
  generalize wZ Kd β S1 S2 η1 η2 κ a s ω = Z at *
  have hk : (k : ℂ) ≠ 0 := ofReal_ne_zero.mpr hI.ne'
  rw [div_mul_eq_mul_div, div_eq_one_iff_eq hd]
  field

/-- Stress over change of volume, for any motion of the cell. -/
theorem cell_modulus (hp : Patch Kd G β S1 S2 η1 η2 κ a s) (hω : 0 < ω)
    (h : PoroCell Kd G β S1 S2 η1 η2 κ a (a / s ^ (1 / 3 : ℝ)) ω u1 w1 p1 σ1 u2 w2 p2 σ2) :
    σ2 (a / s ^ (1 / 3 : ℝ)) = (wK (Kd + 4 / 3 * G) 0 β S1 S2 η1 η2 κ a s ω - 4 / 3 * G)
      * (3 * u2 (a / s ^ (1 / 3 : ℝ)) / (a / s ^ (1 / 3 : ℝ) : ℝ)) := by
  have hst := hp.stiff
  have hkey := hst.stiff_eq hω
  have hZne := hst.Z_ne hω
  have hab := outer_gt hp.radius hp.sat hp.sat_lt
  have hb3 := outer_cube (a := a) hp.sat
  have hH := hst.dry
  have ha := hp.radius
  unfold wZ at hkey hZne
  set b := a / s ^ (1 / 3 : ℝ) with hbdef
  have hb : 0 < b := ha.trans hab
  set H := Kd + 4 / 3 * G with eH
  set N1 := S1 * H / (H + β ^ 2 * S1) with eN1
  set N2 := S2 * H / (H + β ^ 2 * S2) with eN2
  have hN1 := hst.E1_pos
  have hN2 := hst.E2_pos
  rw [← eN1] at hN1
  rw [← eN2] at hN2
  set k1 := wAlpha ω η1 κ N1 with hk1
  set k2 := wAlpha ω η2 κ N2 with hk2
  have q1 := wAlpha_sq hω.le hp.visc1 hp.perm hN1
  have q2 := wAlpha_sq hω.le hp.visc2 hp.perm hN2
  rw [← hk1] at q1
  rw [← hk2] at q2
  obtain ⟨d1, -⟩ := sph_quad (σ := √(ω * η1 / (2 * κ * N1))) (a := a)
    (Real.sqrt_pos.mpr (by have := hp.visc1; have := hp.perm; positivity)) ha k1 rfl
  obtain ⟨d2, -⟩ := shell_quad (σ := √(ω * η2 / (2 * κ * N2))) (a := a) (b := b)
    (Real.sqrt_pos.mpr (by have := hp.visc2; have := hp.perm; positivity)) ha hab k2 rfl
  -- the constant of the stress
  obtain ⟨C, hC⟩ : ∃ C, C = σ2 b + 4 * G * (u2 b / b) := ⟨_, rfl⟩
  have hC1 : C = σ1 a + 4 * G * (u1 a / a) := by
    rw [hC, h.stress, h.displacement]
    exact (region_C h.outer ha le_rfl hab).symm
  have v1 := region_volume h.inner le_rfl ha hH hp.s1 hp.perm hp.visc1 eH eN1 hC1
  have v2 := region_volume h.outer ha.le hab hH hp.s2 hp.perm hp.visc2 eH eN2 hC
  have x1 := region_wronskian h.inner le_rfl ha hH hp.s1 hp.perm hp.visc1 eH eN1 hC1 q1
    (sinh_deriv k1) (cosh_deriv k1) (q := fun r => p1 r + N1 * β * C / H) fun _ => rfl
  have x2 := region_wronskian h.outer ha.le hab hH hp.s2 hp.perm hp.visc2 eH eN2 hC q2
    (shellU_deriv k2 b) (shellU'_deriv k2 b) (q := fun r => p2 r + N2 * β * C / H) fun _ => rfl
  have eb : shellU k2 b b = k2 * b := by simp [shellU]
  have eb' : shellU' k2 b b = k2 := by simp [shellU']
  rw [eb, eb', h.closed] at x2
  rw [h.closed, ← h.flow, ← h.displacement] at v2
  rw [← h.flow, ← h.pressure] at x2
  simp only [ofReal_zero, zero_mul, mul_zero, Complex.sinh_zero, sub_zero] at x1 v1
  have hHc : (H : ℂ) ≠ 0 := ofReal_ne_zero.mpr hH.ne'
  have hac : (a : ℂ) ≠ 0 := ofReal_ne_zero.mpr ha.ne'
  have hbc : (b : ℂ) ≠ 0 := ofReal_ne_zero.mpr hb.ne'
  have hsc : (s : ℂ) ≠ 0 := ofReal_ne_zero.mpr hp.sat.ne'
  have hκc : (κ : ℂ) ≠ 0 := ofReal_ne_zero.mpr hp.perm.ne'
  have hωc : (ω : ℂ) ≠ 0 := ofReal_ne_zero.mpr hω.ne'
  have b3 : (b : ℂ) ^ 3 = a ^ 3 / s := by exact_mod_cast congrArg ofReal hb3
  have a3 : (a : ℂ) ^ 3 = s * b ^ 3 := by rw [b3]; field
  have z1 : p1 a + N1 * β * C / H = -(I * ω * w1 a * sphZ η1 κ a k1) := by
    unfold sphZ
    rw [← mul_right_inj' d1]
    trans -(I * ω * w1 a * (η1 * a / κ * sinh (k1 * a)))
    · linear_combination -x1
    · generalize k1 * a * Complex.cosh (k1 * a) - sinh (k1 * a) = D at d1 ⊢
      field
  have z2 : p1 a + N2 * β * C / H = I * ω * w1 a * shellZ η2 κ a b k2 := by
    unfold shellZ
    rw [← mul_right_inj' d2]
    trans I * ω * w1 a * (η2 * a / κ * shellU k2 b a)
    · linear_combination -x2
    · field
  have hw : I * ω * w1 a * (sphZ η1 κ a k1 + shellZ η2 κ a b k2) = β * (N2 - N1) / H * C := by
    linear_combination z1 - z2
  have eN1c : (S1 * H / (H + β ^ 2 * S1) : ℂ) = N1 := by rw [eN1]; push_cast; ring
  have eN2c : (S2 * H / (H + β ^ 2 * S2) : ℂ) = N2 := by rw [eN2]; push_cast; ring
  have g1 : (H + β ^ 2 * S1 : ℂ) ≠ 0 := by
    have : 0 < H + β ^ 2 * S1 := by have := hp.s1; positivity
    exact_mod_cast this.ne'
  have g2 : (H + β ^ 2 * S2 : ℂ) ≠ 0 := by
    have : 0 < H + β ^ 2 * S2 := by have := hp.s2; positivity
    exact_mod_cast this.ne'
  rw [eN1c, eN2c] at hkey
  clear_value N1 N2 k1 k2 H
  generalize (H + β ^ 2 * S1 : ℂ) = H1 at *
  generalize (H + β ^ 2 * S2 : ℂ) = H2 at *
  generalize sphZ η1 κ a k1 + shellZ η2 κ a b k2 = Z at *
  generalize wK H 0 β S1 S2 η1 η2 κ a s ω = M at *
  have hw' : w1 a = β * (N2 - N1) / H * C / (I * ω * Z) := by
    rw [eq_div_iff (by simp [hωc, hZne])]
    linear_combination hw
  -- change of volume over stress
  have hv : 3 * u2 b / b = C * (s / H1 + (1 - s) / H2
      + 3 * s / a * (β * (N2 - N1) / H) ^ 2 / (I * ω * Z)) := by
    have hu : (b : ℂ) ^ 2 * u2 b = C * a ^ 3 / (3 * H1) + C * (b ^ 3 - a ^ 3) / (3 * H2)
        + a ^ 2 * (β * (N2 - N1) / H) * w1 a := by
      linear_combination v1 + v2
    have h3 : 3 * u2 b / b = 3 * (b ^ 2 * u2 b) / b ^ 3 := by field
    have h4 : (a : ℂ) ^ 2 = s * b ^ 3 / a := by rw [← a3]; field
    rw [h3, hu, hw', a3, h4]
    field
  have hM : C = M * (3 * u2 b / b) := by
    rw [hv]
    linear_combination -C * hkey
  have : σ2 b = C - 4 * G * (u2 b / b) := by rw [hC]; ring
  rw [this, hM]
  ring

/-! ## A motion of the cell -/

/-- Fields of a region from a solution `U` of `U'' = k² U`. -/
theorem region_make {Kd G β S κ η ω lo hi : ℝ} {u w p σ U U' : ℝ → ℂ} (hlo : 0 ≤ lo)
    (hH : 0 < Kd + 4 / 3 * G) (hS : 0 < S) (hκ : 0 < κ) (hη : 0 < η) (hω : 0 < ω) {H N : ℝ}
    (eH : H = Kd + 4 / 3 * G) (eN : N = S * H / (H + β ^ 2 * S))
    {k : ℂ} (hk : k ^ 2 * N = I * ω * (η / κ))
    (hU : ∀ r, HasDerivAt U (U' r) r) (hU' : ∀ r, HasDerivAt U' (k ^ 2 * U r) r) {C E : ℂ}
    (cu : ContinuousOn u (Icc lo hi)) (cw : ContinuousOn w (Icc lo hi))
    (cp : ContinuousOn p (Icc lo hi)) (cσ : ContinuousOn σ (Icc lo hi))
    (fp : ∀ r ∈ Ioo lo hi, p r = U r / r - N * β * C / H)
    (fw : ∀ r ∈ Ioo lo hi, w r = (U r - r * U' r) / (r ^ 2 * (I * ω * (η / κ))))
    (fu : ∀ r ∈ Ioo lo hi, u r = C * r / (3 * (H + β ^ 2 * S)) + E / r ^ 2 - β * N / H * w r)
    (fσ : ∀ r ∈ Ioo lo hi, σ r = C - 4 * G * (u r / r)) :
    PoroRegion Kd G β S κ η ω lo hi u w p σ := by
  refine ⟨cu, cw, cp, cσ, fun r hr => ?_⟩
  have hn : Ioo lo hi ∈ 𝓝 r := Ioo_mem_nhds hr.1 hr.2
  have r0 : 0 < r := hlo.trans_lt hr.1
  have rc : (r : ℂ) ≠ 0 := ofReal_ne_zero.mpr r0.ne'
  have hHp : 0 < H := eH ▸ hH
  have hHc : (H : ℂ) ≠ 0 := ofReal_ne_zero.mpr hHp.ne'
  have eHc : (H : ℂ) = Kd + 4 / 3 * G := by rw [eH]; push_cast; ring
  have hd : 0 < H + β ^ 2 * S := by positivity
  have hdc : (H : ℂ) + β ^ 2 * S ≠ 0 := by exact_mod_cast hd.ne'
  have hdc' : (H : ℂ) + S * β ^ 2 ≠ 0 := by rwa [mul_comm (S : ℂ)]
  have hSc : (S : ℂ) ≠ 0 := ofReal_ne_zero.mpr hS.ne'
  have hκc : (κ : ℂ) ≠ 0 := ofReal_ne_zero.mpr hκ.ne'
  have hηc : (η : ℂ) ≠ 0 := ofReal_ne_zero.mpr hη.ne'
  have hωc : (ω : ℂ) ≠ 0 := ofReal_ne_zero.mpr hω.ne'
  have hN : 0 < N := by rw [eN]; positivity
  have hNc : (N : ℂ) ≠ 0 := ofReal_ne_zero.mpr hN.ne'
  have eNc : (N : ℂ) = S * H / (H + β ^ 2 * S) := by rw [eN]; push_cast; ring
  have hcc : I * ω * (η / κ) ≠ 0 := by simp [hωc, hηc, hκc]
  have hkc : k ^ 2 = I * ω * (η / κ) / N := by rw [← hk]; field
  have dr := hasDerivAt_real r
  -- derivatives
  have dp : HasDerivAt p (-(I * ω * (η / κ) * w r)) r := by
    have := ((hU r).div dr rc).sub_const (N * β * C / H : ℂ)
    refine (this.congr_of_eventuallyEq (eventuallyEq_of_mem hn fp)).congr_deriv ?_
    rw [fw r hr]
    field
  have dw : HasDerivAt w (-(U r / r / N) - 2 * w r / r) r := by
    have hden : ((r : ℂ) ^ 2 * (I * ω * (η / κ))) ≠ 0 := mul_ne_zero (pow_ne_zero 2 rc) hcc
    have := ((hU r).sub (dr.mul (hU' r))).div ((dr.pow 2).mul_const (I * ω * (η / κ))) hden
    refine (this.congr_of_eventuallyEq (eventuallyEq_of_mem hn fw)).congr_deriv ?_
    simp only [Pi.sub_apply, Pi.mul_apply, Pi.pow_apply]
    rw [fw r hr, hkc]
    generalize I * ω * (η / κ) = c at *
    push_cast
    field
  have du : HasDerivAt u (C / (3 * (H + β ^ 2 * S)) - 2 * E / r ^ 3
      - β * N / H * (-(U r / r / N) - 2 * w r / r)) r := by
    have := (((dr.const_mul C).div_const (3 * (H + β ^ 2 * S) : ℂ)).add
      ((hasDerivAt_const r E).div (dr.pow 2) (pow_ne_zero 2 rc))).sub (dw.const_mul (β * N / H : ℂ))
    refine (this.congr_of_eventuallyEq (eventuallyEq_of_mem hn fu)).congr_deriv ?_
    simp only [Pi.pow_apply]
    push_cast
    field
  generalize hu' : C / (3 * (H + β ^ 2 * S)) - 2 * E / r ^ 3
      - β * N / H * (-(U r / r / N) - 2 * w r / r) = u' at du
  have dσ : HasDerivAt σ (-(4 * G * ((u' - u r / r) / r))) r := by
    have := (((du.div dr rc).const_mul (4 * G : ℂ))).const_sub C
    refine (this.congr_of_eventuallyEq (eventuallyEq_of_mem hn fσ)).congr_deriv ?_
    field
  have he : u' + 2 * u r / r = C / (H + β ^ 2 * S) + β * (U r / r) / H := by
    rw [← hu', fu r hr]
    generalize w r = W
    generalize U r = V
    field
  refine ⟨_, _, _, _, _, _, _, du, dw, dp, dσ, rfl, rfl, ?_, rfl, ?_, ?_, ?_⟩
  · have : σ r = H * (u' + 2 * u r / r) - 4 * G * (u r / r) - β * p r := by
      rw [he, fσ r hr, fp r hr, eNc]
      generalize U r = V
      field
    rw [this, eHc]
    ring
  · have : σ r = H * (u' + 2 * u r / r) - 4 * G * (u r / r) - β * p r := by
      rw [he, fσ r hr, fp r hr, eNc]
      generalize U r = V
      field
    rw [this, eHc]
    field
  · rw [he, fp r hr]
    have : -(-(U r / r / N) - 2 * w r / r + 2 * w r / r) = U r / r / N := by ring
    rw [this, eNc]
    generalize U r = V
    field
  · field

theorem continuousOn_patched {f : ℝ → ℂ} {y : ℂ} {a : ℝ} (h0 : Tendsto f (𝓝[≠] 0) (𝓝 y))
    (h : ∀ r, 0 < r → ContinuousAt f r) : ContinuousOn (Function.update f 0 y) (Icc 0 a) := by
  intro r hr
  refine ContinuousAt.continuousWithinAt ?_
  rcases hr.1.eq_or_lt with rfl | h'
  · exact continuousAt_update_same.mpr h0
  · exact (continuousAt_update_of_ne h'.ne').mpr (h r h')

/-- A motion of the sphere. -/
theorem inner_motion {Kd G β S κ η ω a : ℝ} (ha : 0 < a)
    (hH : 0 < Kd + 4 / 3 * G) (hS : 0 < S) (hκ : 0 < κ) (hη : 0 < η) (hω : 0 < ω) {H N : ℝ}
    (eH : H = Kd + 4 / 3 * G) (eN : N = S * H / (H + β ^ 2 * S))
    {k : ℂ} (hk0 : k ≠ 0) (hk : k ^ 2 * N = I * ω * (η / κ)) (A C : ℂ) :
    ∃ u w p σ : ℝ → ℂ, PoroRegion Kd G β S κ η ω 0 a u w p σ ∧ u 0 = 0 ∧ w 0 = 0 ∧
      p a = A * Complex.sinh (k * a) / a - N * β * C / H ∧
      w a = A * (Complex.sinh (k * a) - k * a * Complex.cosh (k * a)) / (a ^ 2 * (I * ω * (η / κ))) ∧
      σ a = C - 4 * G * (u a / a) := by
  have hκc : (κ : ℂ) ≠ 0 := ofReal_ne_zero.mpr hκ.ne'
  have hηc : (η : ℂ) ≠ 0 := ofReal_ne_zero.mpr hη.ne'
  have hωc : (ω : ℂ) ≠ 0 := ofReal_ne_zero.mpr hω.ne'
  have hcc : I * ω * (η / κ) ≠ 0 := by simp [hωc, hηc, hκc]
  obtain ⟨c, hc⟩ : ∃ c, c = I * ω * (η / κ) := ⟨_, rfl⟩
  rw [← hc] at hcc
  have hx : Tendsto (fun r : ℝ => k * r) (𝓝[≠] 0) (𝓝[≠] 0) := by
    rw [tendsto_nhdsWithin_iff]
    constructor
    · have : Tendsto (fun r : ℝ => k * r) (𝓝 0) (𝓝 (k * (0 : ℝ))) := by
        apply Continuous.tendsto; fun_prop
      rw [ofReal_zero, mul_zero] at this
      exact this.mono_left nhdsWithin_le_nhds
    · filter_upwards [self_mem_nhdsWithin] with t ht
      exact mul_ne_zero hk0 (ofReal_ne_zero.mpr ht)
  have hx0 : Tendsto (fun r : ℝ => (r : ℂ)) (𝓝[≠] 0) (𝓝 0) := by
    have := (Complex.continuous_ofReal.tendsto 0).mono_left (nhdsWithin_le_nhds (s := {0}ᶜ))
    rwa [ofReal_zero] at this
  let U : ℝ → ℂ := fun r => A * Complex.sinh (k * r)
  let U' : ℝ → ℂ := fun r => A * (k * Complex.cosh (k * r))
  have hU : ∀ r, HasDerivAt U (U' r) r := fun r => (sinh_deriv k r).const_mul A
  have hU' : ∀ r, HasDerivAt U' (k ^ 2 * U r) r := fun r =>
    ((cosh_deriv k r).const_mul A).congr_deriv (by simp only [U]; ring)
  have cU : Continuous U := continuous_iff_continuousAt.mpr fun r => (hU r).continuousAt
  have cU' : Continuous U' := continuous_iff_continuousAt.mpr fun r => (hU' r).continuousAt
  let w : ℝ → ℂ := fun r => (U r - r * U' r) / (r ^ 2 * c)
  let u : ℝ → ℂ := fun r => C * r / (3 * (H + β ^ 2 * S)) + 0 / (r : ℂ) ^ 2 - β * N / H * w r
  let p : ℝ → ℂ := fun r => U r / r - N * β * C / H
  let σ : ℝ → ℂ := fun r => C - 4 * G * (u r / r)
  have w0 : w 0 = 0 := by simp [w]
  have u0 : u 0 = 0 := by simp [u, w0]
  -- limits at the centre
  have lp : Tendsto p (𝓝[≠] 0) (𝓝 (A * k - N * β * C / H)) := by
    have := ((sinh_div_tendsto.comp hx).const_mul (A * k)).sub_const (N * β * C / H : ℂ)
    rw [mul_one] at this
    refine this.congr' ?_
    filter_upwards [self_mem_nhdsWithin] with t ht
    have htc : (t : ℂ) ≠ 0 := ofReal_ne_zero.mpr ht
    simp only [p, U, Function.comp_apply]
    field
  have lw1 : Tendsto (fun r => w r / r) (𝓝[≠] 0) (𝓝 (-(A * k ^ 3 / c) * (1 / 3))) := by
    refine ((sphD_tendsto.comp hx).const_mul (-(A * k ^ 3 / c))).congr' ?_
    filter_upwards [self_mem_nhdsWithin] with t ht
    have htc : (t : ℂ) ≠ 0 := ofReal_ne_zero.mpr ht
    simp only [w, U, U', Function.comp_apply]
    field
  have lw : Tendsto w (𝓝[≠] 0) (𝓝 0) := by
    have := lw1.mul hx0
    rw [mul_zero] at this
    refine this.congr' ?_
    filter_upwards [self_mem_nhdsWithin] with t ht
    have htc : (t : ℂ) ≠ 0 := ofReal_ne_zero.mpr ht
    exact div_mul_cancel₀ _ htc
  have lu : Tendsto u (𝓝[≠] 0) (𝓝 0) := by
    have := ((hx0.const_mul C).div_const (3 * (H + β ^ 2 * S) : ℂ)).sub (lw.const_mul (β * N / H : ℂ))
    simp only [mul_zero, zero_div, sub_zero] at this
    refine this.congr fun t => ?_
    simp only [u, zero_div, add_zero]
  have lσ : Tendsto σ (𝓝[≠] 0) (𝓝 (C - 4 * G * (C / (3 * (H + β ^ 2 * S))
      - β * N / H * (-(A * k ^ 3 / c) * (1 / 3))))) := by
    refine (((lw1.const_mul (β * N / H : ℂ)).const_sub (C / (3 * (H + β ^ 2 * S)))).const_mul
      (4 * G : ℂ)).const_sub C |>.congr' ?_
    filter_upwards [self_mem_nhdsWithin] with t ht
    have htc : (t : ℂ) ≠ 0 := ofReal_ne_zero.mpr ht
    simp only [σ, u, zero_div, add_zero]
    generalize (3 * (H + β ^ 2 * S) : ℂ) = D
    have : C * t / D = t * (C / D) := by ring
    rw [this, sub_div, mul_div_cancel_left₀ _ htc]
    ring
  -- continuity elsewhere
  have aw : ∀ r, 0 < r → ContinuousAt w r := by
    intro r hr
    have rc : (r : ℂ) ≠ 0 := ofReal_ne_zero.mpr hr.ne'
    refine ContinuousAt.div (by fun_prop) (by fun_prop) (mul_ne_zero (pow_ne_zero 2 rc) hcc)
  have au : ∀ r, 0 < r → ContinuousAt u r := by
    intro r hr
    have rc : (r : ℂ) ≠ 0 := ofReal_ne_zero.mpr hr.ne'
    have : u = fun r => C * r / (3 * (H + β ^ 2 * S)) - β * N / H * w r := by
      funext r; simp only [u, zero_div, add_zero]
    rw [this]
    refine ContinuousAt.sub (by fun_prop) (continuousAt_const.mul (aw r hr))
  have ap : ∀ r, 0 < r → ContinuousAt p r := by
    intro r hr
    have rc : (r : ℂ) ≠ 0 := ofReal_ne_zero.mpr hr.ne'
    exact (cU.continuousAt.div (by fun_prop) rc).sub continuousAt_const
  have aσ : ∀ r, 0 < r → ContinuousAt σ r := by
    intro r hr
    have rc : (r : ℂ) ≠ 0 := ofReal_ne_zero.mpr hr.ne'
    exact continuousAt_const.sub (continuousAt_const.mul ((au r hr).div (by fun_prop) rc))
  have cw := continuousOn_patched (a := a) lw aw
  have cu := continuousOn_patched (a := a) lu au
  rw [Function.update_eq_self_iff.mpr w0.symm] at cw
  rw [Function.update_eq_self_iff.mpr u0.symm] at cu
  refine ⟨u, w, _, _, region_make le_rfl hH hS hκ hη hω eH eN hk hU hU' (C := C) (E := 0) cu cw
    (continuousOn_patched lp ap) (continuousOn_patched lσ aσ) (fun r hr => ?_) (fun r hr => ?_)
    (fun r hr => rfl) (fun r hr => ?_), u0, w0, ?_, ?_, ?_⟩
  · rw [Function.update_of_ne hr.1.ne']
  · simp only [w, hc]
  · rw [Function.update_of_ne hr.1.ne']
  · rw [Function.update_of_ne ha.ne']
  · simp only [w, U, U', hc]
    ring
  · rw [Function.update_of_ne ha.ne']

/-- A motion of the shell that keeps the fluid inside. -/
theorem outer_motion {Kd G β S κ η ω a b : ℝ} (ha : 0 < a)
    (hH : 0 < Kd + 4 / 3 * G) (hS : 0 < S) (hκ : 0 < κ) (hη : 0 < η) (hω : 0 < ω) {H N : ℝ}
    (eH : H = Kd + 4 / 3 * G) (eN : N = S * H / (H + β ^ 2 * S))
    {k : ℂ} (hk : k ^ 2 * N = I * ω * (η / κ)) (B C ua : ℂ) :
    ∃ u w p σ : ℝ → ℂ, PoroRegion Kd G β S κ η ω a b u w p σ ∧ u a = ua ∧ w b = 0 ∧
      p a = B * shellU k b a / a - N * β * C / H ∧
      w a = B * (shellU k b a - a * shellU' k b a) / (a ^ 2 * (I * ω * (η / κ))) ∧
      σ a = C - 4 * G * (ua / a) ∧ σ b = C - 4 * G * (u b / b) := by
  have hκc : (κ : ℂ) ≠ 0 := ofReal_ne_zero.mpr hκ.ne'
  have hηc : (η : ℂ) ≠ 0 := ofReal_ne_zero.mpr hη.ne'
  have hωc : (ω : ℂ) ≠ 0 := ofReal_ne_zero.mpr hω.ne'
  have hac : (a : ℂ) ≠ 0 := ofReal_ne_zero.mpr ha.ne'
  have hcc : I * ω * (η / κ) ≠ 0 := by simp [hωc, hηc, hκc]
  obtain ⟨c, hc⟩ : ∃ c, c = I * ω * (η / κ) := ⟨_, rfl⟩
  rw [← hc] at hcc
  let U : ℝ → ℂ := fun r => B * shellU k b r
  let U' : ℝ → ℂ := fun r => B * shellU' k b r
  have hU : ∀ r, HasDerivAt U (U' r) r := fun r => (shellU_deriv k b r).const_mul B
  have hU' : ∀ r, HasDerivAt U' (k ^ 2 * U r) r := fun r =>
    ((shellU'_deriv k b r).const_mul B).congr_deriv (by simp only [U]; ring)
  have cU : Continuous U := continuous_iff_continuousAt.mpr fun r => (hU r).continuousAt
  have cU' : Continuous U' := continuous_iff_continuousAt.mpr fun r => (hU' r).continuousAt
  let w : ℝ → ℂ := fun r => (U r - r * U' r) / (r ^ 2 * c)
  let E : ℂ := a ^ 2 * (ua - (C * a / (3 * (H + β ^ 2 * S)) - β * N / H * w a))
  let u : ℝ → ℂ := fun r => C * r / (3 * (H + β ^ 2 * S)) + E / (r : ℂ) ^ 2 - β * N / H * w r
  let p : ℝ → ℂ := fun r => U r / r - N * β * C / H
  let σ : ℝ → ℂ := fun r => C - 4 * G * (u r / r)
  have hua : u a = ua := by
    simp only [u, E]
    rw [mul_div_cancel_left₀ _ (pow_ne_zero 2 hac)]
    ring
  have hne : ∀ r ∈ Icc a b, (r : ℂ) ≠ 0 := fun r hr => ofReal_ne_zero.mpr (ha.trans_le hr.1).ne'
  have cw : ContinuousOn w (Icc a b) :=
    ContinuousOn.div (by fun_prop) (by fun_prop) fun r hr => mul_ne_zero (pow_ne_zero 2 (hne r hr)) hcc
  have cu : ContinuousOn u (Icc a b) :=
    ContinuousOn.sub (ContinuousOn.add (by fun_prop) (continuousOn_const.div (by fun_prop)
      fun r hr => pow_ne_zero 2 (hne r hr))) (continuousOn_const.mul cw)
  have cp : ContinuousOn p (Icc a b) :=
    (cU.continuousOn.div (by fun_prop) hne).sub continuousOn_const
  have cσ : ContinuousOn σ (Icc a b) :=
    continuousOn_const.sub (continuousOn_const.mul (cu.div (by fun_prop) hne))
  refine ⟨u, w, p, σ, region_make ha.le hH hS hκ hη hω eH eN hk hU hU' (C := C) (E := E) cu cw cp cσ
    (fun r hr => rfl) (fun r hr => ?_) (fun r hr => rfl) (fun r hr => rfl), hua, ?_, rfl, ?_, ?_, rfl⟩
  · simp only [w, hc]
  · simp only [w, U, U', shellU, shellU', sub_self, mul_zero, Complex.cosh_zero, Complex.sinh_zero]
    rw [div_eq_zero_iff]
    left; ring
  · simp only [w, U, U', hc]
    ring
  · simp only [σ, hua]

/-- The modulus of the cell. -/
theorem cell_exact (hp : Patch Kd G β S1 S2 η1 η2 κ a s) (hω : 0 < ω) :
    CellModulus Kd G β S1 S2 η1 η2 κ a (a / s ^ (1 / 3 : ℝ)) ω
      (wK (Kd + 4 / 3 * G) 0 β S1 S2 η1 η2 κ a s ω - 4 / 3 * G) := by
  refine ⟨fun u1 w1 p1 σ1 u2 w2 p2 σ2 h => cell_modulus hp hω h, ?_⟩
  have hst := hp.stiff
  have hZne := hst.Z_ne hω
  have hab := outer_gt hp.radius hp.sat hp.sat_lt
  have hH := hst.dry
  have ha := hp.radius
  have hN1 := hst.E1_pos
  have hN2 := hst.E2_pos
  unfold wZ at hZne
  have q1 := wAlpha_sq hω.le hp.visc1 hp.perm hN1
  have q2 := wAlpha_sq hω.le hp.visc2 hp.perm hN2
  have n1 := wAlpha_ne hω hp.visc1 hp.perm hN1
  obtain ⟨d1, -⟩ := sph_quad (a := a)
    (Real.sqrt_pos.mpr (by have := hp.visc1; have := hp.perm; positivity)) ha
    (wAlpha ω η1 κ (S1 * (Kd + 4 / 3 * G) / (Kd + 4 / 3 * G + β ^ 2 * S1))) rfl
  obtain ⟨d2, -⟩ := shell_quad (a := a) (b := a / s ^ (1 / 3 : ℝ))
    (Real.sqrt_pos.mpr (by have := hp.visc2; have := hp.perm; positivity)) ha hab
    (wAlpha ω η2 κ (S2 * (Kd + 4 / 3 * G) / (Kd + 4 / 3 * G + β ^ 2 * S2))) rfl
  generalize hNd1 : S1 * (Kd + 4 / 3 * G) / (Kd + 4 / 3 * G + β ^ 2 * S1) = N1 at *
  generalize hNd2 : S2 * (Kd + 4 / 3 * G) / (Kd + 4 / 3 * G + β ^ 2 * S2) = N2 at *
  generalize wAlpha ω η1 κ N1 = k1 at *
  generalize wAlpha ω η2 κ N2 = k2 at *
  have hb : 0 < a / s ^ (1 / 3 : ℝ) := ha.trans hab
  have cm := fun u1 w1 p1 σ1 u2 w2 p2 σ2 => cell_modulus (u1 := u1) (w1 := w1) (p1 := p1) (σ1 := σ1)
    (u2 := u2) (w2 := w2) (p2 := p2) (σ2 := σ2) hp hω
  generalize a / s ^ (1 / 3 : ℝ) = b at *
  have hHc : ((Kd + 4 / 3 * G : ℝ) : ℂ) ≠ 0 := ofReal_ne_zero.mpr hH.ne'
  generalize hHd : Kd + 4 / 3 * G = H at *
  have hac : (a : ℂ) ≠ 0 := ofReal_ne_zero.mpr ha.ne'
  have hκc : (κ : ℂ) ≠ 0 := ofReal_ne_zero.mpr hp.perm.ne'
  have hωc : (ω : ℂ) ≠ 0 := ofReal_ne_zero.mpr hω.ne'
  have hη1 : (η1 : ℂ) ≠ 0 := ofReal_ne_zero.mpr hp.visc1.ne'
  have hη2 : (η2 : ℂ) ≠ 0 := ofReal_ne_zero.mpr hp.visc2.ne'
  have c1 : I * ω * (η1 / κ) ≠ 0 := by simp [hωc, hη1, hκc]
  have c2 : I * ω * (η2 / κ) ≠ 0 := by simp [hωc, hη2, hκc]
  have d1' : Complex.sinh (k1 * a) - k1 * a * Complex.cosh (k1 * a) ≠ 0 := by
    rw [← neg_sub]
    exact neg_ne_zero.mpr d1
  obtain ⟨W, hW⟩ : ∃ W : ℂ, W = β * (N2 - N1) / H / (I * ω * (sphZ η1 κ a k1 + shellZ η2 κ a b k2)) :=
    ⟨_, rfl⟩
  obtain ⟨u1, w1, p1, σ1, r1, u0, w0, ep1, ew1, eσ1⟩ := inner_motion (G := G) (β := β) ha
    (by rw [hHd]; exact hH) hp.s1 hp.perm hp.visc1 hω hHd.symm hNd1.symm n1 q1
    (W * (a ^ 2 * (I * ω * (η1 / κ))) / (Complex.sinh (k1 * a) - k1 * a * Complex.cosh (k1 * a))) 1
  obtain ⟨u2, w2, p2, σ2, r2, ua, wb, ep2, ew2, eσ2, eσb⟩ := outer_motion (G := G) (β := β) (b := b) ha
    (by rw [hHd]; exact hH) hp.s2 hp.perm hp.visc2 hω hHd.symm hNd2.symm q2
    (W * (a ^ 2 * (I * ω * (η2 / κ))) / (shellU k2 b a - a * shellU' k2 b a)) 1 (u1 a)
  rw [div_mul_cancel₀ _ d1', mul_div_cancel_right₀ _ (mul_ne_zero (pow_ne_zero 2 hac) c1)] at ew1
  rw [div_mul_cancel₀ _ d2, mul_div_cancel_right₀ _ (mul_ne_zero (pow_ne_zero 2 hac) c2)] at ew2
  have hpc : p1 a = p2 a := by
    have z1 : W * (a ^ 2 * (I * ω * (η1 / κ))) / (Complex.sinh (k1 * a) - k1 * a * Complex.cosh (k1 * a))
        * Complex.sinh (k1 * a) / a = -(I * ω * W * sphZ η1 κ a k1) := by
      unfold sphZ
      rw [← neg_sub (k1 * (a : ℂ) * Complex.cosh (k1 * a))]
      generalize k1 * a * Complex.cosh (k1 * a) - Complex.sinh (k1 * a) = D at d1 ⊢
      field
    have z2 : W * (a ^ 2 * (I * ω * (η2 / κ))) / (shellU k2 b a - a * shellU' k2 b a)
        * shellU k2 b a / a = I * ω * W * shellZ η2 κ a b k2 := by
      unfold shellZ
      generalize shellU k2 b a - a * shellU' k2 b a = D at d2 ⊢
      field
    rw [ep1, ep2, z1, z2]
    have : I * ω * W * (sphZ η1 κ a k1 + shellZ η2 κ a b k2) = β * (N2 - N1) / H := by
      rw [hW]
      generalize sphZ η1 κ a k1 + shellZ η2 κ a b k2 = Z at *
      field
    linear_combination -this
  have hcell : PoroCell Kd G β S1 S2 η1 η2 κ a b ω u1 w1 p1 σ1 u2 w2 p2 σ2 :=
    ⟨r1, r2, ⟨u0, w0⟩, ua.symm, ew1.trans ew2.symm, hpc, eσ1.trans eσ2.symm, wb⟩
  refine ⟨u1, w1, p1, σ1, u2, w2, p2, σ2, hcell, fun hu => ?_⟩
  have := cm _ _ _ _ _ _ _ _ hcell
  rw [eσb, hu] at this
  simp at this

theorem CellModulus.unique {Kd G β S1 S2 η1 η2 κ a b ω : ℝ} {K K' : ℂ} (hb : b ≠ 0)
    (h : CellModulus Kd G β S1 S2 η1 η2 κ a b ω K) (h' : CellModulus Kd G β S1 S2 η1 η2 κ a b ω K') :
    K = K' := by
  obtain ⟨u1, w1, p1, σ1, u2, w2, p2, σ2, hc, hu⟩ := h.2
  have e := (h.1 _ _ _ _ _ _ _ _ hc).symm.trans (h'.1 _ _ _ _ _ _ _ _ hc)
  have hne : 3 * u2 b / b ≠ 0 := by
    have : (b : ℂ) ≠ 0 := ofReal_ne_zero.mpr hb
    exact div_ne_zero (mul_ne_zero three_ne_zero hu) this
  exact mul_right_cancel₀ hne e

/-! ## High frequencies -/

/-- The hyperbolic cotangent far from the origin, along the diagonal. -/
theorem coth_tendsto {k : ℝ} (hk : 0 < k) :
    Tendsto (fun x : ℝ => Complex.cosh ((k * x : ℝ) * (1 + I)) / Complex.sinh ((k * x : ℝ) * (1 + I))) atTop (𝓝 1) := by
  have h0 : Tendsto (fun x : ℝ => Complex.exp (-(2 * ((k * x : ℝ) * (1 + I))))) atTop (𝓝 0) := by
    rw [tendsto_zero_iff_norm_tendsto_zero]
    have : ∀ x : ℝ, ‖Complex.exp (-(2 * ((k * x : ℝ) * (1 + I))))‖ = Real.exp (-(2 * k * x)) := by
      intro x
      rw [Complex.norm_exp]
      congr 1
      simp
      ring
    simp only [this]
    exact Real.tendsto_exp_neg_atTop_nhds_zero.comp (tendsto_id.const_mul_atTop (by positivity))
  have h1 := (tendsto_const_nhds (x := (1 : ℂ)).add h0).div (tendsto_const_nhds (x := (1 : ℂ)).sub h0)
    (by simp)
  simp only [add_zero, sub_zero, div_one] at h1
  refine h1.congr fun x => ?_
  simp only [Pi.div_apply]
  generalize ((k * x : ℝ) : ℂ) * (1 + I) = z
  have hz := Complex.exp_ne_zero z
  show (1 + Complex.exp (-(2 * z))) / (1 - Complex.exp (-(2 * z))) = _
  have e : Complex.exp (-(2 * z)) = Complex.exp (-z) / Complex.exp z := by
    rw [← Complex.exp_sub]; congr 1; ring
  rw [e, Complex.cosh, Complex.sinh, div_div_div_cancel_right₀ two_ne_zero]
  rw [← mul_div_mul_left _ _ hz]
  congr 1 <;> field

theorem sinh_diag_ne {t : ℝ} (ht : 0 < t) : Complex.sinh (t * (1 + I)) ≠ 0 := by
  intro h0
  have n := sphere_norm t
  rw [h0, map_zero] at n
  have := Real.one_lt_cosh.mpr (by positivity : 2 * t ≠ 0)
  have := Real.cos_le_one (2 * t)
  linarith

theorem wAlpha_split {ω η κ E : ℝ} (hω : 0 ≤ ω) :
    wAlpha ω η κ E = √ω * wAlpha 1 η κ E := by
  unfold wAlpha
  rw [one_mul, mul_div_assoc, Real.sqrt_mul hω]
  push_cast
  ring

theorem sqrt_inv_tendsto : Tendsto (fun ω : ℝ => ((√ω)⁻¹ : ℂ)) atTop (𝓝 0) := by
  have : Tendsto (fun ω : ℝ => (((√ω)⁻¹ : ℝ) : ℂ)) atTop (𝓝 ((0 : ℝ) : ℂ)) :=
    (Complex.continuous_ofReal.tendsto 0).comp (tendsto_inv_atTop_zero.comp Real.tendsto_sqrt_atTop)
  rw [ofReal_zero] at this
  refine this.congr fun ω => ?_
  push_cast
  rfl

/-- Impedance of the sphere at high frequencies. -/
theorem sph_rate {E : ℝ} {η κ a : ℝ} (hη : 0 < η) (hκ : 0 < κ) (hE : 0 < E) (ha : 0 < a) :
    Tendsto (fun ω : ℝ => √ω * sphZ η κ a (wAlpha ω η κ E)) atTop (𝓝 (η / κ / wAlpha 1 η κ E)) := by
  have hm := wAlpha_ne one_pos hη hκ hE
  have hac : (a : ℂ) ≠ 0 := ofReal_ne_zero.mpr ha.ne'
  have hκc : (κ : ℂ) ≠ 0 := ofReal_ne_zero.mpr hκ.ne'
  have hk : 0 < √(1 * η / (2 * κ * E)) * a := mul_pos (Real.sqrt_pos.mpr (by positivity)) ha
  have hc := (coth_tendsto hk).comp Real.tendsto_sqrt_atTop
  have l := (tendsto_const_nhds (x := (η * a / κ : ℂ))).div
    ((hc.const_mul (wAlpha 1 η κ E * a)).sub sqrt_inv_tendsto) (by simp [hm, hac])
  have e : (η * a / κ / (wAlpha 1 η κ E * a * 1 - 0) : ℂ) = η / κ / wAlpha 1 η κ E := by
    rw [mul_one, sub_zero]; field
  rw [e] at l
  refine l.congr' ?_
  filter_upwards [eventually_gt_atTop (0 : ℝ)] with ω hω
  have hs : (√ω : ℂ) ≠ 0 := ofReal_ne_zero.mpr (Real.sqrt_pos.mpr hω).ne'
  have hα : (√(1 * η / (2 * κ * E)) * a * √ω : ℝ) * (1 + I) = wAlpha ω η κ E * a := by
    rw [wAlpha_split hω.le]; unfold wAlpha; push_cast; ring
  have hα' : wAlpha 1 η κ E * a = wAlpha ω η κ E * a / √ω := by
    rw [wAlpha_split hω.le]; field
  simp only [Function.comp_apply, hα, hα', Pi.div_apply]
  obtain ⟨d1, -, -⟩ := sph_quad (σ := √(ω * η / (2 * κ * E))) (a := a)
    (Real.sqrt_pos.mpr (by positivity)) ha (wAlpha ω η κ E) rfl
  have hne : Complex.sinh (wAlpha ω η κ E * a) ≠ 0 := by
    rw [← hα]
    exact sinh_diag_ne (mul_pos hk (Real.sqrt_pos.mpr hω))
  unfold sphZ
  generalize wAlpha ω η κ E * a = z at *
  have : z / √ω * (Complex.cosh z / Complex.sinh z) - (√ω : ℂ)⁻¹
      = (z * Complex.cosh z - Complex.sinh z) / (√ω * Complex.sinh z) := by field
  rw [this]
  generalize z * Complex.cosh z - Complex.sinh z = D at *
  field

/-- Impedance of the shell at high frequencies. -/
theorem shell_rate {E : ℝ} {η κ a b : ℝ} (hη : 0 < η) (hκ : 0 < κ) (hE : 0 < E) (ha : 0 < a)
    (hab : a < b) :
    Tendsto (fun ω : ℝ => √ω * shellZ η κ a b (wAlpha ω η κ E)) atTop
      (𝓝 (η / κ / wAlpha 1 η κ E)) := by
  have hm := wAlpha_ne one_pos hη hκ hE
  have hac : (a : ℂ) ≠ 0 := ofReal_ne_zero.mpr ha.ne'
  have hbc : (b : ℂ) ≠ 0 := ofReal_ne_zero.mpr (ha.trans hab).ne'
  have hκc : (κ : ℂ) ≠ 0 := ofReal_ne_zero.mpr hκ.ne'
  have hk : 0 < √(1 * η / (2 * κ * E)) * (b - a) :=
    mul_pos (Real.sqrt_pos.mpr (by positivity)) (sub_pos.mpr hab)
  have hc := (coth_tendsto hk).comp Real.tendsto_sqrt_atTop
  have lN := (hc.const_mul (wAlpha 1 η κ E * b)).sub sqrt_inv_tendsto
  have lD := ((hc.const_mul (wAlpha 1 η κ E * (b - a))).sub sqrt_inv_tendsto).mul sqrt_inv_tendsto
    |>.add_const (wAlpha 1 η κ E ^ 2 * a * b)
  have l := ((lN.div lD (by simp [hm, hac, hbc])).const_mul (η * a / κ : ℂ))
  have e : (η * a / κ * ((wAlpha 1 η κ E * b * 1 - 0)
      / ((wAlpha 1 η κ E * (b - a) * 1 - 0) * 0 + wAlpha 1 η κ E ^ 2 * a * b)) : ℂ)
      = η / κ / wAlpha 1 η κ E := by
    simp only [mul_one, sub_zero, mul_zero, zero_add]; field
  rw [e] at l
  refine l.congr' ?_
  filter_upwards [eventually_gt_atTop (0 : ℝ)] with ω hω
  have hs : (√ω : ℂ) ≠ 0 := ofReal_ne_zero.mpr (Real.sqrt_pos.mpr hω).ne'
  have hα : (√(1 * η / (2 * κ * E)) * (b - a) * √ω : ℝ) * (1 + I) = wAlpha ω η κ E * (b - a) := by
    rw [wAlpha_split hω.le]; unfold wAlpha; push_cast; ring
  have hα' : wAlpha 1 η κ E = wAlpha ω η κ E / √ω := by
    rw [wAlpha_split hω.le]; field
  simp only [Function.comp_apply, hα, Pi.div_apply]
  rw [hα']
  obtain ⟨d1, -, -⟩ := shell_quad (σ := √(ω * η / (2 * κ * E))) (a := a) (b := b)
    (Real.sqrt_pos.mpr (by positivity)) ha hab (wAlpha ω η κ E) rfl
  have hne : Complex.sinh (wAlpha ω η κ E * (b - a)) ≠ 0 := by
    rw [← hα]
    exact sinh_diag_ne (mul_pos hk (Real.sqrt_pos.mpr hω))
  unfold shellZ
  have hN : wAlpha ω η κ E / √ω * b * (Complex.cosh (wAlpha ω η κ E * (b - a))
      / Complex.sinh (wAlpha ω η κ E * (b - a))) - (√ω : ℂ)⁻¹
      = shellU (wAlpha ω η κ E) b a / (√ω * Complex.sinh (wAlpha ω η κ E * (b - a))) := by
    unfold shellU; field
  have hD : (wAlpha ω η κ E / √ω * (b - a) * (Complex.cosh (wAlpha ω η κ E * (b - a))
      / Complex.sinh (wAlpha ω η κ E * (b - a))) - (√ω : ℂ)⁻¹) * (√ω : ℂ)⁻¹
      + (wAlpha ω η κ E / √ω) ^ 2 * a * b
      = (shellU (wAlpha ω η κ E) b a - a * shellU' (wAlpha ω η κ E) b a)
        / (√ω ^ 2 * Complex.sinh (wAlpha ω η κ E * (b - a))) := by
    unfold shellU shellU'; field
  rw [hN, hD]
  generalize shellU (wAlpha ω η κ E) b a - a * shellU' (wAlpha ω η κ E) b a = D at *
  generalize Complex.sinh (wAlpha ω η κ E * (b - a)) = sh at *
  field

theorem sqrt_ratio {η κ E : ℝ} (hη : 0 < η) (hκ : 0 < κ) (hE : 0 < E) :
    (η / κ / wAlpha 1 η κ E : ℂ) = (√(η * E) : ℝ) * (√(2 / κ) / (1 + I)) := by
  have h1I : (1 + I : ℂ) ≠ 0 := by
    intro h; have := congrArg re h; simp at this
  unfold wAlpha
  have hq : 0 < √(1 * η / (2 * κ * E)) := Real.sqrt_pos.mpr (by positivity)
  have e : η / κ = √(η * E) * √(2 / κ) * √(1 * η / (2 * κ * E)) := by
    rw [← Real.sqrt_mul (by positivity), ← Real.sqrt_mul (by positivity)]
    rw [show η * E * (2 / κ) * (1 * η / (2 * κ * E)) = (η / κ) ^ 2 by field]
    exact (Real.sqrt_sq (by positivity)).symm
  have ec : (η / κ : ℂ) = √(η * E) * √(2 / κ) * √(1 * η / (2 * κ * E)) := by exact_mod_cast congrArg ofReal e
  have hqc : (√(1 * η / (2 * κ * E)) : ℂ) ≠ 0 := ofReal_ne_zero.mpr hq.ne'
  rw [ec]
  generalize √(1 * η / (2 * κ * E)) = q at *
  field

/-- How fast the modulus approaches its limit at high frequencies. -/
theorem Patch.rate (h : Patch Kd G β S1 S2 η1 η2 κ a s) :
    Tendsto (fun ω : ℝ => √ω * (wInf (Kd + β ^ 2 * S1) (Kd + β ^ 2 * S2) G s
        - wK Kd G β S1 S2 η1 η2 κ a s ω)) atTop
      (𝓝 ((wInf (Kd + β ^ 2 * S1) (Kd + β ^ 2 * S2) G s ^ 2 * wC Kd G β S1 S2 a s
        / (√(η1 * (S1 * Kd / (Kd + β ^ 2 * S1))) + √(η2 * (S2 * Kd / (Kd + β ^ 2 * S2)))) : ℝ)
        * ((1 + I) / (I * √(2 / κ))))) := by
  have e1 := h.E1_pos
  have e2 := h.E2_pos
  have hκ := h.perm
  have hη1 := h.visc1
  have hη2 := h.visc2
  have l1 := sph_rate h.visc1 h.perm e1 h.radius
  have l2 := shell_rate h.visc2 h.perm e2 h.radius (outer_gt h.radius h.sat h.sat_lt)
  have lZ := l1.add l2
  rw [sqrt_ratio h.visc1 h.perm e1, sqrt_ratio h.visc2 h.perm e2] at lZ
  have lM := h.high
  have hinf := h.inf_pos
  have h1I : (1 + I : ℂ) ≠ 0 := by
    intro h; have := congrArg re h; simp at this
  have hsk : (√(2 / κ) : ℂ) ≠ 0 := ofReal_ne_zero.mpr (Real.sqrt_pos.mpr (by positivity)).ne'
  have hm : 0 < √(η1 * (S1 * Kd / (Kd + β ^ 2 * S1))) + √(η2 * (S2 * Kd / (Kd + β ^ 2 * S2))) :=
    add_pos (Real.sqrt_pos.mpr (by positivity)) (Real.sqrt_pos.mpr (by positivity))
  have hmc : ((√(η1 * (S1 * Kd / (Kd + β ^ 2 * S1))) : ℝ)
      + (√(η2 * (S2 * Kd / (Kd + β ^ 2 * S2))) : ℝ) : ℂ) ≠ 0 := by
    rw [← ofReal_add]; exact ofReal_ne_zero.mpr hm.ne'
  have hlim : ((√(η1 * (S1 * Kd / (Kd + β ^ 2 * S1))) : ℝ) * (√(2 / κ) / (1 + I))
      + (√(η2 * (S2 * Kd / (Kd + β ^ 2 * S2))) : ℝ) * (√(2 / κ) / (1 + I)) : ℂ) ≠ 0 := by
    rw [← add_mul]
    exact mul_ne_zero hmc (div_ne_zero hsk h1I)
  have l := (lM.mul ((tendsto_const_nhds (x := (wInf (Kd + β ^ 2 * S1) (Kd + β ^ 2 * S2) G s
    * wC Kd G β S1 S2 a s : ℂ))).div (lZ.const_mul I) (mul_ne_zero I_ne_zero hlim)))
  have e : ((wInf (Kd + β ^ 2 * S1) (Kd + β ^ 2 * S2) G s : ℝ) : ℂ)
      * ((wInf (Kd + β ^ 2 * S1) (Kd + β ^ 2 * S2) G s * wC Kd G β S1 S2 a s : ℂ)
        / (I * ((√(η1 * (S1 * Kd / (Kd + β ^ 2 * S1))) : ℝ) * (√(2 / κ) / (1 + I))
      + (√(η2 * (S2 * Kd / (Kd + β ^ 2 * S2))) : ℝ) * (√(2 / κ) / (1 + I)))))
      = (wInf (Kd + β ^ 2 * S1) (Kd + β ^ 2 * S2) G s ^ 2 * wC Kd G β S1 S2 a s
        / (√(η1 * (S1 * Kd / (Kd + β ^ 2 * S1))) + √(η2 * (S2 * Kd / (Kd + β ^ 2 * S2)))) : ℝ)
        * ((1 + I) / (I * √(2 / κ))) := by
    rw [← add_mul]
    push_cast
    generalize (√(η1 * (S1 * Kd / (Kd + β ^ 2 * S1))) + √(η2 * (S2 * Kd / (Kd + β ^ 2 * S2))) : ℂ) = m at *
    generalize (√(2 / κ) : ℂ) = q at *
    field
  rw [e] at l
  refine l.congr' ?_
  filter_upwards [eventually_gt_atTop (0 : ℝ)] with ω hω
  have hZ := h.Z_ne hω
  obtain ⟨z1, z2⟩ := h.Z_sign hω
  have hd := (resp_sign hinf h.C_nonneg hω z1.le z2).1
  have hs : (√ω : ℂ) ≠ 0 := ofReal_ne_zero.mpr (Real.sqrt_pos.mpr hω).ne'
  have hss : (ω : ℂ) = √ω * √ω := by exact_mod_cast congrArg ofReal (Real.mul_self_sqrt hω.le).symm
  simp only [Pi.div_apply]
  rw [← mul_add]
  unfold wK
  rw [show sphZ η1 κ a (wAlpha ω η1 κ (S1 * Kd / (Kd + β ^ 2 * S1)))
    + shellZ η2 κ a (a / s ^ (1 / 3 : ℝ)) (wAlpha ω η2 κ (S2 * Kd / (Kd + β ^ 2 * S2)))
    = wZ Kd β S1 S2 η1 η2 κ a s ω from rfl]
  generalize wZ Kd β S1 S2 η1 η2 κ a s ω = Z at *
  rw [hss] at hd ⊢
  generalize (√ω : ℂ) = q at *
  generalize (wInf (Kd + β ^ 2 * S1) (Kd + β ^ 2 * S2) G s : ℂ) = k at *
  generalize (wC Kd G β S1 S2 a s : ℂ) = c at *
  have hd2 : 1 + k * (c / (I * (q * q) * Z)) = 1 + k * c / (I * q * q * Z) := by ring
  rw [hd2] at hd ⊢
  rw [show (k - k / (1 + k * c / (I * q * q * Z))) = k / (1 + k * c / (I * q * q * Z))
    * (k * c / (I * q * q * Z)) by
      generalize k * c / (I * q * q * Z) = x at *
      field]
  generalize k / (1 + k * c / (I * q * q * Z)) = y
  field

/-! ## The code -/

theorem outer_radius {a b s : ℝ} (ha : 0 < a) (hb : 0 < b) (hs : 0 < s) (h : a ^ 3 = s * b ^ 3) :
    b = a / s ^ (1 / 3 : ℝ) := by
  have h3 := outer_cube (a := a) hs
  have : b ^ 3 = (a / s ^ (1 / 3 : ℝ)) ^ 3 := by rw [h3, h]; field
  exact (pow_left_inj₀ hb.le (by positivity) (by norm_num)).mp this

variable {K0 φ ρ0 ρ1 ρ2 Kf1 Kf2 b f : ℝ}

/-- The Hill limit of the confined moduli. -/
theorem Patch.stiff_inf (h : Patch Kd G β S1 S2 η1 η2 κ a s) :
    wInf (Kd + 4 / 3 * G + β ^ 2 * S1) (Kd + 4 / 3 * G + β ^ 2 * S2) 0 s
      = wInf (Kd + β ^ 2 * S1) (Kd + β ^ 2 * S2) G s + 4 / 3 * G := by
  have h1 := h.hill
  have h2 := h.stiff.hill
  have p1 := h.inf_pos
  have p2 := h.stiff.inf_pos
  have hG := h.shear
  rw [show Kd + β ^ 2 * S1 + 4 / 3 * G = Kd + 4 / 3 * G + β ^ 2 * S1 by ring,
    show Kd + β ^ 2 * S2 + 4 / 3 * G = Kd + 4 / 3 * G + β ^ 2 * S2 by ring] at h1
  simp only [mul_zero, add_zero] at h2
  rw [← h1, one_div, one_div, inv_inj] at h2
  exact h2

/-- The mix of the moduli in the prefactor. -/
theorem Patch.prefactor (h : Patch Kd G β S1 S2 η1 η2 κ a s) :
    wInf (Kd + β ^ 2 * S1) (Kd + β ^ 2 * S2) G s ^ 2 * wC Kd G β S1 S2 a s
      = ((1 - s) * (Kd / (Kd + 4 / 3 * G) * ((Kd + β ^ 2 * S1 + 4 / 3 * G) / (Kd + β ^ 2 * S1)))
        + s * (Kd / (Kd + 4 / 3 * G) * ((Kd + β ^ 2 * S2 + 4 / 3 * G) / (Kd + β ^ 2 * S2))))
        * (wInf (Kd + 4 / 3 * G + β ^ 2 * S1) (Kd + 4 / 3 * G + β ^ 2 * S2) 0 s ^ 2
          * wC (Kd + 4 / 3 * G) 0 β S1 S2 a s) := by
  have hd := h.D_pos
  have hn := h.N_pos
  have hd' := h.stiff.D_pos
  have hn' := h.stiff.N_pos
  have hG := h.shear
  have hK := h.dry
  have ha := h.radius
  have k1 : 0 < Kd + β ^ 2 * S1 := by have := h.s1; positivity
  have k2 : 0 < Kd + β ^ 2 * S2 := by have := h.s2; positivity
  unfold wC wInf
  rw [show Kd + 4 / 3 * G + β ^ 2 * S1 = Kd + β ^ 2 * S1 + 4 / 3 * G by ring,
    show Kd + 4 / 3 * G + β ^ 2 * S2 = Kd + β ^ 2 * S2 + 4 / 3 * G by ring] at *
  generalize Kd + β ^ 2 * S1 = K1 at *
  generalize Kd + β ^ 2 * S2 = K2 at *
  have g1 : 0 < K1 + 4 / 3 * G := by positivity
  have g2 : 0 < K2 + 4 / 3 * G := by positivity
  have g0 : 0 < Kd + 4 / 3 * G := by positivity
  have e1 : 3 * (K1 + 4 / 3 * G) + 4 * 0 - 3 * (K1 + 4 / 3 * G - (K2 + 4 / 3 * G)) * s
      = 3 * K1 + 4 * G - 3 * (K1 - K2) * s := by ring
  have e2 : (K2 + 4 / 3 * G) * (3 * (K1 + 4 / 3 * G) + 4 * 0)
      + 4 * 0 * (K1 + 4 / 3 * G - (K2 + 4 / 3 * G)) * s = 3 * (K1 + 4 / 3 * G) * (K2 + 4 / 3 * G) := by ring
  have e3 : (1 - s) * (Kd / (Kd + 4 / 3 * G) * ((K1 + 4 / 3 * G) / K1))
      + s * (Kd / (Kd + 4 / 3 * G) * ((K2 + 4 / 3 * G) / K2))
      = Kd * (K2 * (3 * K1 + 4 * G) + 4 * G * (K1 - K2) * s) / (3 * (Kd + 4 / 3 * G) * K1 * K2) := by
    field
  rw [e1, e2, e3]
  rw [show 3 * Kd + 4 * G = 3 * (Kd + 4 / 3 * G) by ring]
  generalize K2 * (3 * K1 + 4 * G) + 4 * G * (K1 - K2) * s = n at *
  generalize 3 * K1 + 4 * G - 3 * (K1 - K2) * s = d at *
  generalize Kd + 4 / 3 * G = H at *
  generalize K1 + 4 / 3 * G = H1 at *
  generalize K2 + 4 / 3 * G = H2 at *
  simp only [mul_zero, add_zero]
  field

/-- Patchy saturation without frame rigidity: the modulus that `White_Dutta_Ode` returns is that of
the spherical cell, whatever the frequency. -/
theorem C104_fluid_frame (h : PatchRock Kd 0 K0 φ ρ0 ρ1 ρ2 Kf1 Kf2 η1 η2 κ a s) (hf : 0 < f)
    (hb : 0 < b) (hab : a ^ 3 = s * b ^ 3) :
    ∃ K : ℂ,
      (White_Dutta_Ode (fin Kd) 0 (fin K0) (fin φ) (fin ρ0) (fin ρ1) (fin ρ2) (fin Kf1)
        (fin Kf2) (fin η1) (fin η2) (fin κ) (fin a) (fin s) (fin f)).2.2 = ⟨fin K.re, fin K.im⟩ ∧
      CellModulus Kd 0 (biotCoef Kd K0) (storage Kd K0 Kf1 φ) (storage Kd K0 Kf2 φ) η1 η2 κ a b
        (2 * Real.pi * f) K := by
  have hω : 0 < 2 * Real.pi * f := by have := Real.pi_pos; positivity
  have hp := toPatch h
  rw [outer_radius h.radius hb h.sat hab, fl_zero, White_eval h hf _ rfl _ rfl]
  refine ⟨_, rfl, ?_⟩
  have := cell_exact hp hω
  simpa using this

/-- A loose sand whose frame has no rigidity, with oil and water. -/
example : PatchRock 2 0 40 (1 / 5) 2.65 1 0.8 2 1 1 2 1 1 (1 / 8) ∧ (1 : ℝ) ^ 3 = 1 / 8 * 2 ^ 3 := by
  refine ⟨⟨⟨?_, ?_, ?_, ?_, ?_⟩, ⟨?_, ?_, ?_, ?_, ?_⟩, ?_, ?_, ?_, ?_, ?_, ?_, ?_, ?_, ?_⟩, ?_⟩ <;> norm_num

/-- At low and at high frequencies the modulus that `White_Dutta_Ode` returns and that of the cell
have the same limits: Gassmann's modulus with Wood's mixture of the fluids, and Hill's mixture of
Gassmann's moduli. -/
theorem C104_limits (h : PatchRock Kd G K0 φ ρ0 ρ1 ρ2 Kf1 Kf2 η1 η2 κ a s)
    (hb : 0 < b) (hab : a ^ 3 = s * b ^ 3) :
    ∃ (K1 K2 Kw Kh : ℝ) (K M : ℝ → ℂ),
      Gassmann (fin Kd) (fin G) (fin K0) (fin Kf1) (fin φ) = (fin K1, fin G) ∧
      Gassmann (fin Kd) (fin G) (fin K0) (fin Kf2) (fin φ) = (fin K2, fin G) ∧
      Gassmann (fin Kd) (fin G) (fin K0) (fin (wood s Kf1 Kf2)) (fin φ) = (fin Kw, fin G) ∧
      0 < Kh ∧ 1 / (Kh + 4 / 3 * G) = s / (K1 + 4 / 3 * G) + (1 - s) / (K2 + 4 / 3 * G) ∧
      (∀ f, 0 < f → (White_Dutta_Ode (fin Kd) (fin G) (fin K0) (fin φ) (fin ρ0) (fin ρ1) (fin ρ2)
        (fin Kf1) (fin Kf2) (fin η1) (fin η2) (fin κ) (fin a) (fin s) (fin f)).2.2
        = ⟨fin (K f).re, fin (K f).im⟩) ∧
      (∀ f, 0 < f → CellModulus Kd G (biotCoef Kd K0) (storage Kd K0 Kf1 φ) (storage Kd K0 Kf2 φ)
        η1 η2 κ a b (2 * Real.pi * f) (M f)) ∧
      Tendsto K (𝓝[>] 0) (𝓝 Kw) ∧ Tendsto M (𝓝[>] 0) (𝓝 Kw) ∧
      Tendsto K atTop (𝓝 Kh) ∧ Tendsto M atTop (𝓝 Kh) := by
  have hp := toPatch h
  obtain ⟨hr, hS⟩ := wood_rock h.inner h.outer h.sat h.sat_lt
  have h0 := GassmannRock.mineral_pos h.inner
  have g0 := Gassmann_eval h0.ne' hr.fluid_pos.ne' (GassmannRock.gB_pos hr).ne' (fin G)
  have g1 := Gassmann_eval h0.ne' h.inner.fluid_pos.ne' (GassmannRock.gB_pos h.inner).ne' (fin G)
  have g2 := Gassmann_eval h0.ne' h.outer.fluid_pos.ne' (GassmannRock.gB_pos h.outer).ne' (fin G)
  rw [gK_storage hr, hS] at g0
  rw [gK_storage h.inner] at g1
  rw [gK_storage h.outer] at g2
  have hπ := Real.pi_pos
  have hom : Tendsto (fun f : ℝ => 2 * Real.pi * f) atTop atTop :=
    tendsto_id.const_mul_atTop (by positivity)
  have hoz : Tendsto (fun f : ℝ => 2 * Real.pi * f) (𝓝[>] 0) (𝓝[>] 0) := by
    rw [tendsto_nhdsWithin_iff]
    constructor
    · have : Tendsto (fun f : ℝ => 2 * Real.pi * f) (𝓝 0) (𝓝 (2 * Real.pi * 0)) := by
        apply Continuous.tendsto; fun_prop
      rw [mul_zero] at this
      exact this.mono_left nhdsWithin_le_nhds
    · filter_upwards [self_mem_nhdsWithin] with t ht
      have : 0 < t := ht
      exact (by positivity : 0 < 2 * Real.pi * t)
  rw [outer_radius h.radius hb h.sat hab]
  refine ⟨_, _, _, _, _, _, g1, g2, g0, hp.inf_pos, hp.hill, fun f hf => ?_, fun f hf =>
    cell_exact hp (by positivity), hp.low.comp hoz, ?_, hp.high.comp hom, ?_⟩
  · rw [White_eval h hf _ rfl _ rfl]
    rfl
  · have := ((hp.stiff.low.comp hoz).sub_const (4 / 3 * G : ℂ))
    have e : (((Kd + 4 / 3 * G + biotCoef Kd K0 ^ 2 * mixS (storage Kd K0 Kf1 φ) (storage Kd K0 Kf2 φ) s
        : ℝ) : ℂ) - 4 / 3 * G) = ((Kd + biotCoef Kd K0 ^ 2
        * mixS (storage Kd K0 Kf1 φ) (storage Kd K0 Kf2 φ) s : ℝ) : ℂ) := by push_cast; ring
    rw [e] at this
    exact this
  · have := ((hp.stiff.high.comp hom).sub_const (4 / 3 * G : ℂ))
    rw [hp.stiff_inf] at this
    push_cast at this
    rw [add_sub_cancel_right] at this
    exact this

/-- Ratio of the distances from the limit at high frequencies, between `White_Dutta_Ode` and the cell. -/
theorem C104_high_frequency (h : PatchRock Kd G K0 φ ρ0 ρ1 ρ2 Kf1 Kf2 η1 η2 κ a s)
    (hb : 0 < b) (hab : a ^ 3 = s * b ^ 3) (hne : Kf1 ≠ Kf2) :
    ∃ (K1 K2 Kh : ℝ) (K M : ℝ → ℂ),
      Gassmann (fin Kd) (fin G) (fin K0) (fin Kf1) (fin φ) = (fin K1, fin G) ∧
      Gassmann (fin Kd) (fin G) (fin K0) (fin Kf2) (fin φ) = (fin K2, fin G) ∧
      1 / (Kh + 4 / 3 * G) = s / (K1 + 4 / 3 * G) + (1 - s) / (K2 + 4 / 3 * G) ∧
      (∀ f, 0 < f → (White_Dutta_Ode (fin Kd) (fin G) (fin K0) (fin φ) (fin ρ0) (fin ρ1) (fin ρ2)
        (fin Kf1) (fin Kf2) (fin η1) (fin η2) (fin κ) (fin a) (fin s) (fin f)).2.2
        = ⟨fin (K f).re, fin (K f).im⟩) ∧
      (∀ f, 0 < f → CellModulus Kd G (biotCoef Kd K0) (storage Kd K0 Kf1 φ) (storage Kd K0 Kf2 φ)
        η1 η2 κ a b (2 * Real.pi * f) (M f)) ∧
      Tendsto (fun f => (Kh - K f) / (Kh - M f)) atTop (𝓝 (
        ((1 - s) * (Kd / (Kd + 4 / 3 * G) * ((K1 + 4 / 3 * G) / K1))
          + s * (Kd / (Kd + 4 / 3 * G) * ((K2 + 4 / 3 * G) / K2)))
        * ((√(η1 * fillModulus (storage Kd K0 Kf1 φ) (Kd + 4 / 3 * G) (K1 + 4 / 3 * G))
            + √(η2 * fillModulus (storage Kd K0 Kf2 φ) (Kd + 4 / 3 * G) (K2 + 4 / 3 * G)))
          / (√(η1 * fillModulus (storage Kd K0 Kf1 φ) Kd K1)
            + √(η2 * fillModulus (storage Kd K0 Kf2 φ) Kd K2))) : ℝ)) := by
  have hp := toPatch h
  have h0 := GassmannRock.mineral_pos h.inner
  have g1 := Gassmann_eval h0.ne' h.inner.fluid_pos.ne' (GassmannRock.gB_pos h.inner).ne' (fin G)
  have g2 := Gassmann_eval h0.ne' h.outer.fluid_pos.ne' (GassmannRock.gB_pos h.outer).ne' (fin G)
  rw [gK_storage h.inner] at g1
  rw [gK_storage h.outer] at g2
  have hπ := Real.pi_pos
  have hom : Tendsto (fun f : ℝ => 2 * Real.pi * f) atTop atTop :=
    tendsto_id.const_mul_atTop (by positivity)
  rw [outer_radius h.radius hb h.sat hab]
  refine ⟨_, _, _, fun f => wK Kd G (biotCoef Kd K0) (storage Kd K0 Kf1 φ) (storage Kd K0 Kf2 φ) η1 η2 κ
    a s (2 * Real.pi * f), _, g1, g2, hp.hill, fun f hf => ?_, fun f hf =>
    cell_exact hp (by positivity), ?_⟩
  · rw [White_eval h hf _ rfl _ rfl]
    rfl
  · have hS : storage Kd K0 Kf1 φ ≠ storage Kd K0 Kf2 φ := fun e => hne (storage_inj h.inner h.outer e)
    have hc := hp.stiff.C_pos hS
    have hk := hp.stiff.inf_pos
    have r1 := hp.rate.comp hom
    have r2 := hp.stiff.rate.comp hom
    have e1 := hp.E1_pos
    have e2 := hp.E2_pos
    have s1 := hp.stiff.E1_pos
    have s2 := hp.stiff.E2_pos
    have hη1 := h.visc1
    have hη2 := h.visc2
    have hκ := h.perm
    rw [hp.prefactor] at r1
    have m1 : 0 < √(η1 * (storage Kd K0 Kf1 φ * Kd / (Kd + biotCoef Kd K0 ^ 2 * storage Kd K0 Kf1 φ)))
        + √(η2 * (storage Kd K0 Kf2 φ * Kd / (Kd + biotCoef Kd K0 ^ 2 * storage Kd K0 Kf2 φ))) :=
      add_pos (Real.sqrt_pos.mpr (by positivity)) (Real.sqrt_pos.mpr (by positivity))
    have m2 : 0 < √(η1 * (storage Kd K0 Kf1 φ * (Kd + 4 / 3 * G)
          / (Kd + 4 / 3 * G + biotCoef Kd K0 ^ 2 * storage Kd K0 Kf1 φ)))
        + √(η2 * (storage Kd K0 Kf2 φ * (Kd + 4 / 3 * G)
          / (Kd + 4 / 3 * G + biotCoef Kd K0 ^ 2 * storage Kd K0 Kf2 φ))) :=
      add_pos (Real.sqrt_pos.mpr (by positivity)) (Real.sqrt_pos.mpr (by positivity))
    have h1I : (1 + I : ℂ) ≠ 0 := by
      intro h; have := congrArg re h; simp at this
    have hsk : (√(2 / κ) : ℂ) ≠ 0 := ofReal_ne_zero.mpr (Real.sqrt_pos.mpr (by positivity)).ne'
    have hu : ((1 + I) / (I * √(2 / κ)) : ℂ) ≠ 0 := div_ne_zero h1I (mul_ne_zero I_ne_zero hsk)
    unfold fillModulus
    rw [show Kd + biotCoef Kd K0 ^ 2 * storage Kd K0 Kf1 φ + 4 / 3 * G
        = Kd + 4 / 3 * G + biotCoef Kd K0 ^ 2 * storage Kd K0 Kf1 φ by ring,
      show Kd + biotCoef Kd K0 ^ 2 * storage Kd K0 Kf2 φ + 4 / 3 * G
        = Kd + 4 / 3 * G + biotCoef Kd K0 ^ 2 * storage Kd K0 Kf2 φ by ring] at *
    generalize √(η1 * (storage Kd K0 Kf1 φ * Kd / (Kd + biotCoef Kd K0 ^ 2 * storage Kd K0 Kf1 φ)))
        + √(η2 * (storage Kd K0 Kf2 φ * Kd / (Kd + biotCoef Kd K0 ^ 2 * storage Kd K0 Kf2 φ))) = n1 at *
    generalize √(η1 * (storage Kd K0 Kf1 φ * (Kd + 4 / 3 * G)
          / (Kd + 4 / 3 * G + biotCoef Kd K0 ^ 2 * storage Kd K0 Kf1 φ)))
        + √(η2 * (storage Kd K0 Kf2 φ * (Kd + 4 / 3 * G)
          / (Kd + 4 / 3 * G + biotCoef Kd K0 ^ 2 * storage Kd K0 Kf2 φ))) = n2 at *
    generalize hkk : wInf (Kd + 4 / 3 * G + biotCoef Kd K0 ^ 2 * storage Kd K0 Kf1 φ)
        (Kd + 4 / 3 * G + biotCoef Kd K0 ^ 2 * storage Kd K0 Kf2 φ) 0 s ^ 2
        * wC (Kd + 4 / 3 * G) 0 (biotCoef Kd K0) (storage Kd K0 Kf1 φ) (storage Kd K0 Kf2 φ) a s = kc at *
    have hkc : 0 < kc := by rw [← hkk]; positivity
    have hd := r1.div r2 (mul_ne_zero (ofReal_ne_zero.mpr (by positivity)) hu)
    generalize (1 - s) * (Kd / (Kd + 4 / 3 * G) * ((Kd + 4 / 3 * G + biotCoef Kd K0 ^ 2 * storage Kd K0 Kf1 φ)
        / (Kd + biotCoef Kd K0 ^ 2 * storage Kd K0 Kf1 φ)))
      + s * (Kd / (Kd + 4 / 3 * G) * ((Kd + 4 / 3 * G + biotCoef Kd K0 ^ 2 * storage Kd K0 Kf2 φ)
        / (Kd + biotCoef Kd K0 ^ 2 * storage Kd K0 Kf2 φ))) = t at *
    have e : ((t * kc / n1 : ℝ) * ((1 + I) / (I * √(2 / κ))) / ((kc / n2 : ℝ) * ((1 + I) / (I * √(2 / κ)))) : ℂ)
        = ((t * (n2 / n1) : ℝ) : ℂ) := by
      rw [mul_div_mul_right _ _ hu, ← ofReal_div]
      congr 1
      field
    rw [e] at hd
    refine hd.congr' ?_
    filter_upwards [eventually_gt_atTop (0 : ℝ)] with f hf
    have hω : 0 < 2 * Real.pi * f := by positivity
    have hs : (√(2 * Real.pi * f) : ℂ) ≠ 0 := ofReal_ne_zero.mpr (Real.sqrt_pos.mpr hω).ne'
    simp only [Function.comp_apply, Pi.div_apply]
    rw [mul_div_mul_left _ _ hs, hp.stiff_inf]
    push_cast
    congr 1
    ring

theorem rate_ratio_lt {t1 t2 s x1 x2 y1 y2 : ℝ} (ht1 : 0 < t1) (ht2 : 0 < t2) (h11 : t1 < 1) (h22 : t2 < 1)
    (h12 : t1 ^ 2 < t2) (h21 : t2 ^ 2 < t1) (hs : 0 < s) (hs1 : s < 1) (hx1 : 0 < x1) (hx2 : 0 < x2)
    (e1 : x1 = t1 * y1) (e2 : x2 = t2 * y2) :
    ((1 - s) * t1 + s * t2) * ((√y1 + √y2) / (√x1 + √x2)) < 1 := by
  have a1 : 0 < √x1 := Real.sqrt_pos.mpr hx1
  have a2 : 0 < √x2 := Real.sqrt_pos.mpr hx2
  have hy1 : 0 < y1 := pos_of_mul_pos_right (e1 ▸ hx1) ht1.le
  have hy2 : 0 < y2 := pos_of_mul_pos_right (e2 ▸ hx2) ht2.le
  have key : ∀ {t u y : ℝ}, 0 < t → 0 < u → 0 < y → t ^ 2 < u → t * √y < √(u * y) := by
    intro t u y ht hu hy h
    apply Real.lt_sqrt_of_sq_lt
    rw [mul_pow, Real.sq_sqrt hy.le]
    exact mul_lt_mul_of_pos_right h hy
  have k11 := key ht1 ht1 hy1 (by nlinarith)
  have k21 := key ht2 ht1 hy1 h21
  have k12 := key ht1 ht2 hy2 h12
  have k22 := key ht2 ht2 hy2 (by nlinarith)
  rw [← e1] at k11 k21
  rw [← e2] at k12 k22
  rw [← mul_div_assoc, div_lt_one (by positivity)]
  nlinarith [mul_lt_mul_of_pos_left k11 (sub_pos.mpr hs1), mul_lt_mul_of_pos_left k12 (sub_pos.mpr hs1),
    mul_lt_mul_of_pos_left k21 hs, mul_lt_mul_of_pos_left k22 hs]

/-- A rigid frame and two fluids that are not too different: at all high enough frequencies the modulus
that `White_Dutta_Ode` returns is closer to the limit than that of the cell, so it is not the modulus
of the cell. -/
theorem C104_rigid_frame (h : PatchRock Kd G K0 φ ρ0 ρ1 ρ2 Kf1 Kf2 η1 η2 κ a s)
    (hb : 0 < b) (hab : a ^ 3 = s * b ^ 3) (hne : Kf1 ≠ Kf2) (hG : 0 < G) {K1 K2 : ℝ}
    (hK1 : Gassmann (fin Kd) (fin G) (fin K0) (fin Kf1) (fin φ) = (fin K1, fin G))
    (hK2 : Gassmann (fin Kd) (fin G) (fin K0) (fin Kf2) (fin φ) = (fin K2, fin G))
    (h12 : (Kd / (Kd + 4 / 3 * G) * ((K1 + 4 / 3 * G) / K1)) ^ 2
      < Kd / (Kd + 4 / 3 * G) * ((K2 + 4 / 3 * G) / K2))
    (h21 : (Kd / (Kd + 4 / 3 * G) * ((K2 + 4 / 3 * G) / K2)) ^ 2
      < Kd / (Kd + 4 / 3 * G) * ((K1 + 4 / 3 * G) / K1)) :
    ∃ Kh : ℝ, 1 / (Kh + 4 / 3 * G) = s / (K1 + 4 / 3 * G) + (1 - s) / (K2 + 4 / 3 * G) ∧
    ∀ᶠ f in atTop, ∃ K M : ℂ,
      (White_Dutta_Ode (fin Kd) (fin G) (fin K0) (fin φ) (fin ρ0) (fin ρ1) (fin ρ2) (fin Kf1)
        (fin Kf2) (fin η1) (fin η2) (fin κ) (fin a) (fin s) (fin f)).2.2 = ⟨fin K.re, fin K.im⟩ ∧
      CellModulus Kd G (biotCoef Kd K0) (storage Kd K0 Kf1 φ) (storage Kd K0 Kf2 φ) η1 η2 κ a b
        (2 * Real.pi * f) M ∧
      ‖Kh - K‖ < ‖Kh - M‖ ∧
      ¬ CellModulus Kd G (biotCoef Kd K0) (storage Kd K0 Kf1 φ) (storage Kd K0 Kf2 φ) η1 η2 κ a b
        (2 * Real.pi * f) K := by
  have hp := toPatch h
  obtain ⟨K1', K2', Kh, K, M, g1, g2, hh, hK, hM, hl⟩ := C104_high_frequency h hb hab hne
  obtain rfl : K1' = K1 := by simpa using g1.symm.trans hK1
  obtain rfl : K2' = K2 := by simpa using g2.symm.trans hK2
  have h0 := GassmannRock.mineral_pos h.inner
  have q1 := Gassmann_eval h0.ne' h.inner.fluid_pos.ne' (GassmannRock.gB_pos h.inner).ne' (fin G)
  have q2 := Gassmann_eval h0.ne' h.outer.fluid_pos.ne' (GassmannRock.gB_pos h.outer).ne' (fin G)
  rw [gK_storage h.inner] at q1
  rw [gK_storage h.outer] at q2
  have eK1 : K1' = Kd + biotCoef Kd K0 ^ 2 * storage Kd K0 Kf1 φ := by simpa using g1.symm.trans q1
  have eK2 : K2' = Kd + biotCoef Kd K0 ^ 2 * storage Kd K0 Kf2 φ := by simpa using g2.symm.trans q2
  refine ⟨Kh, hh, ?_⟩
  have hS1 := hp.s1
  have hS2 := hp.s2
  have hβ := hp.beta
  have hKd := hp.dry
  have hη1 := h.visc1
  have hη2 := h.visc2
  have b1 : 0 < biotCoef Kd K0 ^ 2 * storage Kd K0 Kf1 φ := by positivity
  have b2 : 0 < biotCoef Kd K0 ^ 2 * storage Kd K0 Kf2 φ := by positivity
  have p1 : Kd < K1' := by rw [eK1]; linarith
  have p2 : Kd < K2' := by rw [eK2]; linarith
  have k1 : 0 < K1' := hKd.trans p1
  have k2 : 0 < K2' := hKd.trans p2
  have hr := rate_ratio_lt (t1 := Kd / (Kd + 4 / 3 * G) * ((K1' + 4 / 3 * G) / K1'))
    (t2 := Kd / (Kd + 4 / 3 * G) * ((K2' + 4 / 3 * G) / K2')) (s := s)
    (x1 := η1 * fillModulus (storage Kd K0 Kf1 φ) Kd K1')
    (x2 := η2 * fillModulus (storage Kd K0 Kf2 φ) Kd K2')
    (y1 := η1 * fillModulus (storage Kd K0 Kf1 φ) (Kd + 4 / 3 * G) (K1' + 4 / 3 * G))
    (y2 := η2 * fillModulus (storage Kd K0 Kf2 φ) (Kd + 4 / 3 * G) (K2' + 4 / 3 * G))
    (by positivity) (by positivity)
    (by rw [div_mul_div_comm, div_lt_one (by positivity)]; nlinarith)
    (by rw [div_mul_div_comm, div_lt_one (by positivity)]; nlinarith) h12 h21 h.sat h.sat_lt
    (by unfold fillModulus; positivity) (by unfold fillModulus; positivity)
    (by unfold fillModulus; field) (by unfold fillModulus; field)
  have hr0 : 0 < ((1 - s) * (Kd / (Kd + 4 / 3 * G) * ((K1' + 4 / 3 * G) / K1'))
          + s * (Kd / (Kd + 4 / 3 * G) * ((K2' + 4 / 3 * G) / K2')))
        * ((√(η1 * fillModulus (storage Kd K0 Kf1 φ) (Kd + 4 / 3 * G) (K1' + 4 / 3 * G))
            + √(η2 * fillModulus (storage Kd K0 Kf2 φ) (Kd + 4 / 3 * G) (K2' + 4 / 3 * G)))
          / (√(η1 * fillModulus (storage Kd K0 Kf1 φ) Kd K1')
            + √(η2 * fillModulus (storage Kd K0 Kf2 φ) Kd K2'))) := by
    unfold fillModulus
    have := h.sat
    have : 0 < 1 - s := sub_pos.mpr h.sat_lt
    have f1 : 0 < √(η1 * (storage Kd K0 Kf1 φ * (Kd + 4 / 3 * G) / (K1' + 4 / 3 * G))) :=
      Real.sqrt_pos.mpr (by positivity)
    have f2 : 0 < √(η1 * (storage Kd K0 Kf1 φ * Kd / K1')) := Real.sqrt_pos.mpr (by positivity)
    positivity
  generalize ((1 - s) * (Kd / (Kd + 4 / 3 * G) * ((K1' + 4 / 3 * G) / K1'))
          + s * (Kd / (Kd + 4 / 3 * G) * ((K2' + 4 / 3 * G) / K2')))
        * ((√(η1 * fillModulus (storage Kd K0 Kf1 φ) (Kd + 4 / 3 * G) (K1' + 4 / 3 * G))
            + √(η2 * fillModulus (storage Kd K0 Kf2 φ) (Kd + 4 / 3 * G) (K2' + 4 / 3 * G)))
          / (√(η1 * fillModulus (storage Kd K0 Kf1 φ) Kd K1')
            + √(η2 * fillModulus (storage Kd K0 Kf2 φ) Kd K2'))) = r at *
  have hn := hl.norm
  rw [norm_real, Real.norm_of_nonneg hr0.le] at hn
  filter_upwards [eventually_gt_atTop (0 : ℝ), hn.eventually_lt_const hr, hn.eventually_const_lt hr0]
    with f hf hlt hgt
  rw [norm_div] at hlt hgt
  have hpos : 0 < ‖Kh - M f‖ := by
    refine (norm_nonneg _).lt_of_ne fun h0 => ?_
    rw [← h0, div_zero] at hgt
    exact lt_irrefl _ hgt
  rw [div_lt_one hpos] at hlt
  refine ⟨K f, M f, hK f hf, hM f hf, hlt, fun hc => ?_⟩
  rw [CellModulus.unique hb.ne' hc (hM f hf)] at hlt
  exact lt_irrefl _ hlt

/-- A sandstone with oil and water: the hypotheses of `C104_rigid_frame` hold. -/
example : ∃ K1 K2 : ℝ,
    PatchRock 10 10 40 (1 / 5) 2.65 1 0.8 2 1 1 2 1 1 (1 / 8) ∧ (1 : ℝ) ^ 3 = 1 / 8 * 2 ^ 3 ∧
    Gassmann (fin 10) (fin 10) (fin 40) (fin 2) (fin (1 / 5)) = (fin K1, fin 10) ∧
    Gassmann (fin 10) (fin 10) (fin 40) (fin 1) (fin (1 / 5)) = (fin K2, fin 10) ∧
    (10 / (10 + 4 / 3 * 10) * ((K1 + 4 / 3 * 10) / K1)) ^ 2
      < 10 / (10 + 4 / 3 * 10) * ((K2 + 4 / 3 * 10) / K2) ∧
    (10 / (10 + 4 / 3 * 10) * ((K2 + 4 / 3 * 10) / K2)) ^ 2
      < 10 / (10 + 4 / 3 * 10) * ((K1 + 4 / 3 * 10) / K1) := by
  have hB1 : gB 10 40 2 (1 / 5) = 182 := by unfold gB; norm_num
  have hB2 : gB 10 40 1 (1 / 5) = 342 := by unfold gB; norm_num
  refine ⟨_, _, ⟨⟨?_, ?_, ?_, ?_, ?_⟩, ⟨?_, ?_, ?_, ?_, ?_⟩, ?_, ?_, ?_, ?_, ?_, ?_, ?_, ?_, ?_⟩, ?_,
    Gassmann_eval (by norm_num) (by norm_num) (by rw [hB1]; norm_num) _,
    Gassmann_eval (by norm_num) (by norm_num) (by rw [hB2]; norm_num) _, ?_, ?_⟩ <;>
    first
    | (unfold gK; rw [hB1, hB2]; norm_num)
    | norm_num

end RockPhy.Props
