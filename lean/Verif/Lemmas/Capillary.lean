import Verif.Spec.Capillary
import Mathlib.Analysis.Calculus.MeanValue
import Mathlib.Analysis.Calculus.Deriv.Pow
import Mathlib.Analysis.SpecialFunctions.Integrals.Basic
import Mathlib.MeasureTheory.Integral.IntervalIntegral.FundThmCalculus

/-! Poiseuille flow in tubes and slits. -/

namespace RockPhy

open Spec Set Filter Topology MeasureTheory

/-- A function that differs from a continuous one by a constant on an open interval does so up to an
end point. -/
theorem eq_of_eqOn_Ioo {f g : ℝ → ℝ} {lo hi x : ℝ} (hlt : lo < hi) (hx : x ∈ Icc lo hi)
    (hf : ContinuousOn f (Icc lo hi)) (hg : ContinuousOn g (Icc lo hi))
    (he : ∀ r ∈ Ioo lo hi, f r = g r) : f x = g x := by
  have hcl : x ∈ closure (Ioo lo hi) := by rw [closure_Ioo hlt.ne]; exact hx
  have : (𝓝[Ioo lo hi] x).NeBot := mem_closure_iff_nhdsWithin_neBot.mp hcl
  have t1 := (hf x hx).mono_left (nhdsWithin_mono x Ioo_subset_Icc_self)
  have t2 := (hg x hx).mono_left (nhdsWithin_mono x Ioo_subset_Icc_self)
  refine tendsto_nhds_unique (t1.congr' ?_) t2
  filter_upwards [self_mem_nhdsWithin] with r hr using he r hr

theorem const_of_hasDerivAt_zero {f : ℝ → ℝ} {lo hi : ℝ} (hlt : lo < hi)
    (hf : ∀ r ∈ Ioo lo hi, HasDerivAt f 0 r) : ∃ c, ∀ r ∈ Ioo lo hi, f r = c := by
  have hm : (lo + hi) / 2 ∈ Ioo lo hi := ⟨by linarith, by linarith⟩
  refine ⟨f ((lo + hi) / 2), fun r hr => ?_⟩
  exact isOpen_Ioo.is_const_of_deriv_eq_zero isPreconnected_Ioo
    (fun x hx => (hf x hx).differentiableAt.differentiableWithinAt)
    (fun x hx => (hf x hx).deriv) hr hm

theorem tubeFlow_profile {R g η : ℝ} {v : ℝ → ℝ} (hR : 0 < R) (hη : 0 < η)
    (h : TubeFlow R g η v) : ∀ r ∈ Icc 0 R, v r = g * (R ^ 2 - r ^ 2) / (4 * η) := by
  obtain ⟨s, cv, cs, hw, hd⟩ := h
  obtain ⟨c, hc⟩ := const_of_hasDerivAt_zero (f := fun x => η * x * s x + g * x ^ 2 / 2) hR
    (fun r hr => by
      have d := (hd r hr).2.add ((((hasDerivAt_id r).pow 2).const_mul g).div_const 2)
      refine d.congr_deriv ?_
      simp only [id]
      ring)
  have c0 : c = 0 := by
    have := eq_of_eqOn_Ioo (f := fun x => η * x * s x + g * x ^ 2 / 2) (g := fun _ => c) hR
      (left_mem_Icc.mpr hR.le)
      (((continuousOn_const.mul continuousOn_id).mul cs).add (by fun_prop)) continuousOn_const hc
    simpa using this.symm
  have hs : ∀ r ∈ Ioo 0 R, s r = -(g * r / (2 * η)) := by
    intro r hr
    have := hc r hr
    rw [c0] at this
    have r0 := hr.1.ne'
    have e : η * r * (s r + g * r / (2 * η)) = 0 := by
      rw [← this]; field
    have := (mul_eq_zero.mp e).resolve_left (by positivity)
    linarith
  obtain ⟨k, hk⟩ := const_of_hasDerivAt_zero (f := fun x => v x + g * x ^ 2 / (4 * η)) hR
    (fun r hr => by
      have d := (hd r hr).1.add ((((hasDerivAt_id r).pow 2).const_mul g).div_const (4 * η))
      refine d.congr_deriv ?_
      rw [hs r hr]
      simp only [id]
      field)
  have all : ∀ r ∈ Icc 0 R, v r + g * r ^ 2 / (4 * η) = k := fun r hr =>
    eq_of_eqOn_Ioo (f := fun x => v x + g * x ^ 2 / (4 * η)) (g := fun _ => k) hR hr
      (cv.add (by fun_prop)) continuousOn_const hk
  intro r hr
  have e1 := all r hr
  have e2 := all R (right_mem_Icc.mpr hR.le)
  rw [hw] at e2
  rw [eq_sub_of_add_eq e1, ← e2]
  field

/-- Hagen and Poiseuille's law. -/
theorem tubeFlux_eq {R g η : ℝ} {v : ℝ → ℝ} (hR : 0 < R) (hη : 0 < η) (h : TubeFlow R g η v) :
    tubeFlux R v = Real.pi * g * R ^ 4 / (8 * η) := by
  have hp := tubeFlow_profile hR hη h
  unfold tubeFlux
  have e : ∫ r in 0..R, v r * (2 * Real.pi * r)
      = ∫ r in 0..R, (Real.pi * g * R ^ 2 / (2 * η) * r - Real.pi * g / (2 * η) * r ^ 3) := by
    refine intervalIntegral.integral_congr fun r hr => ?_
    rw [uIcc_of_le hR.le] at hr
    simp only [hp r hr]
    field
  rw [e, intervalIntegral.integral_sub (by apply Continuous.intervalIntegrable; fun_prop)
    (by apply Continuous.intervalIntegrable; fun_prop), intervalIntegral.integral_const_mul,
    intervalIntegral.integral_const_mul, integral_id, integral_pow]
  field_simp
  ring

theorem tubeFlow_exists {R g η : ℝ} (hη : 0 < η) :
    TubeFlow R g η fun r => g * (R ^ 2 - r ^ 2) / (4 * η) := by
  refine ⟨fun r => -(g * r / (2 * η)), by fun_prop, by fun_prop, by simp, fun r hr => ⟨?_, ?_⟩⟩
  · have d := ((((hasDerivAt_id r).pow 2).const_sub (R ^ 2)).const_mul g).div_const (4 * η)
    refine d.congr_deriv ?_
    simp only [id]
    field
  · have d := (((hasDerivAt_id r).pow 2).const_mul (-g)).div_const 2
    have d' : HasDerivAt (fun x : ℝ => -g * x ^ 2 / 2) (-g * r) r :=
      d.congr_deriv (by simp only [id]; ring)
    refine d'.congr_of_eventuallyEq (.of_forall fun x => ?_)
    simp only
    field

theorem slitFlow_profile {w g η : ℝ} {v : ℝ → ℝ} (hw : 0 < w) (hη : 0 < η)
    (h : SlitFlow w g η v) :
    ∀ x ∈ Icc (-w / 2) (w / 2), v x = g * (w ^ 2 / 4 - x ^ 2) / (2 * η) := by
  obtain ⟨s, cv, hl, hr, hd⟩ := h
  have hlt : -w / 2 < w / 2 := by linarith
  obtain ⟨c, hc⟩ := const_of_hasDerivAt_zero (f := fun x => η * s x + g * x) hlt
    (fun x hx => by
      have d := (hd x hx).2.add ((hasDerivAt_id x).const_mul g)
      exact d.congr_deriv (by ring))
  have hs : ∀ x ∈ Ioo (-w / 2) (w / 2), s x = (c - g * x) / η := by
    intro x hx
    rw [eq_div_iff hη.ne', ← hc x hx]
    ring
  obtain ⟨k, hk⟩ := const_of_hasDerivAt_zero
    (f := fun x => v x + g * x ^ 2 / (2 * η) - c / η * x) hlt
    (fun x hx => by
      have d := ((hd x hx).1.add ((((hasDerivAt_id x).pow 2).const_mul g).div_const (2 * η))).sub
        ((hasDerivAt_id x).const_mul (c / η))
      refine d.congr_deriv ?_
      rw [hs x hx]
      simp only [id]
      field)
  have all : ∀ x ∈ Icc (-w / 2) (w / 2), v x + g * x ^ 2 / (2 * η) - c / η * x = k :=
    fun x hx => eq_of_eqOn_Ioo (f := fun x => v x + g * x ^ 2 / (2 * η) - c / η * x)
      (g := fun _ => k) hlt hx ((cv.add (by fun_prop)).sub (by fun_prop)) continuousOn_const hk
  intro x hx
  have e1 := all x hx
  have e2 := all (w / 2) (right_mem_Icc.mpr hlt.le)
  have e3 := all (-w / 2) (left_mem_Icc.mpr hlt.le)
  rw [hr] at e2
  rw [hl] at e3
  have hcη : c / η * w = 0 := by linear_combination e3 - e2
  have hc0 : c / η = 0 := (mul_eq_zero.mp hcη).resolve_right hw.ne'
  rw [hc0] at e1 e2
  have : v x = k - g * x ^ 2 / (2 * η) := by linarith
  rw [this, ← e2]
  ring

theorem slitFlux_eq {w g η : ℝ} {v : ℝ → ℝ} (hw : 0 < w) (hη : 0 < η) (h : SlitFlow w g η v) :
    slitFlux w v = g * w ^ 3 / (12 * η) := by
  have hp := slitFlow_profile hw hη h
  unfold slitFlux
  have e : ∫ x in (-w / 2)..(w / 2), v x
      = ∫ x in (-w / 2)..(w / 2), (g * w ^ 2 / (8 * η) - g / (2 * η) * x ^ 2) := by
    refine intervalIntegral.integral_congr fun x hx => ?_
    rw [uIcc_of_le (by linarith)] at hx
    simp only [hp x hx]
    field
  rw [e, intervalIntegral.integral_sub (by apply Continuous.intervalIntegrable; fun_prop)
    (by apply Continuous.intervalIntegrable; fun_prop), intervalIntegral.integral_const_mul,
    intervalIntegral.integral_const, integral_pow]
  simp only [smul_eq_mul]
  field_simp
  ring

theorem slitFlow_exists {w g η : ℝ} (hη : 0 < η) :
    SlitFlow w g η fun x => g * (w ^ 2 / 4 - x ^ 2) / (2 * η) := by
  refine ⟨fun x => -(g * x / η), by fun_prop, by ring, by ring, fun x hx => ⟨?_, ?_⟩⟩
  · have d := ((((hasDerivAt_id x).pow 2).const_sub (w ^ 2 / 4)).const_mul g).div_const (2 * η)
    refine d.congr_deriv ?_
    simp only [id]
    field
  · have d := (hasDerivAt_id x).const_mul (-g)
    have d' : HasDerivAt (fun y : ℝ => -g * y) (-g) x := d.congr_deriv (by ring)
    refine d'.congr_of_eventuallyEq (.of_forall fun y => ?_)
    simp only
    field

/-- The permeability of a bundle of tubes from its porosity, surface and tortuosity. -/
theorem Spec.TubeBundle.permeability (b : TubeBundle) (k : ℝ) :
    b.IsPermeability k ↔ k = b.porosity ^ 3 / (2 * b.τ ^ 2 * b.surface ^ 2) := by
  have hn := b.n_pos
  have hR := b.R_pos
  have ht := b.τ_pos
  have hpi := Real.pi_pos
  have e : b.porosity ^ 3 / (2 * b.τ ^ 2 * b.surface ^ 2)
      = b.n * Real.pi * b.R ^ 4 / (8 * b.τ) := by
    unfold TubeBundle.porosity TubeBundle.surface
    field_simp
    ring
  rw [e]
  constructor
  · intro h
    have := h 1 1 one_pos _ (tubeFlow_exists one_pos)
    rw [tubeFlux_eq hR one_pos (tubeFlow_exists one_pos)] at this
    rw [show k = k * 1 / 1 by ring, ← this]
    field
  · rintro rfl G η hη v hv
    rw [tubeFlux_eq hR hη hv]
    field

theorem Spec.SlitBundle.permeability (b : SlitBundle) (k : ℝ) :
    b.IsPermeability k ↔ k = b.porosity ^ 3 / (3 * b.τ ^ 2 * b.surface ^ 2) := by
  have hn := b.n_pos
  have hR := b.w_pos
  have ht := b.τ_pos
  have e : b.porosity ^ 3 / (3 * b.τ ^ 2 * b.surface ^ 2) = b.n * b.w ^ 3 / (12 * b.τ) := by
    unfold SlitBundle.porosity SlitBundle.surface
    field_simp
    ring
  rw [e]
  constructor
  · intro h
    have := h 1 1 one_pos _ (slitFlow_exists one_pos)
    rw [slitFlux_eq hR one_pos (slitFlow_exists one_pos)] at this
    rw [show k = k * 1 / 1 by ring, ← this]
    field
  · rintro rfl G η hη v hv
    rw [slitFlux_eq hR hη hv]
    field

/-- Second and third moment of the diameters. -/
theorem Spec.SizeDistribution.moments {μ : Measure ℝ} {d C γ : ℝ} (h : SizeDistribution μ d C γ) :
    ∫ D, D ^ 2 ∂μ = d ^ 2 * (1 + C ^ 2) ∧
      ∫ D, D ^ 3 ∂μ = d ^ 3 * (1 + 3 * C ^ 2 + γ * C ^ 3) ∧ 0 < ∫ D, D ^ 3 ∂μ := by
  have := h.prob
  have hm : AEStronglyMeasurable (fun D : ℝ => D) μ := measurable_id.aestronglyMeasurable
  have i3 := h.finite
  have bound : Integrable (fun D : ℝ => 1 + ‖D ^ 3‖) μ := (integrable_const 1).add i3.norm
  have i1 : Integrable (fun D : ℝ => D) μ := by
    refine bound.mono' hm (.of_forall fun D => ?_)
    rw [norm_pow, Real.norm_eq_abs]
    have := abs_nonneg D
    nlinarith [sq_nonneg (|D| - 1), mul_nonneg this (sq_nonneg (|D| - 1))]
  have i2 : Integrable (fun D : ℝ => D ^ 2) μ := by
    refine bound.mono' (hm.pow 2) (.of_forall fun D => ?_)
    rw [norm_pow, norm_pow, Real.norm_eq_abs]
    have := abs_nonneg D
    nlinarith [sq_nonneg (|D| - 1), mul_nonneg this (sq_nonneg (|D| - 1))]
  have e2 : ∫ D, D ^ 2 ∂μ = d ^ 2 * (1 + C ^ 2) := by
    have s := h.spread
    have : ∫ D, (D - d) ^ 2 ∂μ = ∫ D, D ^ 2 ∂μ - d ^ 2 := by
      have : ∀ D : ℝ, (D - d) ^ 2 = D ^ 2 - 2 * d * D + d ^ 2 := fun D => by ring
      simp only [this]
      have j1 : Integrable (fun D : ℝ => 2 * d * D) μ := i1.const_mul _
      have j2 : Integrable (fun D : ℝ => D ^ 2 - 2 * d * D) μ := i2.sub j1
      rw [integral_add j2 (integrable_const _), integral_sub i2 j1, integral_const_mul, h.mean]
      simp
      ring
    rw [this] at s
    linear_combination s
  refine ⟨e2, ?_, ?_⟩
  · have s := h.skew
    have : ∫ D, (D - d) ^ 3 ∂μ = ∫ D, D ^ 3 ∂μ - 3 * d * ∫ D, D ^ 2 ∂μ + 2 * d ^ 3 := by
      have : ∀ D : ℝ, (D - d) ^ 3 = D ^ 3 - 3 * d * D ^ 2 + 3 * d ^ 2 * D - d ^ 3 :=
        fun D => by ring
      simp only [this]
      have j1 : Integrable (fun D : ℝ => 3 * d ^ 2 * D) μ := i1.const_mul _
      have j2 : Integrable (fun D : ℝ => 3 * d * D ^ 2) μ := i2.const_mul _
      have j3 : Integrable (fun D : ℝ => D ^ 3 - 3 * d * D ^ 2) μ := i3.sub j2
      have j4 : Integrable (fun D : ℝ => D ^ 3 - 3 * d * D ^ 2 + 3 * d ^ 2 * D) μ := j3.add j1
      rw [integral_sub j4 (integrable_const _), integral_add j3 j1, integral_sub i3 j2,
        integral_const_mul, integral_const_mul, h.mean]
      simp
      ring
    rw [this, e2] at s
    linear_combination s
  · rw [integral_pos_iff_support_of_nonneg_ae]
    · have : Function.support (fun D : ℝ => D ^ 3) =ᵐ[μ] univ := by
        filter_upwards [h.positive] with D hD
        exact propext ⟨fun _ => trivial, fun _ => pow_ne_zero 3 hD.ne'⟩
      rw [measure_congr this]
      simp
    · filter_upwards [h.positive] with D hD
      exact pow_nonneg hD.le 3
    · exact i3

end RockPhy
