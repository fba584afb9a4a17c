import Verif.Lemmas.Capillary
import Verif.Props.Perm
import Mathlib.MeasureTheory.Integral.Bochner.Set
import Mathlib.MeasureTheory.Measure.Dirac

/-! # Property C94: permeabilities derived from viscous flow

`Spec/Capillary.lean` defines steady flow in tubes and slits, the permeability of a rock made of
them, and the surface of a pack of spherical grains. -/

namespace RockPhy.Props

open Fl Permeability Spec MeasureTheory

/-- Surface of the pack in terms of the mean, spread and skewness of the diameters. -/
theorem grainSurface_eq {μ : Measure ℝ} {d C γ φ S : ℝ} (h : SizeDistribution μ d C γ)
    (hS : GrainSurface μ φ S) :
    S * (d ^ 3 * (1 + 3 * C ^ 2 + γ * C ^ 3)) = 6 * (1 - φ) * (d ^ 2 * (1 + C ^ 2)) := by
  obtain ⟨N, h1, h2⟩ := hS
  obtain ⟨m2, m3, -⟩ := h.moments
  have e3 : ∫ D, Real.pi * D ^ 3 / 6 ∂μ = Real.pi / 6 * ∫ D, D ^ 3 ∂μ := by
    rw [← integral_const_mul]; congr 1; ext D; ring
  rw [e3, m3] at h1
  rw [integral_const_mul, m2] at h2
  rw [h2, ← h1]
  ring

/-- C94: `Panda_Lake` is the permeability of a bundle of round tubes which has the porosity of the
pack and the surface of its grains.  `tau` is the square of the relative length of the tubes. -/
theorem C94_panda_lake {μ : Measure ℝ} {d C γ φ : ℝ} {b : TubeBundle}
    (h : SizeDistribution μ d C γ) (hd : 0 < d) (hφ : φ < 1) (hp : b.porosity = φ)
    (hs : GrainSurface μ φ b.surface) :
    ∃ k : ℝ, Panda_Lake (fin d) (fin C) (fin γ) (fin (b.τ ^ 2)) (fin φ) = fin k ∧
      b.IsPermeability k := by
  have hτ := b.τ_pos
  have hq : 0 < 1 - φ := by linarith
  have hC : 0 < 1 + C ^ 2 := by positivity
  have hm : 0 < 1 + 3 * C ^ 2 + γ * C ^ 3 := by
    obtain ⟨-, m3, m0⟩ := h.moments
    rw [m3] at m0
    exact pos_of_mul_pos_right m0 (by positivity)
  have e := grainSurface_eq h hs
  have hS : b.surface = 6 * (1 - φ) * (1 + C ^ 2) / (d * (1 + 3 * C ^ 2 + γ * C ^ 3)) := by
    rw [eq_div_iff (by positivity)]
    refine mul_right_cancel₀ (pow_ne_zero 2 hd.ne') ?_
    linear_combination e
  refine ⟨d ^ 2 * φ ^ 3 * (C ^ 3 * γ + 3 * C ^ 2 + 1) ^ 2
      / (72 * b.τ ^ 2 * (1 - φ) ^ 2 * (C ^ 2 + 1) ^ 2), ?_, (b.permeability _).mpr ?_⟩
  · have n : 72 * b.τ ^ 2 * (1 - φ) ^ 2 * (C ^ 2 + 1) ^ 2 ≠ 0 := by positivity
    unfold Panda_Lake
    fl_eval []
  · rw [hp, hS, show C ^ 3 * γ + 3 * C ^ 2 + 1 = 1 + 3 * C ^ 2 + γ * C ^ 3 by ring,
      show C ^ 2 + 1 = 1 + C ^ 2 by ring]
    generalize 1 + 3 * C ^ 2 + γ * C ^ 3 = m at *
    generalize 1 + C ^ 2 = c at *
    generalize 1 - φ = q at *
    generalize b.τ = t at *
    field_simp
    ring

theorem dirac_sizes {d : ℝ} (hd : 0 < d) : SizeDistribution (Measure.dirac d) d 0 0 where
  prob := inferInstance
  positive := by rw [ae_dirac_eq]; exact hd
  finite := integrable_dirac (by simp)
  mean := by simp
  spread := by simp
  skew := by simp

/-- C94: `Kozeny_Carman` is the permeability of a bundle of tubes of squared tortuosity 2.5 which has
the porosity and the surface of a pack of equal spheres of diameter `d`; and only of such a
tortuosity. -/
theorem C94_kozeny_carman {d φ : ℝ} {b : TubeBundle} (hd : 0 < d) (hφ : φ < 1)
    (hp : b.porosity = φ) (hs : GrainSurface (Measure.dirac d) φ b.surface) :
    ∃ k : ℝ, Kozeny_Carman (fin φ) (fin d) = fin k ∧ (b.IsPermeability k ↔ b.τ ^ 2 = 2.5) := by
  have hτ := b.τ_pos
  have hq : 0 < 1 - φ := by linarith
  have hp0 : 0 < φ := by
    rw [← hp]
    have := b.n_pos; have := b.R_pos; have := Real.pi_pos
    unfold TubeBundle.porosity; positivity
  have e := grainSurface_eq (dirac_sizes hd) hs
  have hS : b.surface = 6 * (1 - φ) / d := by
    rw [eq_div_iff hd.ne']
    refine mul_right_cancel₀ (pow_ne_zero 2 hd.ne') ?_
    linear_combination e
  refine ⟨_, C58_kozeny_carman hφ.ne, ?_⟩
  rw [b.permeability, hp, hS]
  have e1 : φ ^ 3 / (2 * b.τ ^ 2 * (6 * (1 - φ) / d) ^ 2)
      = d ^ 2 * φ ^ 3 / (72 * b.τ ^ 2 * (1 - φ) ^ 2) := by
    generalize 1 - φ = q at *
    generalize b.τ = t at *
    field_simp
    ring
  have hX : (d ^ 2 * φ ^ 3 * (1 - φ) ^ 2) ≠ 0 := by positivity
  rw [e1, div_eq_div_iff (by positivity) (by positivity)]
  constructor
  · intro h
    have : d ^ 2 * φ ^ 3 * (1 - φ) ^ 2 * (72 * b.τ ^ 2 - 180) = 0 := by linear_combination h
    have := (mul_eq_zero.mp this).resolve_left hX
    norm_num
    linarith
  · intro h
    rw [h]; norm_num

/-- C94: `Bernabe` is the sum of the permeabilities of the cracks and of the tubes, each of squared
tortuosity 2.5 and carrying its part of the porosity. -/
theorem C94_bernabe {φ c : ℝ} {s : SlitBundle} {t : TubeBundle} (hs : s.porosity = c * φ)
    (ht : t.porosity = (1 - c) * φ) (hsτ : s.τ ^ 2 = 2.5) (htτ : t.τ ^ 2 = 2.5) :
    ∃ k₁ k₂ : ℝ, s.IsPermeability k₁ ∧ t.IsPermeability k₂ ∧
      Bernabe (fin φ) (fin c) (fin s.w) (fin t.R) = fin (k₁ + k₂) := by
  refine ⟨_, _, (s.permeability _).mpr rfl, (t.permeability _).mpr rfl, ?_⟩
  rw [(C65_mixture φ c s.w t.R).1]
  have a1 := s.n_pos; have a2 := s.w_pos; have a3 := s.τ_pos
  have b1 := t.n_pos; have b2 := t.R_pos; have b3 := t.τ_pos; have hpi := Real.pi_pos
  have e1 : s.porosity ^ 3 / (3 * s.τ ^ 2 * s.surface ^ 2)
      = s.porosity * s.w ^ 2 / (12 * s.τ ^ 2) := by
    unfold SlitBundle.porosity SlitBundle.surface
    field_simp
    ring
  have e2 : t.porosity ^ 3 / (2 * t.τ ^ 2 * t.surface ^ 2)
      = t.porosity * t.R ^ 2 / (8 * t.τ ^ 2) := by
    unfold TubeBundle.porosity TubeBundle.surface
    field_simp
    ring
  rw [e1, e2, hs, ht, hsτ, htτ]
  exact congrArg fin (by norm_num; ring)

/-- C94: `Fredrich` with shape factor 2 has the form of the permeability of a bundle of tubes, and
with shape factor 3 that of a bundle of slits, but since its surface is proportional to the grain
diameter it is the permeability only for the diameter 1. -/
theorem C94_fredrich {d φ : ℝ} (hd : 0 < d) (hφ : φ < 1) :
    (∀ b : TubeBundle, b.porosity = φ → b.τ ^ 2 = 2.5 →
      GrainSurface (Measure.dirac d) φ b.surface →
      ∃ k : ℝ, Fredrich (fin φ) (fin d) (fin 2) = fin k ∧ b.IsPermeability (d ^ 4 * k) ∧
        (b.IsPermeability k ↔ d = 1)) ∧
    (∀ b : SlitBundle, b.porosity = φ → b.τ ^ 2 = 2.5 →
      GrainSurface (Measure.dirac d) φ b.surface →
      ∃ k : ℝ, Fredrich (fin φ) (fin d) (fin 3) = fin k ∧ b.IsPermeability (d ^ 4 * k) ∧
        (b.IsPermeability k ↔ d = 1)) := by
  have hq : 0 < 1 - φ := by linarith
  have surf : ∀ S : ℝ, GrainSurface (Measure.dirac d) φ S → S = 6 * (1 - φ) / d := by
    intro S hS
    have e := grainSurface_eq (dirac_sizes hd) hS
    rw [eq_div_iff hd.ne']
    refine mul_right_cancel₀ (pow_ne_zero 2 hd.ne') ?_
    linear_combination e
  have one : ∀ {k : ℝ}, 0 < k → (k = d ^ 4 * k ↔ d = 1) := by
    intro k hk
    constructor
    · intro h
      have h4 : d ^ 4 = 1 := by
        refine mul_right_cancel₀ hk.ne' ?_
        linarith
      exact (pow_eq_one_iff_of_nonneg hd.le (by norm_num)).mp h4
    · rintro rfl; ring
  constructor
  · intro b hp hτ hS
    have hp0 : 0 < φ := by
      rw [← hp]
      have := b.n_pos; have := b.R_pos; have := b.τ_pos; have := Real.pi_pos
      unfold TubeBundle.porosity; positivity
    obtain ⟨e, -⟩ := C59_value (b := 2) hp0.ne' hφ.ne hd.ne' (by norm_num)
    have key : b.porosity ^ 3 / (2 * b.τ ^ 2 * b.surface ^ 2)
        = d ^ 4 * (φ ^ 3 / (90 * 2 * (1 - φ) ^ 2 * d ^ 2)) := by
      rw [hp, hτ, surf _ hS]
      generalize 1 - φ = q at *
      field_simp
      norm_num
    refine ⟨_, e, (b.permeability _).mpr key.symm, ?_⟩
    rw [b.permeability, key]
    exact one (by positivity)
  · intro b hp hτ hS
    have hp0 : 0 < φ := by
      rw [← hp]
      have := b.n_pos; have := b.w_pos; have := b.τ_pos
      unfold SlitBundle.porosity; positivity
    obtain ⟨e, -⟩ := C59_value (b := 3) hp0.ne' hφ.ne hd.ne' (by norm_num)
    have key : b.porosity ^ 3 / (3 * b.τ ^ 2 * b.surface ^ 2)
        = d ^ 4 * (φ ^ 3 / (90 * 3 * (1 - φ) ^ 2 * d ^ 2)) := by
      rw [hp, hτ, surf _ hS]
      generalize 1 - φ = q at *
      field_simp
      norm_num
    refine ⟨_, e, (b.permeability _).mpr key.symm, ?_⟩
    rw [b.permeability, key]
    exact one (by positivity)

/-- Non-vacuity: there is a bundle of tubes, and one of slits, of any porosity, surface and
tortuosity. -/
theorem bundles_of_surface {φ S τ : ℝ} (h0 : 0 < φ) (hS : 0 < S) (hτ : 0 < τ) :
    (∃ b : TubeBundle, b.porosity = φ ∧ b.τ = τ ∧ b.surface = S) ∧
      ∃ b : SlitBundle, b.porosity = φ ∧ b.τ = τ ∧ b.surface = S := by
  have hpi := Real.pi_pos
  refine ⟨⟨⟨S ^ 2 / (4 * Real.pi * φ * τ), 2 * φ / S, τ, by positivity, by positivity, hτ⟩,
    ?_, rfl, ?_⟩, ⟨⟨S / (2 * τ), 2 * φ / S, τ, by positivity, by positivity, hτ⟩, ?_, rfl, ?_⟩⟩
  · simp only [TubeBundle.porosity]
    field_simp
    try ring
  · simp only [TubeBundle.surface]
    field_simp
    try ring
  · simp only [SlitBundle.porosity]
    field
  · simp only [SlitBundle.surface]
    field

/-- The surface of a pack of equal spheres. -/
theorem grainSurface_dirac {d φ : ℝ} (hd : 0 < d) :
    GrainSurface (Measure.dirac d) φ (6 * (1 - φ) / d) := by
  have hpi := Real.pi_pos
  refine ⟨6 * (1 - φ) / (Real.pi * d ^ 3), ?_, ?_⟩ <;> rw [integral_dirac] <;>
    generalize 1 - φ = q at * <;> field

theorem bundles_exist {d φ τ : ℝ} (hd : 0 < d) (h0 : 0 < φ) (h1 : φ < 1) (hτ : 0 < τ) :
    (∃ b : TubeBundle, b.porosity = φ ∧ b.τ = τ ∧ GrainSurface (Measure.dirac d) φ b.surface) ∧
      ∃ b : SlitBundle, b.porosity = φ ∧ b.τ = τ ∧ GrainSurface (Measure.dirac d) φ b.surface := by
  have hq : 0 < 1 - φ := by linarith
  obtain ⟨⟨b, p, t, e⟩, ⟨b', p', t', e'⟩⟩ :=
    bundles_of_surface (S := 6 * (1 - φ) / d) h0 (by positivity) hτ
  exact ⟨⟨b, p, t, e ▸ grainSurface_dirac hd⟩, ⟨b', p', t', e' ▸ grainSurface_dirac hd⟩⟩

example : ∃ (b : TubeBundle) (k : ℝ), b.porosity = 0.3 ∧
    Kozeny_Carman (fin 0.3) (fin 250) = fin k ∧ b.IsPermeability k := by
  obtain ⟨b, hp, hτ, hs⟩ := (bundles_exist (d := 250) (φ := 0.3) (τ := √2.5) (by norm_num)
    (by norm_num) (by norm_num) (by positivity)).1
  obtain ⟨k, e, hk⟩ := C94_kozeny_carman (by norm_num) (by norm_num) hp hs
  exact ⟨b, k, hp, e, hk.mpr (by rw [hτ, Real.sq_sqrt (by norm_num)])⟩

/-- A pack of two sizes: half of the grains have diameter 1, half 3. -/
noncomputable def twoSizes : Measure ℝ :=
  (2⁻¹ : ENNReal) • Measure.dirac 1 + (2⁻¹ : ENNReal) • Measure.dirac 3

theorem integrable_twoSizes (f : ℝ → ℝ) : Integrable f twoSizes := by
  refine Integrable.add_measure ?_ ?_ <;>
    exact (integrable_dirac (by simp)).smul_measure (by simp)

theorem integral_twoSizes (f : ℝ → ℝ) : ∫ D, f D ∂twoSizes = (f 1 + f 3) / 2 := by
  unfold twoSizes
  rw [integral_add_measure ((integrable_dirac (by simp)).smul_measure (by simp))
      ((integrable_dirac (by simp)).smul_measure (by simp)),
    integral_smul_measure, integral_smul_measure, integral_dirac, integral_dirac]
  simp
  ring

theorem twoSizes_sizes : SizeDistribution twoSizes 2 (1 / 2) 0 where
  prob := by
    constructor
    unfold twoSizes
    simp [ENNReal.inv_two_add_inv_two]
  positive := by
    unfold twoSizes
    rw [ae_add_measure_iff]
    constructor
    · refine Measure.ae_smul_measure ?_ _
      rw [ae_dirac_eq]
      exact (by norm_num : (0 : ℝ) < 1)
    · refine Measure.ae_smul_measure ?_ _
      rw [ae_dirac_eq]
      exact (by norm_num : (0 : ℝ) < 3)
  finite := integrable_twoSizes _
  mean := by rw [integral_twoSizes]; norm_num
  spread := by rw [integral_twoSizes]; norm_num
  skew := by rw [integral_twoSizes]; norm_num

/-- Non-vacuity with a real spread of sizes. -/
example : ∃ (b : TubeBundle) (k : ℝ), b.porosity = 0.3 ∧
    Panda_Lake (fin 2) (fin (1 / 2)) (fin 0) (fin (b.τ ^ 2)) (fin 0.3) = fin k ∧
      b.IsPermeability k := by
  have hpi := Real.pi_pos
  obtain ⟨b, hp, hτ, hs⟩ := (bundles_of_surface (φ := 0.3) (S := 3 / 2) (τ := 2) (by norm_num)
    (by norm_num) (by norm_num)).1
  have hS : GrainSurface twoSizes 0.3 b.surface := by
    rw [hs]
    refine ⟨3 / (10 * Real.pi), ?_, ?_⟩ <;> rw [integral_twoSizes] <;> field_simp <;> norm_num
  obtain ⟨k, e, hk⟩ := C94_panda_lake twoSizes_sizes (by norm_num) (by norm_num) hp hS
  exact ⟨b, k, hp, e, hk⟩

example : ∃ (s : SlitBundle) (t : TubeBundle) (k₁ k₂ : ℝ), s.IsPermeability k₁ ∧
    t.IsPermeability k₂ ∧ Bernabe (fin 0.2) (fin (1 / 4)) (fin s.w) (fin t.R) = fin (k₁ + k₂) := by
  obtain ⟨s, hs, hsτ, -⟩ := (bundles_of_surface (φ := 1 / 4 * 0.2) (S := 1) (τ := √2.5)
    (by norm_num) (by norm_num) (by positivity)).2
  obtain ⟨t, ht, htτ, -⟩ := (bundles_of_surface (φ := (1 - 1 / 4) * 0.2) (S := 1) (τ := √2.5)
    (by norm_num) (by norm_num) (by positivity)).1
  have r : (√2.5 : ℝ) ^ 2 = 2.5 := Real.sq_sqrt (by norm_num)
  obtain ⟨k₁, k₂, h1, h2, h3⟩ := C94_bernabe hs ht (by rw [hsτ, r]) (by rw [htτ, r])
  exact ⟨s, t, k₁, k₂, h1, h2, h3⟩

example : ∃ (b : SlitBundle) (k : ℝ), Fredrich (fin 0.2) (fin 3) (fin 3) = fin k ∧
    b.IsPermeability (3 ^ 4 * k) ∧ ¬ b.IsPermeability k := by
  obtain ⟨b, hp, hτ, hs⟩ := (bundles_exist (d := 3) (φ := 0.2) (τ := √2.5) (by norm_num)
    (by norm_num) (by norm_num) (by positivity)).2
  obtain ⟨k, e, h1, h2⟩ := (C94_fredrich (d := 3) (φ := 0.2) (by norm_num) (by norm_num)).2 b hp
    (by rw [hτ, Real.sq_sqrt (by norm_num)]) hs
  exact ⟨b, k, e, h1, fun h => by have := h2.mp h; norm_num at this⟩

end RockPhy.Props
