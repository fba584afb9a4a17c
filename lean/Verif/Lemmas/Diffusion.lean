import Mathlib.Analysis.SpecialFunctions.Trigonometric.Deriv
import Mathlib.Analysis.SpecialFunctions.Trigonometric.DerivHyp
import Mathlib.Analysis.Calculus.Deriv.MeanValue
import Mathlib.Analysis.Complex.RealDeriv
import Mathlib.Analysis.Calculus.Deriv.Star
import Mathlib.Analysis.SpecialFunctions.Complex.Analytic
import Mathlib.Analysis.SpecialFunctions.Trigonometric.Bounds
import Mathlib.Analysis.Complex.Exponential

/-! # The radial diffusion equation in a sphere and in a shell

For `α ^ 2 = k * I` with `k > 0` the pressure `p` with `(r p)'' = α ^ 2 r p` has a flux whose
phase is known; this is the energy argument behind the sign of the attenuation. -/

namespace RockPhy

open Complex

/-- `r` times the pressure in the shell `a < r < b` without flow through `r = b`. -/
noncomputable def shellU (α : ℂ) (b r : ℝ) : ℂ :=
  α * b * cosh (α * (b - r)) - sinh (α * (b - r))
noncomputable def shellU' (α : ℂ) (b r : ℝ) : ℂ :=
  -(α * (α * b * sinh (α * (b - r)) - cosh (α * (b - r))))

theorem shellU_deriv (α : ℂ) (b r : ℝ) : HasDerivAt (shellU α b) (shellU' α b r) r := by
  have h : HasDerivAt (fun z : ℂ => α * (b - z)) (-α) (r : ℂ) := by
    simpa using ((hasDerivAt_id (r : ℂ)).const_sub (b : ℂ)).const_mul α
  have h2 := (((h.ccosh).const_mul (α * b)).sub h.csinh).comp_ofReal
  refine h2.congr_deriv ?_
  unfold shellU'; ring

theorem shellU'_deriv (α : ℂ) (b r : ℝ) : HasDerivAt (shellU' α b) (α ^ 2 * shellU α b r) r := by
  have h : HasDerivAt (fun z : ℂ => α * (b - z)) (-α) (r : ℂ) := by
    simpa using ((hasDerivAt_id (r : ℂ)).const_sub (b : ℂ)).const_mul α
  have h2 := ((((h.csinh).const_mul (α * b)).sub h.ccosh).const_mul α).neg.comp_ofReal
  refine h2.congr_deriv ?_
  unfold shellU; ring

/-- Flux times conjugate pressure. -/
noncomputable def shellE (α : ℂ) (b r : ℝ) : ℂ :=
  (shellU' α b r - shellU α b r / r) * (starRingEnd ℂ) (shellU α b r)

theorem shellE_deriv (α : ℂ) (b : ℝ) {r : ℝ} (hr : r ≠ 0) :
    HasDerivAt (shellE α b) (α ^ 2 * normSq (shellU α b r)
      + normSq (shellU' α b r - shellU α b r / r)) r := by
  have hr' : (r : ℂ) ≠ 0 := ofReal_ne_zero.mpr hr
  have h1 := shellU_deriv α b r
  have h2 := shellU'_deriv α b r
  have h3 : HasDerivAt (fun x : ℝ => (x : ℂ)) 1 r := by
    simpa using (hasDerivAt_id (r : ℂ)).comp_ofReal
  have h4 := (h2.sub (h1.div h3 hr')).mul h1.star
  refine h4.congr_deriv ?_
  rw [normSq_eq_conj_mul_self, normSq_eq_conj_mul_self]
  simp only [map_sub, map_div₀, conj_ofReal, star_def, Pi.sub_apply, Pi.div_apply]
  field


theorem shellE_end (α : ℂ) {b : ℝ} (hb : b ≠ 0) : shellE α b b = 0 := by
  have hb' : (b : ℂ) ≠ 0 := ofReal_ne_zero.mpr hb
  unfold shellE shellU shellU'
  rw [sub_self, mul_zero, cosh_zero, sinh_zero]
  have : -(α * (α * b * 0 - 1)) - (α * b * 1 - 0) / b = 0 := by field
  rw [this, zero_mul]

theorem shell_energy {α : ℂ} {k a b : ℝ} (hα : α ^ 2 = k * I) (hk : 0 < k) (ha : 0 < a)
    (hab : a < b) : (shellE α b a).re ≤ 0 ∧ (shellE α b a).im < 0 := by
  have hb : 0 < b := ha.trans hab
  have hα0 : α ≠ 0 := by
    rintro rfl
    have := congrArg Complex.im hα
    simp at this
    linarith
  have dre : ∀ r : ℝ, r ≠ 0 → HasDerivAt (fun r => (shellE α b r).re)
      (normSq (shellU' α b r - shellU α b r / r)) r := fun r hr => by
    have := (Complex.reCLM.hasFDerivAt).comp_hasDerivAt r (shellE_deriv α b hr)
    refine this.congr_deriv ?_
    rw [hα]
    simp
  have dim : ∀ r : ℝ, r ≠ 0 → HasDerivAt (fun r => (shellE α b r).im)
      (k * normSq (shellU α b r)) r := fun r hr => by
    have := (Complex.imCLM.hasFDerivAt).comp_hasDerivAt r (shellE_deriv α b hr)
    refine this.congr_deriv ?_
    rw [hα]
    simp
  have hne : ∀ r ∈ Set.Icc a b, r ≠ 0 := fun r hr => (ha.trans_le hr.1).ne'
  have hne' : ∀ r ∈ interior (Set.Icc a b), r ≠ 0 := fun r hr => hne r (interior_subset hr)
  have mre : MonotoneOn (fun r => (shellE α b r).re) (Set.Icc a b) :=
    monotoneOn_of_hasDerivWithinAt_nonneg (convex_Icc a b)
      (fun r hr => (dre r (hne r hr)).continuousAt.continuousWithinAt)
      (fun r hr => (dre r (hne' r hr)).hasDerivWithinAt) (fun r _ => normSq_nonneg _)
  have mim : MonotoneOn (fun r => (shellE α b r).im) (Set.Icc a b) :=
    monotoneOn_of_hasDerivWithinAt_nonneg (convex_Icc a b)
      (fun r hr => (dim r (hne r hr)).continuousAt.continuousWithinAt)
      (fun r hr => (dim r (hne' r hr)).hasDerivWithinAt)
      (fun r _ => mul_nonneg hk.le (normSq_nonneg _))
  have ea : a ∈ Set.Icc a b := ⟨le_rfl, hab.le⟩
  have eb : b ∈ Set.Icc a b := ⟨hab.le, le_rfl⟩
  have e0 := shellE_end α hb.ne'
  have h1 := mre ea eb hab.le
  have h2 := mim ea eb hab.le
  dsimp only at h1 h2
  rw [e0] at h1 h2
  rw [zero_re] at h1
  rw [zero_im] at h2
  refine ⟨h1, lt_of_le_of_ne h2 fun hz => ?_⟩
  have hzero : ∀ r ∈ Set.Ioo a b, shellU α b r = 0 := fun r hr => by
    have hev : (fun r => (shellE α b r).im) =ᶠ[nhds r] fun _ => 0 := by
      filter_upwards [Ioo_mem_nhds hr.1 hr.2] with t ht
      have t1 := mim ea ⟨ht.1.le, ht.2.le⟩ ht.1.le
      have t2 := mim ⟨ht.1.le, ht.2.le⟩ eb ht.2.le
      dsimp only at t1 t2
      rw [e0, zero_im] at t2
      rw [hz] at t1
      exact le_antisymm t2 t1
    have hd := (dim r (ha.trans hr.1).ne').unique
      ((hasDerivAt_const r (0 : ℝ)).congr_of_eventuallyEq hev)
    have := (mul_eq_zero.mp hd).resolve_left hk.ne'
    exact normSq_eq_zero.mp this
  have hc : Filter.Tendsto (shellU α b) (nhdsWithin b (Set.Iio b)) (nhds (shellU α b b)) :=
    (shellU_deriv α b b).continuousAt.tendsto.mono_left nhdsWithin_le_nhds
  have hc0 : Filter.Tendsto (shellU α b) (nhdsWithin b (Set.Iio b)) (nhds 0) := by
    refine Filter.Tendsto.congr' ?_ tendsto_const_nhds
    filter_upwards [Ioo_mem_nhdsLT hab] with r hr using (hzero r hr).symm
  have hU := tendsto_nhds_unique hc hc0
  unfold shellU at hU
  rw [sub_self, mul_zero, cosh_zero, sinh_zero, sub_zero, mul_one] at hU
  exact (mul_ne_zero hα0 (ofReal_ne_zero.mpr hb.ne')) hU

/-- The same for the full sphere. -/
theorem sphere_prod (s : ℝ) :
    ((s * (1 + I)) * cosh (s * (1 + I)) - sinh (s * (1 + I))) *
      (starRingEnd ℂ) (sinh (s * (1 + I)))
    = ((s * (Real.sinh (2 * s) + Real.sin (2 * s)) - Real.cosh (2 * s) + Real.cos (2 * s)) / 2 : ℝ)
      + ((s * (Real.sinh (2 * s) - Real.sin (2 * s))) / 2 : ℝ) * I := by
  have hc : (starRingEnd ℂ) (sinh (s * (1 + I))) = sinh (s * (1 - I)) := by
    rw [← sinh_conj]
    simp [sub_eq_add_neg]
  have c1 : cosh (s * (1 + I)) = cosh s * cos s + sinh s * sin s * I := by
    rw [show (s : ℂ) * (1 + I) = s + s * I by ring, cosh_add, cosh_mul_I, sinh_mul_I]; ring
  have s1 : sinh (s * (1 + I)) = sinh s * cos s + cosh s * sin s * I := by
    rw [show (s : ℂ) * (1 + I) = s + s * I by ring, sinh_add, cosh_mul_I, sinh_mul_I]; ring
  have s2 : sinh (s * (1 - I)) = sinh s * cos s - cosh s * sin s * I := by
    rw [show (s : ℂ) * (1 - I) = s - s * I by ring, sinh_sub, cosh_mul_I, sinh_mul_I]; ring
  rw [hc, c1, s1, s2]
  push_cast
  rw [sinh_two_mul, sin_two_mul, cosh_two_mul, cos_two_mul]
  have h1 := cosh_sq (s : ℂ)
  have h2 := sin_sq (s : ℂ)
  have h3 := I_sq
  linear_combination (s * cosh s * sinh s + s * I * cosh s * sinh s - cosh s ^ 2) * h2
    + (-s * I * cos s * sin s + s * cos s * sin s + cos s ^ 2 - 1 / 2) * h1
    + (-s * cosh s * sinh s * sin s ^ 2 - s * cosh s ^ 2 * cos s * sin s
      + s * cos s * sinh s ^ 2 * sin s + cosh s ^ 2 * sin s ^ 2
      - I * s * cosh s * sinh s * sin s ^ 2) * h3

theorem sphere_norm (s : ℝ) : normSq (sinh (s * (1 + I))) =
    (Real.cosh (2 * s) - Real.cos (2 * s)) / 2 := by
  have s1 : sinh (s * (1 + I)) = (Real.sinh s * Real.cos s : ℝ)
      + (Real.cosh s * Real.sin s : ℝ) * I := by
    rw [show (s : ℂ) * (1 + I) = s + s * I by ring, sinh_add, cosh_mul_I, sinh_mul_I]
    push_cast; ring
  rw [s1, normSq_add_mul_I, Real.cosh_two_mul, Real.cos_two_mul]
  have h1 := Real.cosh_sq s
  have h2 := Real.sin_sq s
  rw [mul_pow, mul_pow, h2, h1]
  ring

theorem sphere_cosh_norm (s : ℝ) : normSq (cosh (s * (1 + I))) =
    (Real.cosh (2 * s) + Real.cos (2 * s)) / 2 := by
  have s1 : cosh (s * (1 + I)) = (Real.cosh s * Real.cos s : ℝ)
      + (Real.sinh s * Real.sin s : ℝ) * I := by
    rw [show (s : ℂ) * (1 + I) = s + s * I by ring, cosh_add, cosh_mul_I, sinh_mul_I]
    push_cast; ring
  rw [s1, normSq_add_mul_I, Real.cosh_two_mul, Real.cos_two_mul]
  have h1 := Real.cosh_sq s
  have h2 := Real.sin_sq s
  rw [mul_pow, mul_pow, h2, h1]
  ring

theorem sin_lt_sinh {t : ℝ} (ht : 0 < t) : Real.sin t < Real.sinh t :=
  (Real.sin_lt ht).trans (Real.self_lt_sinh_iff.mpr ht)

theorem sphere_re {t : ℝ} (ht : 0 < t) :
    0 < t / 2 * (Real.sinh t + Real.sin t) - Real.cosh t + Real.cos t := by
  set g : ℝ → ℝ := fun t => t / 2 * (Real.cosh t + Real.cos t) - (Real.sinh t + Real.sin t) / 2
    with hg
  set f : ℝ → ℝ := fun t => t / 2 * (Real.sinh t + Real.sin t) - Real.cosh t + Real.cos t with hf
  have dg : ∀ t, HasDerivAt g (t / 2 * (Real.sinh t - Real.sin t)) t := fun t => by
    have := ((((hasDerivAt_id t).div_const 2).mul
      ((Real.hasDerivAt_cosh t).add (Real.hasDerivAt_cos t))).sub
      (((Real.hasDerivAt_sinh t).add (Real.hasDerivAt_sin t)).div_const 2))
    refine this.congr_deriv ?_
    simp only [id, Pi.add_apply]; ring
  have df : ∀ t, HasDerivAt f (g t) t := fun t => by
    have := ((((hasDerivAt_id t).div_const 2).mul
      ((Real.hasDerivAt_sinh t).add (Real.hasDerivAt_sin t))).sub
      (Real.hasDerivAt_cosh t)).add (Real.hasDerivAt_cos t)
    refine this.congr_deriv ?_
    simp only [id, Pi.add_apply, hg]; ring
  have mg : StrictMonoOn g (Set.Ici 0) :=
    strictMonoOn_of_hasDerivWithinAt_pos (convex_Ici 0)
      (fun r _ => (dg r).continuousAt.continuousWithinAt)
      (fun r _ => (dg r).hasDerivWithinAt) (fun r hr => by
        rw [interior_Ici] at hr
        have hr : 0 < r := hr
        exact mul_pos (half_pos hr) (sub_pos.mpr (sin_lt_sinh hr)))
  have gpos : ∀ r, 0 < r → 0 < g r := fun r hr => by
    have := mg Set.self_mem_Ici (Set.mem_Ici.mpr hr.le) hr
    have h0 : g 0 = 0 := by simp [hg]
    rwa [h0] at this
  have mf : StrictMonoOn f (Set.Ici 0) :=
    strictMonoOn_of_hasDerivWithinAt_pos (convex_Ici 0)
      (fun r _ => (df r).continuousAt.continuousWithinAt)
      (fun r _ => (df r).hasDerivWithinAt) (fun r hr => by
        rw [interior_Ici] at hr
        exact gpos r hr)
  have := mf Set.self_mem_Ici (Set.mem_Ici.mpr ht.le) ht
  have h0 : f 0 = 0 := by simp [hf]
  rwa [h0] at this

/-! ## Small arguments -/

theorem cosh_sinh_small {x : ℂ} (hx : ‖x‖ ≤ 1) :
    ‖cosh x - (1 + x ^ 2 / 2)‖ ≤ ‖x‖ ^ 4 ∧ ‖sinh x - (x + x ^ 3 / 6)‖ ≤ ‖x‖ ^ 4 := by
  have h1 := exp_bound hx (n := 4) (by norm_num)
  have h2 := exp_bound (x := -x) (by rwa [norm_neg]) (n := 4) (by norm_num)
  rw [norm_neg] at h2
  simp only [Finset.sum_range_succ, Finset.sum_range_zero, Nat.factorial] at h1 h2
  have hp : 0 ≤ ‖x‖ ^ 4 := by positivity
  norm_num at h1 h2
  constructor
  · have : cosh x - (1 + x ^ 2 / 2)
        = (1 / 2 : ℝ) * ((exp x - (1 + x + x ^ 2 / 2 + x ^ 3 / 6))
          + (exp (-x) - (1 + -x + x ^ 2 / 2 + (-x) ^ 3 / 6))) := by
      rw [cosh]; push_cast; ring
    rw [this, norm_mul, norm_real, Real.norm_of_nonneg (by norm_num)]
    have := norm_add_le (exp x - (1 + x + x ^ 2 / 2 + x ^ 3 / 6))
      (exp (-x) - (1 + -x + x ^ 2 / 2 + (-x) ^ 3 / 6))
    linarith
  · have : sinh x - (x + x ^ 3 / 6)
        = (1 / 2 : ℝ) * ((exp x - (1 + x + x ^ 2 / 2 + x ^ 3 / 6))
          - (exp (-x) - (1 + -x + x ^ 2 / 2 + (-x) ^ 3 / 6))) := by
      rw [sinh]; push_cast; ring
    rw [this, norm_mul, norm_real, Real.norm_of_nonneg (by norm_num)]
    have := norm_sub_le (exp x - (1 + x + x ^ 2 / 2 + x ^ 3 / 6))
      (exp (-x) - (1 + -x + x ^ 2 / 2 + (-x) ^ 3 / 6))
    linarith

open Filter Topology in
theorem sinh_div_tendsto : Tendsto (fun x : ℂ => sinh x / x) (𝓝[≠] 0) (𝓝 1) := by
  have := (hasDerivAt_sinh 0).tendsto_slope_zero
  rw [cosh_zero] at this
  refine this.congr fun x => ?_
  rw [zero_add, sinh_zero, sub_zero, smul_eq_mul]
  ring

open Filter Topology in
theorem sphD_tendsto :
    Tendsto (fun x : ℂ => (x * cosh x - sinh x) / x ^ 3) (𝓝[≠] 0) (𝓝 (1 / 3)) := by
  rw [tendsto_iff_norm_sub_tendsto_zero]
  have h0 : Tendsto (fun x : ℂ => 2 * ‖x‖) (𝓝[≠] 0) (𝓝 0) := by
    have : Tendsto (fun x : ℂ => 2 * ‖x‖) (𝓝 0) (𝓝 (2 * ‖(0 : ℂ)‖)) :=
      (continuous_const.mul continuous_norm).tendsto 0
    rw [norm_zero, mul_zero] at this
    exact this.mono_left nhdsWithin_le_nhds
  refine squeeze_zero' (Eventually.of_forall fun x => norm_nonneg _) ?_ h0
  have hb : ∀ᶠ x : ℂ in 𝓝[≠] 0, ‖x‖ < 1 := by
    refine mem_nhdsWithin_of_mem_nhds ?_
    have := Metric.ball_mem_nhds (0 : ℂ) one_pos
    filter_upwards [this] with x hx
    rwa [Metric.mem_ball, dist_zero_right] at hx
  filter_upwards [hb, self_mem_nhdsWithin] with x hx h0
  have h0 : x ≠ 0 := h0
  obtain ⟨h1, h2⟩ := cosh_sinh_small hx.le
  have e : (x * cosh x - sinh x) / x ^ 3 - 1 / 3
      = (x * (cosh x - (1 + x ^ 2 / 2)) - (sinh x - (x + x ^ 3 / 6))) / x ^ 3 := by
    field
  have hn : 0 < ‖x‖ := norm_pos_iff.mpr h0
  rw [e, norm_div, norm_pow, div_le_iff₀ (by positivity)]
  have h3 := norm_sub_le (x * (cosh x - (1 + x ^ 2 / 2))) (sinh x - (x + x ^ 3 / 6))
  rw [norm_mul] at h3
  have h4 : ‖x‖ * ‖cosh x - (1 + x ^ 2 / 2)‖ ≤ 1 * ‖x‖ ^ 4 :=
    mul_le_mul hx.le h1 (norm_nonneg _) zero_le_one
  calc _ ≤ _ := h3
    _ ≤ 1 * ‖x‖ ^ 4 + ‖x‖ ^ 4 := add_le_add h4 h2
    _ = _ := by ring

end RockPhy
