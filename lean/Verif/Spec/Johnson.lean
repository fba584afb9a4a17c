import Mathlib.Analysis.SpecialFunctions.Integrals.Basic

/-! # Norris-Johnson contact model: the orientation integrals

The published stiffnesses of a sphere pack under hydrostatic strain `ε` plus axial strain `ε₃`,
with `α² = ε/ε₃`, are averages over contact directions.  All of them are combinations of
`Iₙ(α) = ∫₀¹ xⁿ √(α² + x²) dx`. -/

namespace RockPhy.Spec

open MeasureTheory

/-- `Iₙ(α) = ∫₀¹ xⁿ √(α² + x²) dx`. -/
noncomputable def contactI (n : ℕ) (a : ℝ) : ℝ := ∫ x in (0 : ℝ)..1, x ^ n * Real.sqrt (a ^ 2 + x ^ 2)

/-- Published stiffnesses in terms of the prefactor `γ`, the contact constants `B`, `C` and `α`. -/
noncomputable def njC11 (g B C a : ℝ) : ℝ :=
  g / a * (2 * B * (contactI 0 a - contactI 2 a)
    + 3 / 4 * C * (contactI 0 a - 2 * contactI 2 a + contactI 4 a))
noncomputable def njC33 (g B C a : ℝ) : ℝ :=
  g / a * (4 * B * contactI 2 a + 2 * C * contactI 4 a)
noncomputable def njC13 (g C a : ℝ) : ℝ := g / a * (C * (contactI 2 a - contactI 4 a))
noncomputable def njC44 (g B C a : ℝ) : ℝ :=
  g / a * (B / 2 * (contactI 0 a + contactI 2 a) + C * (contactI 2 a - contactI 4 a))
noncomputable def njC66 (g B C a : ℝ) : ℝ :=
  g / a * (B * (contactI 0 a - contactI 2 a)
    + C / 4 * (contactI 0 a - 2 * contactI 2 a + contactI 4 a))

section closed

variable {a : ℝ}

theorem sqrt_pos' (ha : 0 < a) (x : ℝ) : 0 < Real.sqrt (a ^ 2 + x ^ 2) :=
  Real.sqrt_pos.mpr (by positivity)

theorem hasDerivAt_root (ha : 0 < a) (x : ℝ) :
    HasDerivAt (fun x => Real.sqrt (a ^ 2 + x ^ 2)) (x / Real.sqrt (a ^ 2 + x ^ 2)) x := by
  have h : HasDerivAt (fun x : ℝ => a ^ 2 + x ^ 2) (2 * x) x := by
    simpa using ((hasDerivAt_id x).pow 2).const_add (a ^ 2)
  refine (h.sqrt (by positivity)).congr_deriv ?_
  have := sqrt_pos' ha x
  field

theorem sum_pos' (ha : 0 < a) {x : ℝ} (hx : 0 ≤ x) : 0 < x + Real.sqrt (a ^ 2 + x ^ 2) :=
  add_pos_of_nonneg_of_pos hx (sqrt_pos' ha x)

/-- Antiderivative of `√(a² + x²)`. -/
theorem contactI_zero (ha : 0 < a) :
    contactI 0 a = 1 / 2 * (Real.sqrt (1 + a ^ 2)
      + a ^ 2 * Real.log ((1 + Real.sqrt (1 + a ^ 2)) / a)) := by
  let F : ℝ → ℝ := fun x => 1 / 2 * (x * Real.sqrt (a ^ 2 + x ^ 2)
    + a ^ 2 * Real.log (x + Real.sqrt (a ^ 2 + x ^ 2)))
  have hF : ∀ x ∈ Set.uIcc (0 : ℝ) 1, HasDerivAt F (x ^ 0 * Real.sqrt (a ^ 2 + x ^ 2)) x := by
    intro x hx
    rw [Set.uIcc_of_le zero_le_one] at hx
    have s := sqrt_pos' ha x
    have p := sum_pos' ha hx.1
    have d := hasDerivAt_root ha x
    have h1 := (hasDerivAt_id' x).mul d
    have h2 := ((hasDerivAt_id' x).add d).log p.ne'
    refine ((h1.add (h2.const_mul (a ^ 2))).const_mul (1 / 2)).congr_deriv ?_
    have hs : Real.sqrt (a ^ 2 + x ^ 2) ^ 2 = a ^ 2 + x ^ 2 := Real.sq_sqrt (by positivity)
    simp only [Pi.add_apply]
    generalize Real.sqrt (a ^ 2 + x ^ 2) = r at *
    have hr : r ≠ 0 := s.ne'
    have hp : x + r ≠ 0 := p.ne'
    have : a ^ 2 * ((1 + x / r) / (x + r)) = a ^ 2 / r := by field
    rw [this]
    field_simp
    linear_combination -hs
  have hi := intervalIntegral.integral_eq_sub_of_hasDerivAt hF
    (Continuous.intervalIntegrable (by fun_prop) _ _)
  unfold contactI
  rw [hi]
  have e0 : Real.sqrt (a ^ 2 + 0 ^ 2) = a := by
    rw [show a ^ 2 + (0 : ℝ) ^ 2 = a ^ 2 by ring, Real.sqrt_sq ha.le]
  have e1 : Real.sqrt (a ^ 2 + 1 ^ 2) = Real.sqrt (1 + a ^ 2) := by congr 1; ring
  have p : 0 < 1 + Real.sqrt (1 + a ^ 2) := by positivity
  simp only [F]
  rw [e0, e1, Real.log_div p.ne' ha.ne']
  simp only [zero_mul, zero_add, one_mul]
  ring

theorem pow_three_halves {x : ℝ} (hx : 0 < x) : x ^ ((3 : ℝ) / 2) = x * Real.sqrt x := by
  rw [Real.sqrt_eq_rpow, show (3 : ℝ) / 2 = 1 + 1 / 2 by norm_num, Real.rpow_add hx, Real.rpow_one]

theorem contactI_step (ha : 0 < a) (n : ℕ) :
    contactI (n + 2) a = 1 / (n + 4) * ((1 + a ^ 2) ^ ((3 : ℝ) / 2)
      - (n + 1) * a ^ 2 * contactI n a) := by
  let F : ℝ → ℝ := fun x => x ^ (n + 1) * ((a ^ 2 + x ^ 2) * Real.sqrt (a ^ 2 + x ^ 2))
  have hF : ∀ x ∈ Set.uIcc (0 : ℝ) 1, HasDerivAt F
      ((n + 4) * (x ^ (n + 2) * Real.sqrt (a ^ 2 + x ^ 2))
        + (n + 1) * a ^ 2 * (x ^ n * Real.sqrt (a ^ 2 + x ^ 2))) x := by
    intro x _
    have s := sqrt_pos' ha x
    have d := hasDerivAt_root ha x
    have h0 : HasDerivAt (fun x : ℝ => a ^ 2 + x ^ 2) (2 * x) x := by
      simpa using ((hasDerivAt_id x).pow 2).const_add (a ^ 2)
    have hp : HasDerivAt (fun x : ℝ => x ^ (n + 1)) ((n + 1) * x ^ n) x := by
      simpa using hasDerivAt_pow (n + 1) x
    refine (hp.mul (h0.mul d)).congr_deriv ?_
    have hs : Real.sqrt (a ^ 2 + x ^ 2) ^ 2 = a ^ 2 + x ^ 2 := Real.sq_sqrt (by positivity)
    simp only [Pi.mul_apply]
    have e : (a ^ 2 + x ^ 2) * (x / Real.sqrt (a ^ 2 + x ^ 2)) = x * Real.sqrt (a ^ 2 + x ^ 2) := by
      nth_rw 1 [← hs]; field
    rw [e]
    ring
  have hi := intervalIntegral.integral_eq_sub_of_hasDerivAt hF
    (Continuous.intervalIntegrable (by fun_prop) _ _)
  rw [intervalIntegral.integral_add (Continuous.intervalIntegrable (by fun_prop) _ _)
    (Continuous.intervalIntegrable (by fun_prop) _ _), intervalIntegral.integral_const_mul,
    intervalIntegral.integral_const_mul] at hi
  have hi' : (n + 4) * contactI (n + 2) a + (n + 1) * a ^ 2 * contactI n a
      = (1 + a ^ 2) ^ ((3 : ℝ) / 2) := by
    unfold contactI
    rw [hi, pow_three_halves (by positivity)]
    simp only [F]
    rw [show a ^ 2 + (1 : ℝ) ^ 2 = 1 + a ^ 2 by ring, zero_pow (Nat.succ_ne_zero n)]
    ring
  have : (n + 4 : ℝ) ≠ 0 := by positivity
  rw [← hi']
  field

theorem contactI_two (ha : 0 < a) :
    contactI 2 a = 1 / 4 * ((1 + a ^ 2) ^ ((3 : ℝ) / 2) - a ^ 2 * contactI 0 a) := by
  have := contactI_step ha 0
  simpa using this

theorem contactI_four (ha : 0 < a) :
    contactI 4 a = 1 / 6 * ((1 + a ^ 2) ^ ((3 : ℝ) / 2) - 3 * a ^ 2 * contactI 2 a) := by
  have := contactI_step ha 2
  norm_num at this
  rw [this]

end closed

end RockPhy.Spec
