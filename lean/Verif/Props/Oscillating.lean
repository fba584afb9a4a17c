import Verif.Lemmas.Bessel
import Verif.Props.BiotDispersion
import Mathlib.MeasureTheory.Integral.IntervalIntegral.FundThmCalculus
import Mathlib.Analysis.SpecialFunctions.Integrals.Basic

/-! # Property C98: the flow correction of Biot's theory is that of oscillating flow in a tube -/

namespace RockPhy.Props

open Fl Fluid Spec Complex Set

/-- The friction factor in terms of the power series. -/
noncomputable def besF (ζ : ℝ) : ℂ := bes 1 (I * (ζ ^ 2 / 4 : ℝ)) / bes 2 (I * (ζ ^ 2 / 4 : ℝ)) / 2

theorem besF_facts {ζ : ℝ} (h : 0 < ζ) :
    1 ≤ (besF ζ).re ∧ 0 < (besF ζ).im ∧ ‖besF ζ - 1‖ ≤ ζ ^ 2 / 24 := by
  have q := quad_all (y := ζ ^ 2 / 4) (by positivity) 1
  have q2 := quad_all (y := ζ ^ 2 / 4) (by positivity) 2
  have hr := q.2.2.1
  have hi := q.2.2.2
  have e := bes_ratio_rec 1 (t := I * (ζ ^ 2 / 4 : ℝ)) q.2.1
  have h3 := q2.2.2.1
  norm_num at hr hi h3
  unfold besF
  refine ⟨?_, ?_, ?_⟩
  · rw [show (2 : ℂ) = ((2 : ℝ) : ℂ) by norm_num, Complex.div_ofReal_re]
    push_cast
    linarith
  · rw [show (2 : ℂ) = ((2 : ℝ) : ℂ) by norm_num, Complex.div_ofReal_im]
    push_cast
    linarith
  · have e' : bes 1 (I * (ζ ^ 2 / 4 : ℝ)) / bes 2 (I * (ζ ^ 2 / 4 : ℝ)) / 2 - 1
        = I * (ζ ^ 2 / 4 : ℝ) / (bes 2 (I * (ζ ^ 2 / 4 : ℝ)) / bes 3 (I * (ζ ^ 2 / 4 : ℝ))) / 2 := by
      have : bes 1 (I * (ζ ^ 2 / 4 : ℝ)) / bes 2 (I * (ζ ^ 2 / 4 : ℝ))
          = 2 + I * (ζ ^ 2 / 4 : ℝ) / (bes 2 (I * (ζ ^ 2 / 4 : ℝ)) / bes 3 (I * (ζ ^ 2 / 4 : ℝ))) := by
        refine e.trans ?_
        norm_num
      rw [this]; ring
    rw [e']
    have h4 : 3 ≤ ‖bes 2 (I * (ζ ^ 2 / 4 : ℝ)) / bes 3 (I * (ζ ^ 2 / 4 : ℝ))‖ := by
      refine le_trans ?_ (Complex.re_le_norm _)
      push_cast
      exact h3
    rw [norm_div, norm_div, norm_mul, Complex.norm_I, Complex.norm_real, Real.norm_eq_abs,
      abs_of_pos (by positivity), Complex.norm_ofNat, div_div, div_le_div_iff₀ (by positivity) (by norm_num)]
    nlinarith [sq_nonneg ζ]

section

variable {a η ρ ω : ℝ}

/-- The decaying solution of the equation of motion. -/
noncomputable def oscU (η ρ ω r : ℝ) : ℂ := bes 0 (I * (ω * ρ / (4 * η) * r ^ 2 : ℝ))
noncomputable def oscU' (η ρ ω r : ℝ) : ℂ :=
  I * (ω * ρ / (2 * η) * r : ℝ) * bes 1 (I * (ω * ρ / (4 * η) * r ^ 2 : ℝ))

theorem continuous_bes (m : ℕ) : Continuous (bes m) :=
  continuous_iff_continuousAt.mpr fun t => (hasDerivAt_bes m t).continuousAt

theorem continuous_oscU : Continuous (oscU η ρ ω) := by
  have := continuous_bes 0
  unfold oscU
  fun_prop

theorem continuous_oscU' : Continuous (oscU' η ρ ω) := by
  have := continuous_bes 1
  unfold oscU'
  fun_prop

theorem hasDerivAt_arg (η ρ ω r : ℝ) :
    HasDerivAt (fun r : ℝ => I * ((ω * ρ / (4 * η) * r ^ 2 : ℝ) : ℂ)) (I * (ω * ρ / (2 * η) * r : ℝ)) r := by
  have : HasDerivAt (fun r : ℝ => ω * ρ / (4 * η) * r ^ 2) (ω * ρ / (2 * η) * r) r := by
    refine ((hasDerivAt_pow 2 r).const_mul _).congr_deriv ?_
    rw [mul_comm 4 η, mul_comm 2 η, ← div_div, ← div_div]
    simp
    ring
  exact this.ofReal_comp.const_mul I

theorem hasDerivAt_oscU (r : ℝ) : HasDerivAt (oscU η ρ ω) (oscU' η ρ ω r) r := by
  have h := (hasDerivAt_bes 0 (I * (ω * ρ / (4 * η) * r ^ 2 : ℝ))).comp r (hasDerivAt_arg η ρ ω r)
  refine h.congr_deriv ?_
  unfold oscU'
  simp only [Nat.zero_add]
  ring

theorem hasDerivAt_oscFlux (hη : η ≠ 0) (r : ℝ) :
    HasDerivAt (fun x : ℝ => η * x * oscU' η ρ ω x) (I * ω * ρ * oscU η ρ ω r * r) r := by
  have h1 := (hasDerivAt_bes 1 (I * (ω * ρ / (4 * η) * r ^ 2 : ℝ))).comp r (hasDerivAt_arg η ρ ω r)
  have h2 : HasDerivAt (fun x : ℝ => I * ((ω * ρ / 2 * x ^ 2 : ℝ) : ℂ)) (I * (ω * ρ * r : ℝ)) r := by
    have : HasDerivAt (fun r : ℝ => ω * ρ / 2 * r ^ 2) (ω * ρ * r) r := by
      refine ((hasDerivAt_pow 2 r).const_mul _).congr_deriv ?_
      simp
      ring
    exact this.ofReal_comp.const_mul I
  have h := h2.mul h1
  have hη' : (η : ℂ) ≠ 0 := Complex.ofReal_ne_zero.mpr hη
  have hf : (fun x : ℝ => (η : ℂ) * x * oscU' η ρ ω x)
      = (fun x : ℝ => I * ((ω * ρ / 2 * x ^ 2 : ℝ) : ℂ)) * (bes 1 ∘ fun x : ℝ => I * ((ω * ρ / (4 * η) * x ^ 2 : ℝ) : ℂ)) := by
    funext x
    simp only [Pi.mul_apply, Function.comp]
    unfold oscU'
    push_cast
    field
  rw [hf]
  refine h.congr_deriv ?_
  have hrec := bes_rec 0 (I * (ω * ρ / (4 * η) * r ^ 2 : ℝ))
  unfold oscU
  rw [hrec]
  simp only [Function.comp]
  push_cast
  simp only [zero_add, one_mul]
  have hx : bes (1 + 1) = bes 2 := rfl
  rw [hx]
  generalize bes 1 (I * (ω * ρ / (4 * η) * r ^ 2)) = B
  generalize bes 2 (I * (ω * ρ / (4 * η) * r ^ 2)) = C
  field

/-- What the balance of forces says about the total flow. -/
theorem osc_mean (ha : 0 < a) {X : ℂ} {v s : ℝ → ℂ}
    (h : OscillatingFlow a η ρ ω X v s) :
    I * ω * ρ * ∫ r in (0 : ℝ)..a, v r * r = η * a * s a + X * a ^ 2 / 2 := by
  have hc : ContinuousOn (fun x : ℝ => (η : ℂ) * x * s x) (Icc 0 a) := by
    refine ContinuousOn.mul (Continuous.continuousOn (by fun_prop)) h.cont'
  have hv : ContinuousOn (fun r : ℝ => v r * r) (Icc 0 a) :=
    h.cont.mul (Continuous.continuousOn (by fun_prop))
  have hi : ContinuousOn (fun r : ℝ => (I * ω * ρ * v r - X) * r) (Icc 0 a) :=
    ((continuousOn_const.mul h.cont).sub continuousOn_const).mul (Continuous.continuousOn (by fun_prop))
  have ii : IntervalIntegrable (fun r : ℝ => (I * ω * ρ * v r - X) * r) MeasureTheory.volume 0 a :=
    ContinuousOn.intervalIntegrable (by rwa [uIcc_of_le ha.le])
  have iv : IntervalIntegrable (fun r : ℝ => v r * r) MeasureTheory.volume 0 a :=
    ContinuousOn.intervalIntegrable (by rwa [uIcc_of_le ha.le])
  have ftc := intervalIntegral.integral_eq_sub_of_hasDerivAt_of_le ha.le hc h.balance ii
  have e : ∫ r in (0 : ℝ)..a, (I * ω * ρ * v r - X) * r
      = I * ω * ρ * (∫ r in (0 : ℝ)..a, v r * r) - X * ∫ r in (0 : ℝ)..a, ((r : ℝ) : ℂ) := by
    rw [← intervalIntegral.integral_const_mul, ← intervalIntegral.integral_const_mul,
      ← intervalIntegral.integral_sub (iv.const_mul _) (Continuous.intervalIntegrable (by fun_prop) _ _)]
    congr 1
    funext r
    ring
  have e2 : ∫ r in (0 : ℝ)..a, ((r : ℝ) : ℂ) = a ^ 2 / 2 := by
    rw [intervalIntegral.integral_ofReal, integral_id]
    push_cast
    ring
  rw [e, e2] at ftc
  simp only [Complex.ofReal_zero, mul_zero, zero_mul, sub_zero] at ftc
  linear_combination ftc

/-- Comparison with the decaying solution gives the shear rate at the wall. -/
theorem osc_wall (ha : 0 < a) (hη : 0 < η) {X : ℂ} {v s : ℝ → ℂ}
    (h : OscillatingFlow a η ρ ω X v s) :
    I * ω * ρ * (s a * oscU η ρ ω a) = -X * oscU' η ρ ω a := by
  have cu := continuous_oscU (η := η) (ρ := ρ) (ω := ω)
  have cu' := continuous_oscU' (η := η) (ρ := ρ) (ω := ω)
  let L : ℝ → ℂ := fun r => I * ω * ρ * ((η * r * s r) * oscU η ρ ω r - v r * (η * r * oscU' η ρ ω r))
    + X * (η * r * oscU' η ρ ω r)
  have hc : ContinuousOn L (Icc 0 a) := by
    have h1 : ContinuousOn (fun r : ℝ => (η : ℂ) * r * s r) (Icc 0 a) :=
      ContinuousOn.mul (Continuous.continuousOn (by fun_prop)) h.cont'
    have h2 : ContinuousOn (fun r : ℝ => (η : ℂ) * r * oscU' η ρ ω r) (Icc 0 a) :=
      Continuous.continuousOn (by fun_prop)
    exact (continuousOn_const.mul ((h1.mul cu.continuousOn).sub (h.cont.mul h2))).add
      (continuousOn_const.mul h2)
  have hd : ∀ r ∈ Ioo 0 a, HasDerivAt L 0 r := by
    intro r hr
    have d1 := h.balance r hr
    have d2 := hasDerivAt_oscU (η := η) (ρ := ρ) (ω := ω) r
    have d3 := hasDerivAt_oscFlux (ρ := ρ) (ω := ω) hη.ne' r
    have d4 := h.shear r hr
    refine ((((d1.mul d2).sub (d4.mul d3)).const_mul (I * ω * ρ)).add (d3.const_mul X)).congr_deriv ?_
    ring
  have ftc := intervalIntegral.integral_eq_sub_of_hasDerivAt_of_le ha.le hc hd
    (by simp)
  simp only [intervalIntegral.integral_zero, L, h.wall, Complex.ofReal_zero, mul_zero, zero_mul, sub_zero,
    add_zero] at ftc
  have hη' : (η : ℂ) * a ≠ 0 := mul_ne_zero (Complex.ofReal_ne_zero.mpr hη.ne') (Complex.ofReal_ne_zero.mpr ha.ne')
  apply mul_left_cancel₀ hη'
  linear_combination -ftc

/-- The pore parameter. -/
theorem osc_arg (ha : 0 < a) (hη : 0 < η) (hρ : 0 < ρ) (hω : 0 < ω) :
    ω * ρ / (4 * η) * a ^ 2 = √(ω * a ^ 2 * ρ / η) ^ 2 / 4 ∧ 0 < √(ω * a ^ 2 * ρ / η) := by
  have p : 0 < ω * a ^ 2 * ρ / η := by positivity
  refine ⟨?_, Real.sqrt_pos.mpr p⟩
  rw [Real.sq_sqrt p.le]
  field

theorem meanVelocity_eq (ha : 0 < a) (v : ℝ → ℂ) :
    meanVelocity a v = 2 / a ^ 2 * ∫ r in (0 : ℝ)..a, v r * r := by
  have e : ∀ r : ℝ, v r * ((2 * Real.pi * r : ℝ) : ℂ) = (2 * Real.pi : ℝ) * (v r * r) := by
    intro r; push_cast; ring
  unfold meanVelocity
  simp only [e]
  rw [intervalIntegral.integral_const_mul]
  have h1 : (Real.pi : ℂ) ≠ 0 := Complex.ofReal_ne_zero.mpr Real.pi_ne_zero
  have h2 : (a : ℂ) ≠ 0 := Complex.ofReal_ne_zero.mpr ha.ne'
  push_cast
  field

/-- The friction factor exists, is unique and is given by the series. -/
theorem friction_iff (ha : 0 < a) (hη : 0 < η) (hρ : 0 < ρ) (hω : 0 < ω) (F : ℂ) :
    IsFrictionFactor a η ρ ω F ↔ F = besF √(ω * a ^ 2 * ρ / η) := by
  obtain ⟨harg, hζ⟩ := osc_arg ha hη hρ hω
  have q0 := quad_all (y := √(ω * a ^ 2 * ρ / η) ^ 2 / 4) (by positivity) 0
  have q1 := quad_all (y := √(ω * a ^ 2 * ρ / η) ^ 2 / 4) (by positivity) 1
  have hA := q0.1
  have hC := q1.2.1
  have hrec := bes_rec 0 (I * (√(ω * a ^ 2 * ρ / η) ^ 2 / 4 : ℝ))
  have hη' : (η : ℂ) ≠ 0 := Complex.ofReal_ne_zero.mpr hη.ne'
  have hρ' : (ρ : ℂ) ≠ 0 := Complex.ofReal_ne_zero.mpr hρ.ne'
  have hω' : (ω : ℂ) ≠ 0 := Complex.ofReal_ne_zero.mpr hω.ne'
  have ha' : (a : ℂ) ≠ 0 := Complex.ofReal_ne_zero.mpr ha.ne'
  have hπ : (Real.pi : ℂ) ≠ 0 := Complex.ofReal_ne_zero.mpr Real.pi_ne_zero
  have hI := I_ne_zero
  -- both sides in terms of the series
  have both : ∀ X v s, OscillatingFlow a η ρ ω X v s →
      wallFriction a η s = Real.pi * a ^ 2 * X * (bes 1 (I * (√(ω * a ^ 2 * ρ / η) ^ 2 / 4 : ℝ))
        / bes 0 (I * (√(ω * a ^ 2 * ρ / η) ^ 2 / 4 : ℝ))) ∧
      8 * Real.pi * η * meanVelocity a v = 2 * Real.pi * a ^ 2 * X
        * (bes 2 (I * (√(ω * a ^ 2 * ρ / η) ^ 2 / 4 : ℝ)) / bes 0 (I * (√(ω * a ^ 2 * ρ / η) ^ 2 / 4 : ℝ))) := by
    intro X v s h
    have w := osc_wall ha hη h
    have m := osc_mean ha h
    rw [meanVelocity_eq ha]
    unfold wallFriction
    unfold oscU oscU' at w
    rw [harg] at w
    have ht : I * ((√(ω * a ^ 2 * ρ / η) ^ 2 / 4 : ℝ) : ℂ) = I * (ω * ρ * a ^ 2 / (4 * η)) := by
      rw [← harg]; push_cast; ring
    simp only [CharP.cast_eq_zero, zero_add, one_mul] at hrec hA hC
    rw [show (1 + 1 : ℕ) = 2 from rfl] at hC
    generalize bes 0 (I * ((√(ω * a ^ 2 * ρ / η) ^ 2 / 4 : ℝ) : ℂ)) = A at *
    generalize bes 1 (I * ((√(ω * a ^ 2 * ρ / η) ^ 2 / 4 : ℝ) : ℂ)) = B at *
    generalize bes 2 (I * ((√(ω * a ^ 2 * ρ / η) ^ 2 / 4 : ℝ) : ℂ)) = C at *
    rw [ht] at hrec
    have ws : s a = -(X * a / (2 * η)) * (B / A) := by
      have hk : I * ω * ρ * A ≠ 0 := by simp [hω', hρ', hA]
      apply mul_left_cancel₀ hk
      push_cast at w
      have : I * ω * ρ * A * (-(X * a / (2 * η)) * (B / A)) = -X * (I * (ω * ρ / (2 * η) * a) * B) := by
        field
      rw [this]
      linear_combination w
    constructor
    · rw [ws]
      push_cast
      field
    · have hw : (∫ r in (0 : ℝ)..a, v r * r) = X * a ^ 4 / (8 * η) * (C / A) := by
        have hk : I * ω * ρ ≠ 0 := by simp [hω', hρ']
        apply mul_left_cancel₀ hk
        rw [m, ws]
        have e : I * ω * ρ * (X * a ^ 4 / (8 * η) * (C / A)) = X * a ^ 2 / 2 * ((A - B) / A) := by
          rw [hrec]
          have hA' : B + I * (ω * ρ * a ^ 2 / (4 * η)) * C ≠ 0 := by rw [← hrec]; exact hA
          field
        rw [e]
        field
      rw [hw]
      field
  constructor
  · intro h
    -- a flow
    let u := oscU η ρ ω
    have hu : u a ≠ 0 := by
      simp only [u]
      unfold oscU
      rw [harg]
      exact hA
    have flow : OscillatingFlow a η ρ ω 1 (fun r => 1 / (I * ω * ρ) * (1 - u r / u a))
        (fun r => -(1 / (I * ω * ρ)) * (oscU' η ρ ω r / u a)) := by
      have cu := continuous_oscU (η := η) (ρ := ρ) (ω := ω)
      have cu' := continuous_oscU' (η := η) (ρ := ρ) (ω := ω)
      refine ⟨Continuous.continuousOn (by fun_prop), Continuous.continuousOn (by fun_prop), ?_, ?_, ?_⟩
      · simp [div_self hu]
      · intro r _
        have d := hasDerivAt_oscU (η := η) (ρ := ρ) (ω := ω) r
        refine (((d.div_const (u a)).const_sub 1).const_mul _).congr_deriv ?_
        ring
      · intro r _
        have d := hasDerivAt_oscFlux (ρ := ρ) (ω := ω) hη.ne' r
        have e : (fun x : ℝ => (η : ℂ) * x * (-(1 / (I * ω * ρ)) * (oscU' η ρ ω x / u a)))
            = fun x : ℝ => -(1 / (I * ω * ρ)) / u a * (η * x * oscU' η ρ ω x) := by
          funext x; ring
        rw [e]
        refine (d.const_mul _).congr_deriv ?_
        change _ = (I * ω * ρ * (1 / (I * ω * ρ) * (1 - oscU η ρ ω r / u a)) - 1) * r
        generalize u a = U at *
        generalize oscU η ρ ω r = W
        field
    have h1 := h _ _ _ flow
    obtain ⟨b1, b2⟩ := both _ _ _ flow
    rw [b1, b2] at h1
    unfold besF
    rw [show (1 + 1 : ℕ) = 2 from rfl] at hC
    generalize bes 0 (I * ((√(ω * a ^ 2 * ρ / η) ^ 2 / 4 : ℝ) : ℂ)) = A at *
    generalize bes 1 (I * ((√(ω * a ^ 2 * ρ / η) ^ 2 / 4 : ℝ) : ℂ)) = B at *
    generalize bes 2 (I * ((√(ω * a ^ 2 * ρ / η) ^ 2 / 4 : ℝ) : ℂ)) = C at *
    field_simp at h1
    field_simp
    linear_combination -h1
  · rintro rfl X v s h
    obtain ⟨b1, b2⟩ := both _ _ _ h
    rw [b1, b2]
    unfold besF
    rw [show (1 + 1 : ℕ) = 2 from rfl] at hC
    generalize bes 0 (I * ((√(ω * a ^ 2 * ρ / η) ^ 2 / 4 : ℝ) : ℂ)) = A at *
    generalize bes 1 (I * ((√(ω * a ^ 2 * ρ / η) ^ 2 / 4 : ℝ) : ℂ)) = B at *
    generalize bes 2 (I * ((√(ω * a ^ 2 * ρ / η) ^ 2 / 4 : ℝ) : ℂ)) = C at *
    field

/-! ## Property C98 -/

/-- C98: with the viscosity alone (no inertia) the friction is that of a steady flow. -/
theorem C98_steady (ha : 0 < a) (hη : 0 < η) : IsFrictionFactor a η ρ 0 1 := by
  intro X v s h
  have m := osc_mean ha h
  simp only [Complex.ofReal_zero, mul_zero, zero_mul] at m
  have hη' : (η : ℂ) ≠ 0 := Complex.ofReal_ne_zero.mpr hη.ne'
  have ha' : (a : ℂ) ≠ 0 := Complex.ofReal_ne_zero.mpr ha.ne'
  have ws : s a = -(X * a / (2 * η)) := by
    have hk : (η : ℂ) * a ≠ 0 := mul_ne_zero hη' ha'
    apply mul_left_cancel₀ hk
    have : (η : ℂ) * a * -(X * a / (2 * η)) = -(X * a ^ 2 / 2) := by field
    rw [this]
    linear_combination -m
  -- the mean velocity, by comparison with a parabola
  have hL : 16 * η * ∫ r in (0 : ℝ)..a, v r * r = X * a ^ 4 := by
    have sv : ∀ r ∈ Ioo 0 a, s r = -(X * r / (2 * η)) := by
      intro r hr
      have hsub : OscillatingFlow r η ρ 0 X (fun x => v x - v r) s :=
        ⟨(h.cont.mono (Icc_subset_Icc le_rfl hr.2.le)).sub continuousOn_const,
          h.cont'.mono (Icc_subset_Icc le_rfl hr.2.le), by simp,
          fun x hx => (h.shear x ⟨hx.1, hx.2.trans hr.2⟩).sub_const _,
          fun x hx => by
            have := h.balance x ⟨hx.1, hx.2.trans hr.2⟩
            simpa using this⟩
      have m := osc_mean hr.1 hsub
      simp only [Complex.ofReal_zero, mul_zero, zero_mul] at m
      have hr' : (r : ℂ) ≠ 0 := Complex.ofReal_ne_zero.mpr hr.1.ne'
      apply mul_left_cancel₀ (mul_ne_zero hη' hr')
      have : (η : ℂ) * r * -(X * r / (2 * η)) = -(X * r ^ 2 / 2) := by field
      rw [this]
      linear_combination -m
    let Q : ℝ → ℂ := fun r => 8 * η * r ^ 2 * v r + X * r ^ 4
    have hQc : ContinuousOn Q (Icc 0 a) :=
      ((Continuous.continuousOn (by fun_prop)).mul h.cont).add (Continuous.continuousOn (by fun_prop))
    have hv : ContinuousOn (fun r : ℝ => v r * r) (Icc 0 a) :=
      h.cont.mul (Continuous.continuousOn (by fun_prop))
    have iv : IntervalIntegrable (fun r : ℝ => v r * r) MeasureTheory.volume 0 a :=
      ContinuousOn.intervalIntegrable (by rwa [uIcc_of_le ha.le])
    have pw : ∀ (k : ℕ) (r : ℝ), HasDerivAt (fun x : ℝ => (x : ℂ) ^ k) (k * (r : ℂ) ^ (k - 1)) r := by
      intro k r
      have := (hasDerivAt_pow k r).ofReal_comp
      push_cast at this
      exact this
    have hQd : ∀ r ∈ Ioo 0 a, HasDerivAt Q (16 * η * (v r * r)) r := by
      intro r hr
      refine ((((pw 2 r).const_mul (8 * η : ℂ)).mul (h.shear r hr)).add ((pw 4 r).const_mul X)).congr_deriv ?_
      rw [sv r hr]
      norm_num
      field
    have ftc := intervalIntegral.integral_eq_sub_of_hasDerivAt_of_le ha.le hQc hQd (iv.const_mul _)
    rw [intervalIntegral.integral_const_mul] at ftc
    simp only [Q, h.wall] at ftc
    rw [ftc]
    simp
  rw [meanVelocity_eq ha, one_mul]
  unfold wallFriction
  rw [ws]
  have hw : (∫ r in (0 : ℝ)..a, v r * r) = X * a ^ 4 / (16 * η) := by
    rw [← hL]; field
  rw [hw]
  push_cast
  field

/-- C98: an oscillating flow has exactly one friction factor.  It is at least that of steady flow,
leads the mean velocity in phase, and differs from that of steady flow by at most `ζ²/24`. -/
theorem C98_friction (ha : 0 < a) (hη : 0 < η) (hρ : 0 < ρ) (hω : 0 < ω) :
    ∃ F : ℂ, (∀ F', IsFrictionFactor a η ρ ω F' ↔ F' = F) ∧ 1 ≤ F.re ∧ 0 < F.im ∧
      ‖F - 1‖ ≤ ω * a ^ 2 * ρ / η / 24 := by
  obtain ⟨-, hζ⟩ := osc_arg ha hη hρ hω
  obtain ⟨h1, h2, h3⟩ := besF_facts hζ
  refine ⟨_, friction_iff ha hη hρ hω, h1, h2, ?_⟩
  rwa [Real.sq_sqrt (by positivity)] at h3

/-- C98: in a rock pervaded by straight tubes of radius `a` (porosity `φ`, permeability `φ a²/8`,
tortuosity one) the force that drives the fluid is `iω` times the inertia and drag of Biot's theory
times the flow per unit area. -/
theorem C98_drag (ha : 0 < a) (hη : 0 < η) (hω : 0 < ω) {φ : ℝ} (hφ : 0 < φ) (F : ℂ)
    (hF : IsFrictionFactor a η ρ ω F) (X : ℂ) (v s : ℝ → ℂ) (h : OscillatingFlow a η ρ ω X v s) :
    X = I * ω * drag ρ η φ (φ * a ^ 2 / 8) 1 ω F * (φ * meanVelocity a v) := by
  have m := osc_mean ha h
  have f := hF X v s h
  have hm := meanVelocity_eq ha v
  have hη' : (η : ℂ) ≠ 0 := Complex.ofReal_ne_zero.mpr hη.ne'
  have hω' : (ω : ℂ) ≠ 0 := Complex.ofReal_ne_zero.mpr hω.ne'
  have hφ' : (φ : ℂ) ≠ 0 := Complex.ofReal_ne_zero.mpr hφ.ne'
  have ha' : (a : ℂ) ≠ 0 := Complex.ofReal_ne_zero.mpr ha.ne'
  have hπ : (Real.pi : ℂ) ≠ 0 := Complex.ofReal_ne_zero.mpr Real.pi_ne_zero
  unfold wallFriction at f
  have hW : (∫ r in (0 : ℝ)..a, v r * r) = a ^ 2 / 2 * meanVelocity a v := by rw [hm]; field
  rw [hW] at m
  have hs : s a = -(4 * F * meanVelocity a v / a) := by
    have hk : (2 * Real.pi * a * η : ℂ) ≠ 0 := by simp [hπ, ha', hη']
    apply mul_left_cancel₀ hk
    push_cast at f
    have : (2 * Real.pi * a * η : ℂ) * -(4 * F * meanVelocity a v / a) = -(F * (8 * Real.pi * η * meanVelocity a v)) := by
      field
    rw [this]
    linear_combination -f
  rw [hs] at m
  unfold drag
  push_cast
  generalize meanVelocity a v = V at *
  have e : I * ω * (1 * ρ / φ - I * (η * F / (ω * (φ * a ^ 2 / 8)))) * (φ * V)
      = I * ω * ρ * V + 8 * η * F * V / a ^ 2 := by
    field_simp
    linear_combination (-8 * η * F * V) * I_sq
  rw [e]
  have e2 : (η : ℂ) * a * -(4 * F * V / a) = -(4 * η * F * V) := by field
  rw [e2] at m
  field_simp
  linear_combination -2 * m

/-- The ratio of Bessel functions the code forms. -/
theorem bessel_ratio (ζ : ℝ) :
    besselJ 0 (ζ * Complex.exp (-I * Real.pi / 4)) ≠ 0 ∧
    Complex.exp (3 * Real.pi / 4 * I) * (besselJ 1 (ζ * Complex.exp (-I * Real.pi / 4))
        / besselJ 0 (ζ * Complex.exp (-I * Real.pi / 4))) = besT ζ := by
  have e1 : -(ζ * Complex.exp (-I * Real.pi / 4)) ^ 2 / 4 = I * (ζ ^ 2 / 4 : ℝ) := by
    have : Complex.exp (-I * Real.pi / 4) ^ 2 = -I := by
      rw [← Complex.exp_nat_mul, show ((2 : ℕ) : ℂ) * (-I * Real.pi / 4) = -(Real.pi / 2 * I) by push_cast; ring,
        Complex.exp_neg, Complex.exp_pi_div_two_mul_I, Complex.inv_I]
    rw [mul_pow, this]
    push_cast; ring
  have e2 : Complex.exp (3 * Real.pi / 4 * I) * Complex.exp (-I * Real.pi / 4) = I := by
    rw [← Complex.exp_add, show (3 * Real.pi / 4 * I + -I * Real.pi / 4 : ℂ) = Real.pi / 2 * I by ring,
      Complex.exp_pi_div_two_mul_I]
  have h0 := bes_zero_ne ζ
  rw [besselJ_eq, besselJ_eq, e1]
  unfold besT
  generalize bes 0 (I * (ζ ^ 2 / 4 : ℝ)) = A at *
  generalize bes 1 (I * (ζ ^ 2 / 4 : ℝ)) = B at *
  constructor
  · simpa using h0
  · have : Complex.exp (3 * Real.pi / 4 * I) * ((ζ * Complex.exp (-I * Real.pi / 4) / 2) ^ 1 * B / ((ζ * Complex.exp (-I * Real.pi / 4) / 2) ^ 0 * A))
        = (Complex.exp (3 * Real.pi / 4 * I) * Complex.exp (-I * Real.pi / 4)) * ζ / 2 * (B / A) := by
      rw [pow_zero, pow_one, one_mul]; ring
    rw [this, e2]

theorem flowCorrection_besT {ζ : ℝ} (hζ : 0 < ζ) :
    1 + 2 * I * besT ζ / ζ ≠ 0 ∧ flowCorrection ζ (besT ζ) = besF ζ := by
  have h0 := (quad_all (y := ζ ^ 2 / 4) (by positivity) 0).1
  have h2 := (quad_all (y := ζ ^ 2 / 4) (by positivity) 1).2.1
  rw [show (1 + 1 : ℕ) = 2 from rfl] at h2
  have hrec := bes_rec 0 (I * (ζ ^ 2 / 4 : ℝ))
  have hζ' : (ζ : ℂ) ≠ 0 := Complex.ofReal_ne_zero.mpr hζ.ne'
  have e : 1 + 2 * I * besT ζ / ζ
      = I * (ζ ^ 2 / 4 : ℝ) * bes 2 (I * (ζ ^ 2 / 4 : ℝ)) / bes 0 (I * (ζ ^ 2 / 4 : ℝ)) := by
    unfold besT
    simp only [CharP.cast_eq_zero, zero_add, one_mul] at hrec
    rw [eq_div_iff h0]
    generalize bes 0 (I * (ζ ^ 2 / 4 : ℝ)) = A at *
    generalize bes 1 (I * (ζ ^ 2 / 4 : ℝ)) = B at *
    generalize bes 2 (I * (ζ ^ 2 / 4 : ℝ)) = C at *
    field_simp
    linear_combination hrec + B * I_sq
  constructor
  · rw [e]
    have : ((ζ ^ 2 / 4 : ℝ) : ℂ) ≠ 0 := Complex.ofReal_ne_zero.mpr (by positivity)
    exact div_ne_zero (mul_ne_zero (mul_ne_zero I_ne_zero this) h2) h0
  · unfold flowCorrection
    rw [e]
    unfold besT besF
    have hI := I_ne_zero
    generalize bes 0 (I * (ζ ^ 2 / 4 : ℝ)) = A at *
    generalize bes 1 (I * (ζ ^ 2 / 4 : ℝ)) = B at *
    generalize bes 2 (I * (ζ ^ 2 / 4 : ℝ)) = C at *
    push_cast
    field

/-- The error above the threshold. -/
theorem high_error {ζ : ℝ} (h : 1000 < ζ) :
    ‖flowCorrection ζ ((1 + I) / √2) - besF ζ‖ ≤ 3 / 2 / ζ * ‖besF ζ‖ := by
  have hζ : 0 < ζ := by linarith
  obtain ⟨d1, e1⟩ := flowCorrection_besT hζ
  have d0 := (flow_high h).1
  have near := besT_near hζ
  have t0 := besT0_norm
  rw [← e1]
  change ‖flowCorrection ζ besT0 - flowCorrection ζ (besT ζ)‖ ≤ 3 / 2 / ζ * ‖flowCorrection ζ (besT ζ)‖
  change 1 + 2 * I * besT0 / ζ ≠ 0 at d0
  have hζ' : (ζ : ℂ) ≠ 0 := Complex.ofReal_ne_zero.mpr hζ.ne'
  have s2 : √2 < 1.4143 := by
    rw [Real.sqrt_lt' (by norm_num)]; norm_num
  have nz : √2 / ζ ≤ 0.0014143 := by
    rw [div_le_iff₀ hζ]; nlinarith
  have hT : 0.998 ≤ ‖besT ζ‖ := by
    have : ‖besT0‖ ≤ ‖besT ζ‖ + ‖besT ζ - besT0‖ := by
      have := norm_sub_le (besT ζ) (besT ζ - besT0)
      rwa [sub_sub_cancel] at this
    linarith
  have hD : 0.998 ≤ ‖1 + 2 * I * besT0 / ζ‖ := by
    have h1 : ‖2 * I * besT0 / (ζ : ℂ)‖ = 2 / ζ := by
      rw [norm_div, norm_mul, norm_mul, t0, Complex.norm_I, Complex.norm_real, Real.norm_eq_abs,
        abs_of_pos hζ, Complex.norm_ofNat]
      ring
    have h2 : 2 / ζ ≤ 0.002 := by rw [div_le_iff₀ hζ]; linarith
    have h3 : ‖(1 : ℂ)‖ ≤ ‖1 + 2 * I * besT0 / ζ‖ + ‖2 * I * besT0 / (ζ : ℂ)‖ := by
      have := norm_sub_le (1 + 2 * I * besT0 / ζ) (2 * I * besT0 / (ζ : ℂ))
      rwa [add_sub_cancel_right] at this
    rw [norm_one, h1] at h3
    linarith
  have hT0 : besT ζ ≠ 0 := fun e => by rw [e, norm_zero] at hT; norm_num at hT
  have key : flowCorrection ζ besT0 - flowCorrection ζ (besT ζ)
      = flowCorrection ζ (besT ζ) * (-(besT ζ - besT0) / (besT ζ * (1 + 2 * I * besT0 / ζ))) := by
    unfold flowCorrection
    have d1' : (ζ : ℂ) + 2 * I * besT ζ ≠ 0 := fun e => d1 (by field_simp; linear_combination e)
    have d0' : (ζ : ℂ) + 2 * I * besT0 ≠ 0 := fun e => d0 (by field_simp; linear_combination e)
    generalize besT ζ = T at *
    generalize besT0 = T0 at *
    have x1 : 1 + 2 * I * T / ζ = (ζ + 2 * I * T) / ζ := by field
    have x0 : 1 + 2 * I * T0 / ζ = (ζ + 2 * I * T0) / ζ := by field
    rw [x1, x0]
    have d1'' : (ζ : ℂ) + T * 2 * I ≠ 0 := fun e => d1' (by linear_combination e)
    have d0'' : (ζ : ℂ) + T0 * 2 * I ≠ 0 := fun e => d0' (by linear_combination e)
    field
  rw [key, norm_mul, mul_comm]
  refine mul_le_mul_of_nonneg_right ?_ (norm_nonneg _)
  rw [norm_div, norm_neg, norm_mul]
  have hp : 0 < ‖besT ζ‖ * ‖1 + 2 * I * besT0 / ζ‖ := by positivity
  rw [div_le_div_iff₀ hp hζ]
  have h1 : ‖besT ζ - besT0‖ * ζ ≤ √2 := by rwa [le_div_iff₀ hζ] at near
  have h2 : 0.998 * 0.998 ≤ ‖besT ζ‖ * ‖1 + 2 * I * besT0 / ζ‖ := by gcongr
  linarith

/-- C98: with true Bessel functions the flow correction of the code is a number at every frequency and
dissipates.  Between the two thresholds it is the friction factor of oscillating flow in a tube; below
it is off by at most `ζ²/24 < 0.0005`, above by a relative error of at most `1.5/ζ < 0.0015`. -/
theorem C98_code (jv0 jv1 : Cx Fl → Cx Fl) (hj0 : ∀ z, jv0 (cx z) = cx (besselJ 0 z))
    (hj1 : ∀ z, jv1 (cx z) = cx (besselJ 1 z)) (ha : 0 < a) (hη : 0 < η) (hρ : 0 < ρ) (hω : 0 < ω) :
    let ζ := √(ω * a ^ 2 * ρ / η)
    ∃ F F' : ℂ, IsFrictionFactor a η ρ ω F ∧ Biot_F jv0 jv1 (fin ζ) = cx F' ∧
      IsFlow (besselJ 0) (besselJ 1) ζ F' ∧ 0 < F'.re ∧ 0 ≤ F'.im ∧
      (0.1 ≤ ζ → ζ ≤ 1000 → F' = F) ∧ (ζ < 0.1 → F' = 1 ∧ ‖F' - F‖ ≤ ζ ^ 2 / 24) ∧
      (1000 < ζ → ‖F' - F‖ ≤ 3 / 2 / ζ * ‖F‖) := by
  intro ζ
  have hζ : 0 < ζ := (osc_arg ha hη hρ hω).2
  obtain ⟨f1, f2, f3⟩ := besF_facts hζ
  have hF : IsFrictionFactor a η ρ ω (besF ζ) := (friction_iff ha hη hρ hω _).mpr rfl
  obtain ⟨n0, r⟩ := bessel_ratio ζ
  obtain ⟨d, e⟩ := flowCorrection_besT hζ
  rcases lt_or_ge ζ 0.1 with hl | hl
  · refine ⟨besF ζ, 1, hF, Biot_F_low _ _ hl, Or.inl ⟨hl, rfl⟩, by simp, by simp, fun h => absurd h hl.not_ge,
      fun _ => ⟨rfl, ?_⟩, fun h => absurd h ?_⟩
    · rw [norm_sub_rev]; exact f3
    · exact not_lt.mpr (hl.le.trans (by norm_num))
  · rcases le_or_gt ζ 1000 with hh | hh
    · have hflow : IsFlow (besselJ 0) (besselJ 1) ζ (besF ζ) :=
        Or.inr (Or.inl ⟨hl, hh, n0, besT ζ, r.symm, d, e.symm⟩)
      exact ⟨besF ζ, besF ζ, hF, Biot_F_eval hj0 hj1 hflow, hflow, by linarith, f2.le, fun _ _ => rfl,
        fun h => absurd h hl.not_gt, fun h => absurd h hh.not_gt⟩
    · have hflow : IsFlow (besselJ 0) (besselJ 1) ζ (flowCorrection ζ ((1 + I) / √2)) :=
        Or.inr (Or.inr ⟨hh, rfl⟩)
      exact ⟨besF ζ, _, hF, Biot_F_eval hj0 hj1 hflow, hflow, (flow_high hh).2.2.1, (flow_high hh).2.2.2.le,
        fun _ h => absurd h hh.not_ge, fun h => absurd h hl.not_gt, fun _ => high_error hh⟩

end

section

variable {Kd G K0 Kf ρ0 ρf φ τ η κ a f : ℝ}

/-- C98: with true Bessel functions the results of the code are, at every positive frequency and
without further assumptions, the waves of Biot's theory, and the shear wave loses energy. -/
theorem C98_waves (jv0 jv1 : Cx Fl → Cx Fl) (hj0 : ∀ z, jv0 (cx z) = cx (besselJ 0 z))
    (hj1 : ∀ z, jv1 (cx z) = cx (besselJ 1 z)) (h : BiotRock Kd G K0 Kf ρ0 ρf φ τ) (hG : 0 < G)
    (hη : 0 < η) (hκ : 0 < κ) (ha : 0 < a) (hf : 0 < f) :
    ∃ (F s₁ s₂ s₃ q : ℂ) (T : ℝ), IsFlow (besselJ 0) (besselJ 1) (√(2 * Real.pi * f * a ^ 2 * ρf / η)) F ∧
      q = drag ρf η φ κ τ (2 * Real.pi * f) F ∧ q.im < 0 ∧ 0 < T ∧
      (∀ x, biotWave Kd G K0 Kf ρ0 ρf φ q x = T * (x - s₁) * (x - s₂)) ∧
      G * s₃ = bulkDensity ρ0 ρf φ - ρf ^ 2 / q ∧
      Biot jv0 jv1 (fin Kd) (fin G) (fin K0) (fin Kf) (fin ρ0) (fin ρf) (fin η) (fin φ) (fin κ)
          (fin a) (fin τ) (fin f)
        = (fin (phaseVelocity s₁), fin (phaseVelocity s₂), fin (phaseVelocity s₃),
           fin (1 / s₁).im / fin (1 / s₁).re, fin (1 / s₂).im / fin (1 / s₂).re,
           fin (1 / s₃).im / fin (1 / s₃).re) ∧
      0 < fin (1 / s₃).im / fin (1 / s₃).re := by
  have hω : 0 < 2 * Real.pi * f := by have := Real.pi_pos; positivity
  obtain ⟨F, F', -, -, hF, h0, h1, -⟩ := C98_code jv0 jv1 hj0 hj1 ha hη h.fluid hω
  obtain ⟨s₁, s₂, s₃, q, T, e1, e2, e3, e4, e5⟩ := C76_waves jv0 jv1 _ _ hj0 hj1 h hG hη hκ hf F' hF h0
  have att := C76_shear_attenuates jv0 jv1 _ _ hj0 hj1 h hG hη hκ hf F' hF h0 h1
  rw [e5] at att
  refine ⟨F', s₁, s₂, s₃, q, T, hF, e1, ?_, e2, e3, e4, e5, att⟩
  rw [e1, drag_im]
  have : 0 < η * F'.re / (2 * Real.pi * f * κ) := by positivity
  linarith

/-- There are functions on numpy's complex numbers that meet the contract of `scipy.special.jv`. -/
example (n : ℕ) : ∃ jv : Cx Fl → Cx Fl, ∀ z, jv (cx z) = cx (besselJ n z) :=
  ⟨fun c => match c with
    | ⟨.fin x, .fin y⟩ => cx (besselJ n ⟨x, y⟩)
    | _ => ⟨bad, bad⟩, fun _ => rfl⟩

/-- A water filled tube of 0.1 mm radius at 100 Hz. -/
example : ∃ F : ℂ, IsFrictionFactor 1e-4 1e-3 1000 (2 * Real.pi * 100) F := by
  have h : (0 : ℝ) < 2 * Real.pi * 100 := by have := Real.pi_pos; positivity
  obtain ⟨F, h, -⟩ := C98_friction (a := 1e-4) (η := 1e-3) (ρ := 1000) (by norm_num) (by norm_num) (by norm_num) h
  exact ⟨F, (h F).mpr rfl⟩

end

end RockPhy.Props
