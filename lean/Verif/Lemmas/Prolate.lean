import Verif.Lemmas.Berryman
import Mathlib.Analysis.SpecialFunctions.Arcosh

/-! # Elongated (prolate) spheroids: closed form of the shape number and positivity -/

namespace RockPhy.Spec

open MeasureTheory Set Filter Topology

/-- `I_1` of a prolate spheroid in closed form. -/
theorem prolate_I1 {a : ℝ} (h1 : 1 < a) :
    muraI (spheroid a) 0
      = 2 * Real.pi * a * (a * √(a ^ 2 - 1) - Real.arcosh a) / √(a ^ 2 - 1) ^ 3 := by
  have h0 : 0 < a := by linarith
  have hc : 0 < a ^ 2 - 1 := by nlinarith
  have hcs : 0 < √(a ^ 2 - 1) := Real.sqrt_pos.mpr hc
  have hc2 : √(a ^ 2 - 1) ^ 2 = a ^ 2 - 1 := Real.sq_sqrt hc.le
  have hac : Real.arcosh a = Real.log (a + √(a ^ 2 - 1)) := rfl
  set c := √(a ^ 2 - 1) with hcdef
  have hca : c < a := by nlinarith
  have below : ∀ s : ℝ, 0 ≤ s → c < √(a ^ 2 + s) := by
    intro s hs
    exact hca.trans_le (Real.le_sqrt_of_sq_le (by linarith))
  have der : ∀ s ∈ Ici (0 : ℝ), HasDerivAt
      (fun s => -(√(a ^ 2 + s) / (c ^ 2 * (1 + s)))
        - 1 / (2 * c ^ 3) * (Real.log (√(a ^ 2 + s) - c) - Real.log (√(a ^ 2 + s) + c)))
      (1 / (((spheroid a) 0 ^ 2 + s) * shell (spheroid a) s)) s := by
    intro s hs
    have hs0 : 0 ≤ s := hs
    have hq : 0 < a ^ 2 + s := by positivity
    have hu : 0 < √(a ^ 2 + s) := Real.sqrt_pos.mpr hq
    have hu2 : √(a ^ 2 + s) ^ 2 = a ^ 2 + s := Real.sq_sqrt hq.le
    have hb := below s hs0
    have d0 : HasDerivAt (fun s => a ^ 2 + s) 1 s := (hasDerivAt_id s).const_add _
    have d := d0.sqrt hq.ne'
    have dl : HasDerivAt (fun s => c ^ 2 * (1 + s)) (c ^ 2 * 1) s :=
      ((hasDerivAt_id s).const_add _).const_mul _
    have d1 := (d.div dl (by positivity)).neg
    have d2 := (((d.sub_const c).log (by linarith)).sub
      ((d.add_const c).log (by positivity))).const_mul (1 / (2 * c ^ 3))
    refine HasDerivAt.congr_deriv (d1.sub d2) ?_
    rw [spheroid_shell hs0]
    have e0 : spheroid a 0 = 1 := rfl
    rw [e0, one_pow]
    have hA : a ^ 2 = 1 + c ^ 2 := by rw [hc2]; ring
    have hs1 : s = √(a ^ 2 + s) ^ 2 - a ^ 2 := by rw [hu2]; ring
    generalize √(a ^ 2 + s) = u at *
    have hs2 : 1 + s = (u - c) * (u + c) := by rw [hs1, hA]; ring
    rw [hs2]
    have n1 : u - c ≠ 0 := by linarith
    have n2 : u + c ≠ 0 := by positivity
    field
  have lim : Tendsto
      (fun s => -(√(a ^ 2 + s) / (c ^ 2 * (1 + s)))
        - 1 / (2 * c ^ 3) * (Real.log (√(a ^ 2 + s) - c) - Real.log (√(a ^ 2 + s) + c)))
      atTop (𝓝 (-0 - 1 / (2 * c ^ 3) * 0)) := by
    have tq : Tendsto (fun s : ℝ => √(a ^ 2 + s)) atTop atTop :=
      Real.tendsto_sqrt_atTop.comp (tendsto_atTop_add_const_left _ _ tendsto_id)
    refine Tendsto.sub (Tendsto.neg ?_) (Tendsto.const_mul _ ?_)
    · have z : Tendsto (fun s : ℝ => a ^ 2 / c ^ 2 * (√(a ^ 2 + s))⁻¹) atTop
          (𝓝 (a ^ 2 / c ^ 2 * 0)) := (tendsto_inv_atTop_zero.comp tq).const_mul _
      rw [mul_zero] at z
      refine squeeze_zero' (t₀ := atTop)
        (g := fun s : ℝ => a ^ 2 / c ^ 2 * (√(a ^ 2 + s))⁻¹) ?_ ?_ z
      · filter_upwards [eventually_ge_atTop 0] with s hs
        positivity
      · filter_upwards [eventually_ge_atTop 0] with s hs
        have hq : 0 < a ^ 2 + s := by positivity
        have hu : 0 < √(a ^ 2 + s) := Real.sqrt_pos.mpr hq
        have hu2 : √(a ^ 2 + s) ^ 2 = a ^ 2 + s := Real.sq_sqrt hq.le
        rw [div_le_iff₀ (by positivity)]
        have e : a ^ 2 / c ^ 2 * (√(a ^ 2 + s))⁻¹ * (c ^ 2 * (1 + s))
            = a ^ 2 * (1 + s) / √(a ^ 2 + s) := by field
        rw [e, le_div_iff₀ hu, ← sq, hu2]
        nlinarith
    · have z : Tendsto (fun u : ℝ => Real.log ((u - c) / (u + c))) atTop (𝓝 0) := by
        have z1 : Tendsto (fun u : ℝ => 1 - 2 * c * (u + c)⁻¹) atTop (𝓝 (1 - 2 * c * 0)) :=
          tendsto_const_nhds.sub ((tendsto_inv_atTop_zero.comp
            (tendsto_atTop_add_const_right _ _ tendsto_id)).const_mul _)
        have z2 := z1.log (by norm_num)
        rw [mul_zero, sub_zero, Real.log_one] at z2
        refine z2.congr' ?_
        filter_upwards [eventually_gt_atTop 0] with u hu
        congr 1
        have : u + c ≠ 0 := by positivity
        field_simp
        ring
      refine (z.comp tq).congr' ?_
      filter_upwards [eventually_ge_atTop 0] with s hs
      have hb := below s hs
      rw [Function.comp_apply, Real.log_div (by linarith) (by positivity)]
  have h := integral_Ioi_of_hasDerivAt_of_tendsto' der
    (single_integrable (spheroid_pos h0) 0) lim
  unfold muraI
  rw [h]
  have e0 : spheroid a 0 * spheroid a 1 * spheroid a 2 = a := by simp [spheroid]
  rw [e0, hac]
  have e1 : √(a ^ 2 + 0) = a := by rw [add_zero, Real.sqrt_sq h0.le]
  rw [e1]
  have e2 : Real.log (a - c) = -Real.log (a + c) := by
    have : a - c = (a + c)⁻¹ := by
      have : a + c ≠ 0 := by positivity
      field_simp
      nlinarith
    rw [this, Real.log_inv]
  rw [e2]
  field

/-- The closed form of `theta` for a prolate spheroid. -/
theorem shapeT_prolate {a : ℝ} (h1 : 1 < a) :
    shapeT a = a * (a * √(a ^ 2 - 1) - Real.arcosh a) / √(a ^ 2 - 1) ^ 3 := by
  have p := Real.pi_pos
  have hc : 0 < √(a ^ 2 - 1) := Real.sqrt_pos.mpr (by nlinarith)
  unfold shapeT
  rw [prolate_I1 h1]
  field

/-- Bounds on the shape numbers of a prolate spheroid. -/
theorem shape_bounds_prolate {a : ℝ} (h1 : 1 < a) :
    2 / 3 < shapeT a ∧ shapeT a < 1 ∧ shapeF a < 2 - 3 * shapeT a ∧ 0 < shapeT a + shapeF a := by
  have p := Real.pi_pos
  have ha : 0 < a := by linarith
  have hII := muraII_pos (spheroid_pos ha) 0 2
  have lt := muraII_lt (spheroid_pos ha) 0 2
  obtain ⟨i0, -, i2⟩ := spheroid_I ha
  have v2 : spheroid a 2 = a := rfl
  have v0 : spheroid a 0 = 1 := rfl
  obtain ⟨-, ef, -⟩ := spheroid_II ha
  rw [v2, ef, i0] at lt
  have d := spheroid_h ha
  have h2 : 0 < 2 - 3 * shapeT a - shapeF a := by
    rw [d] at hII
    exact pos_of_mul_pos_right hII (by positivity)
  have hI2 := muraI_pos (spheroid_pos ha) 2
  rw [i2] at hI2
  have ht1 : 0 < 1 - shapeT a := pos_of_mul_pos_right hI2 (by positivity)
  have dd := muraII_diff (spheroid_pos ha) 0 2
  rw [v0, v2, i0, i2] at dd
  have : (1 ^ 2 - a ^ 2) * muraII (spheroid a) 0 2 < 0 :=
    mul_neg_of_neg_of_pos (by nlinarith) hII
  have q : 0 < 2 * Real.pi * (3 * shapeT a - 2) := by linarith
  have q' := pos_of_mul_pos_right q (by positivity)
  refine ⟨by linarith, by linarith, by linarith, ?_⟩
  have q : 0 < 2 * Real.pi * (shapeT a + shapeF a) := by linarith
  exact pos_of_mul_pos_right q (by positivity)

section

variable {A B R t f : ℝ}

theorem bF2_prolate (hA : -1 ≤ A) (hB : -1 ≤ A + 3 * B) (hR : 0 < R) (hR' : R < 3 / 4)
    (ht : 2 / 3 < t) (ht' : t < 1) (hf : f < 2 - 3 * t) (hf' : 0 < t + f) :
    0 < bF2 A B R t f := by
  obtain ⟨a, rfl⟩ : ∃ a, A = a - 1 := ⟨A + 1, by ring⟩
  obtain ⟨k, rfl⟩ : ∃ k, B = (k - a) / 3 := ⟨3 * B + a, by ring⟩
  have ha : 0 ≤ a := by linarith
  have hk : 0 ≤ k := by linarith
  have hY : 0 < 3 / 2 - 2 * R := by linarith
  have tt : 0 ≤ t * (1 - t) := mul_nonneg (by linarith) (by linarith)
  have z1 : 0 ≤ f + t - R * (f - t + 2 * t ^ 2) := by
    have : f + t - R * (f - t + 2 * t ^ 2) = (1 - R) * (t + f) + 2 * R * (t * (1 - t)) := by ring
    rw [this]
    have : 0 ≤ (1 - R) * (t + f) := mul_nonneg (by linarith) hf'.le
    positivity
  have z2 : 0 ≤ 2 / 3 - (f + t - R * (f - t + 2 * t ^ 2)) := by
    have e : 2 / 3 - (f + t - R * (f - t + 2 * t ^ 2))
        = (1 - R) * (2 - 3 * t - f) + 2 * (t - 2 / 3) + 2 * R * (1 - t) ^ 2 := by ring
    rw [e]
    have : 0 ≤ (1 - R) * (2 - 3 * t - f) := mul_nonneg (by linarith) (by linarith)
    have : 0 ≤ 2 * R * (1 - t) ^ 2 := by positivity
    linarith
  have z3 : 0 < (3 / 2 - 2 * R) * (t - 2 * t ^ 2) + t / 2 - f * (2 - 2 * R) := by
    have e : (3 / 2 - 2 * R) * (t - 2 * t ^ 2) + t / 2 - f * (2 - 2 * R)
        = (2 - 2 * R) * (2 - 3 * t - f) + (3 * t - 2) * (2 - t) + 4 * R * (1 - t) ^ 2 := by ring
    rw [e]
    have : 0 < (2 - 2 * R) * (2 - 3 * t - f) := mul_pos (by linarith) (by linarith)
    have : 0 ≤ (3 * t - 2) * (2 - t) := mul_nonneg (by linarith) (by linarith)
    have : 0 ≤ 4 * R * (1 - t) ^ 2 := by positivity
    linarith
  have z4 : 0 ≤ (3 / 2 - 2 * R) * (f - t + 2 * t ^ 2) + f / 2 - t / 2 + 4 / 3 := by
    have e : (3 / 2 - 2 * R) * (f - t + 2 * t ^ 2) + f / 2 - t / 2 + 4 / 3
        = (2 - 2 * R) * (t + f) + 3 * (t - 2 / 3) ^ 2 + 4 * R * (t * (1 - t)) := by ring
    rw [e]
    have : 0 ≤ (2 - 2 * R) * (t + f) := mul_nonneg (by linarith) hf'.le
    positivity
  have e : bF2 (a - 1) ((k - a) / 3) R t f
      = a * k * ((3 / 2 - 2 * R) * (f + t - R * (f - t + 2 * t ^ 2)))
        + a * (R * ((3 / 2 - 2 * R) * (f - t + 2 * t ^ 2) + f / 2 - t / 2 + 4 / 3))
        + k * ((3 / 2 - 2 * R) * (2 / 3 - (f + t - R * (f - t + 2 * t ^ 2))))
        + R * ((3 / 2 - 2 * R) * (t - 2 * t ^ 2) + t / 2 - f * (2 - 2 * R)) := by
    unfold bF2
    ring
  rw [e]
  have := mul_pos hR z3
  have := mul_nonneg hk (mul_nonneg hY.le z2)
  have := mul_nonneg ha (mul_nonneg hR.le z4)
  have := mul_nonneg (mul_nonneg ha hk) (mul_nonneg hY.le z1)
  linarith

theorem bF3_prolate (hA : -1 ≤ A) (hR : 0 < R) (hR' : R < 3 / 4)
    (ht : 2 / 3 < t) (ht' : t < 1) (hf : f < 2 - 3 * t) (hf' : 0 < t + f) :
    0 < bF3 A R t f := by
  unfold bF3
  have h1 : 0 ≤ 1 - f - 3 / 2 * t + R * (f + t) := by
    have e : 1 - f - 3 / 2 * t + R * (f + t)
        = (1 - R) * (2 - 3 * t - f) + (3 / 2 * t - 1) + 2 * R * (1 - t) := by ring
    rw [e]
    have : 0 ≤ (1 - R) * (2 - 3 * t - f) := mul_nonneg (by linarith) (by linarith)
    have : 0 ≤ 2 * R * (1 - t) := mul_nonneg (by linarith) (by linarith)
    linarith
  have h2 : 1 - f - 3 / 2 * t + R * (f + t) < 1 := by
    have : 0 ≤ (1 - R) * (t + f) := mul_nonneg (by linarith) hf'.le
    linarith
  nlinarith

theorem bF4_prolate (hA : -1 ≤ A) (hR : 0 < R) (hR' : R < 3 / 4)
    (ht : 2 / 3 < t) (ht' : t < 1) (hf : f < 2 - 3 * t) (hf' : 0 < t + f) :
    0 < bF4 A R t f := by
  unfold bF4
  have h1 : 0 < (f + 3 * t - R * (f - t)) / 4 := by
    have : 0 ≤ (1 - R) * (t + f) := mul_nonneg (by linarith) hf'.le
    have : 0 < R * t := mul_pos hR (by linarith)
    linarith
  have h2 : (f + 3 * t - R * (f - t)) / 4 < 1 := by
    have : 0 ≤ (1 - R) * (2 - 3 * t - f) := mul_nonneg (by linarith) (by linarith)
    have : 0 ≤ R * (1 - t) := mul_nonneg (by linarith) (by linarith)
    linarith
  nlinarith

/-- The numerator of `P` stays away from zero, uniformly in the shape. -/
theorem bF1_prolate (hA : -1 ≤ A) (hR : 0 < R) (hR' : R < 3 / 4)
    (ht : 2 / 3 < t) (ht' : t < 1) (hf : f < 2 - 3 * t) (hf' : 0 < t + f) :
    R / 3 ≤ bF1 A R t f := by
  unfold bF1
  have h1 : 0 ≤ 3 / 2 * (f + t) - R * (3 / 2 * f + 5 / 2 * t - 4 / 3) := by
    have : 0 ≤ (1 - R) * (t + f) := mul_nonneg (by linarith) hf'.le
    have : 0 ≤ R * (4 / 3 - t) := mul_nonneg (by linarith) (by linarith)
    linarith
  have h2 : 3 / 2 * (f + t) - R * (3 / 2 * f + 5 / 2 * t - 4 / 3) ≤ 1 - R / 3 := by
    have : 0 ≤ (1 - R) * (2 - 3 * t - f) := mul_nonneg (by linarith) (by linarith)
    have : 0 ≤ (3 - 2 * R) * (t - 2 / 3) := mul_nonneg (by linarith) (by linarith)
    linarith
  nlinarith

/-- The denominator of `P` is bounded, uniformly in the shape. -/
theorem bF2_prolate_le (hA : -1 ≤ A) (hB : -1 ≤ A + 3 * B) (hR : 0 < R) (hR' : R < 3 / 4)
    (ht : 2 / 3 < t) (ht' : t < 1) (hf : f < 2 - 3 * t) (hf' : 0 < t + f) :
    bF2 A B R t f ≤ 10 * (1 + (A + 1)) * (1 + (A + 3 * B + 1)) := by
  obtain ⟨a, rfl⟩ : ∃ a, A = a - 1 := ⟨A + 1, by ring⟩
  obtain ⟨k, rfl⟩ : ∃ k, B = (k - a) / 3 := ⟨3 * B + a, by ring⟩
  have ha : 0 ≤ a := by linarith
  have hk : 0 ≤ k := by linarith
  have e : bF2 (a - 1) ((k - a) / 3) R t f
      = a * k * ((3 / 2 - 2 * R) * (f + t - R * (f - t + 2 * t ^ 2)))
        + a * (R * ((3 / 2 - 2 * R) * (f - t + 2 * t ^ 2) + f / 2 - t / 2 + 4 / 3))
        + k * ((3 / 2 - 2 * R) * (2 / 3 - (f + t - R * (f - t + 2 * t ^ 2))))
        + R * ((3 / 2 - 2 * R) * (t - 2 * t ^ 2) + t / 2 - f * (2 - 2 * R)) := by
    unfold bF2
    ring
  have b0 : |f| ≤ 1 := abs_le.mpr ⟨by linarith, by linarith⟩
  have b1 : |t| ≤ 1 := abs_le.mpr ⟨by linarith, by linarith⟩
  have b2 : |R| ≤ 3 / 4 := abs_le.mpr ⟨by linarith, by linarith⟩
  have bY : |3 / 2 - 2 * R| ≤ 3 / 2 := abs_le.mpr ⟨by linarith, by linarith⟩
  have bt : |f - t + 2 * t ^ 2| ≤ 1 := by
    apply abs_le.mpr
    constructor <;> nlinarith
  have bRt : |R * (f - t + 2 * t ^ 2)| ≤ 3 / 4 := by
    rw [abs_mul]
    nlinarith [abs_nonneg R, abs_nonneg (f - t + 2 * t ^ 2)]
  have c1 : (3 / 2 - 2 * R) * (f + t - R * (f - t + 2 * t ^ 2)) ≤ 10 := by
    have : |(3 / 2 - 2 * R) * (f + t - R * (f - t + 2 * t ^ 2))| ≤ 3 / 2 * (11 / 4) := by
      rw [abs_mul]
      refine mul_le_mul bY ?_ (abs_nonneg _) (by norm_num)
      have := abs_le.mp bRt
      exact abs_le.mpr ⟨by linarith, by linarith⟩
    linarith [le_abs_self ((3 / 2 - 2 * R) * (f + t - R * (f - t + 2 * t ^ 2)))]
  have c2 : R * ((3 / 2 - 2 * R) * (f - t + 2 * t ^ 2) + f / 2 - t / 2 + 4 / 3) ≤ 10 := by
    have i : |(3 / 2 - 2 * R) * (f - t + 2 * t ^ 2)| ≤ 3 / 2 * 1 := by
      rw [abs_mul]
      exact mul_le_mul bY bt (abs_nonneg _) (by norm_num)
    have : |R * ((3 / 2 - 2 * R) * (f - t + 2 * t ^ 2) + f / 2 - t / 2 + 4 / 3)|
        ≤ 3 / 4 * 4 := by
      rw [abs_mul]
      refine mul_le_mul b2 ?_ (abs_nonneg _) (by norm_num)
      have := abs_le.mp i
      exact abs_le.mpr ⟨by linarith, by linarith⟩
    linarith [le_abs_self
      (R * ((3 / 2 - 2 * R) * (f - t + 2 * t ^ 2) + f / 2 - t / 2 + 4 / 3))]
  have c3 : (3 / 2 - 2 * R) * (2 / 3 - (f + t - R * (f - t + 2 * t ^ 2))) ≤ 10 := by
    have : |(3 / 2 - 2 * R) * (2 / 3 - (f + t - R * (f - t + 2 * t ^ 2)))| ≤ 3 / 2 * 4 := by
      rw [abs_mul]
      refine mul_le_mul bY ?_ (abs_nonneg _) (by norm_num)
      have := abs_le.mp bRt
      exact abs_le.mpr ⟨by linarith, by linarith⟩
    linarith [le_abs_self ((3 / 2 - 2 * R) * (2 / 3 - (f + t - R * (f - t + 2 * t ^ 2))))]
  have c4 : R * ((3 / 2 - 2 * R) * (t - 2 * t ^ 2) + t / 2 - f * (2 - 2 * R)) ≤ 10 := by
    have i : |(3 / 2 - 2 * R) * (t - 2 * t ^ 2)| ≤ 3 / 2 * 1 := by
      rw [abs_mul]
      refine mul_le_mul bY ?_ (abs_nonneg _) (by norm_num)
      apply abs_le.mpr
      constructor <;> nlinarith
    have j : |f * (2 - 2 * R)| ≤ 1 * 2 := by
      rw [abs_mul]
      exact mul_le_mul b0 (abs_le.mpr ⟨by linarith, by linarith⟩) (abs_nonneg _) (by norm_num)
    have : |R * ((3 / 2 - 2 * R) * (t - 2 * t ^ 2) + t / 2 - f * (2 - 2 * R))| ≤ 3 / 4 * 5 := by
      rw [abs_mul]
      refine mul_le_mul b2 ?_ (abs_nonneg _) (by norm_num)
      have := abs_le.mp i
      have := abs_le.mp j
      exact abs_le.mpr ⟨by linarith, by linarith⟩
    linarith [le_abs_self (R * ((3 / 2 - 2 * R) * (t - 2 * t ^ 2) + t / 2 - f * (2 - 2 * R)))]
  have e' : 10 * (1 + (a - 1 + 1)) * (1 + (a - 1 + 3 * ((k - a) / 3) + 1))
      = a * k * 10 + a * 10 + k * 10 + 10 := by ring
  rw [e, e']
  exact add_le_add (add_le_add (add_le_add
    (mul_le_mul_of_nonneg_left c1 (mul_nonneg ha hk)) (mul_le_mul_of_nonneg_left c2 ha))
    (mul_le_mul_of_nonneg_left c3 hk)) c4

end

end RockPhy.Spec
