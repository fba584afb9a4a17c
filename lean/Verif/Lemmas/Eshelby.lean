import Verif.Spec.Eshelby
import Mathlib.Analysis.SpecialFunctions.Sqrt
import Mathlib.Analysis.SpecialFunctions.Trigonometric.ArctanDeriv
import Mathlib.Analysis.SpecialFunctions.Pow.Asymptotics

/-! # The elliptic integrals of Eshelby's tensor -/

namespace RockPhy.Spec

open MeasureTheory Set Matrix Filter Topology

section

variable {b : Fin 3 → ℝ}

theorem axis_pos (hb : ∀ i, 0 < b i) (i : Fin 3) {s : ℝ} (hs : 0 ≤ s) : 0 < b i ^ 2 + s := by
  have := hb i
  positivity

theorem shell_pos (hb : ∀ i, 0 < b i) {s : ℝ} (hs : 0 ≤ s) : 0 < shell b s := by
  have h0 := axis_pos hb 0 hs
  have h1 := axis_pos hb 1 hs
  have h2 := axis_pos hb 2 hs
  unfold shell
  positivity

theorem shell_zero (hb : ∀ i, 0 < b i) : shell b 0 = b 0 * b 1 * b 2 := by
  have h0 := hb 0
  have h1 := hb 1
  have h2 := hb 2
  unfold shell
  have e : (b 0 ^ 2 + 0) * (b 1 ^ 2 + 0) * (b 2 ^ 2 + 0) = (b 0 * b 1 * b 2) ^ 2 := by ring
  rw [e, Real.sqrt_sq (by positivity)]

theorem shell_deriv (hb : ∀ i, 0 < b i) {s : ℝ} (hs : 0 ≤ s) :
    HasDerivAt (fun s => (shell b s)⁻¹)
      (-(1 / 2) * ∑ j, 1 / ((b j ^ 2 + s) * shell b s)) s := by
  have h0 := axis_pos hb 0 hs
  have h1 := axis_pos hb 1 hs
  have h2 := axis_pos hb 2 hs
  have hs' := shell_pos hb hs
  have d : ∀ i, HasDerivAt (fun s => b i ^ 2 + s) 1 s := fun i => (hasDerivAt_id s).const_add _
  have q := ((d 0).mul (d 1)).mul (d 2)
  have r := (q.sqrt (by simp only [Pi.mul_apply]; positivity)).inv (by
    simp only [Pi.mul_apply]; exact hs'.ne')
  refine HasDerivAt.congr_deriv r ?_
  simp only [Pi.mul_apply, Fin.sum_univ_three]
  have e : √((b 0 ^ 2 + s) * (b 1 ^ 2 + s) * (b 2 ^ 2 + s)) = shell b s := rfl
  have e2 : shell b s ^ 2 = (b 0 ^ 2 + s) * (b 1 ^ 2 + s) * (b 2 ^ 2 + s) :=
    Real.sq_sqrt (by positivity)
  rw [e, e2]
  generalize shell b s = D at *
  generalize b 0 ^ 2 + s = x at *
  generalize b 1 ^ 2 + s = y at *
  generalize b 2 ^ 2 + s = z at *
  field

theorem shell_tendsto : Tendsto (fun s => (shell b s)⁻¹) atTop (𝓝 0) := by
  refine tendsto_inv_atTop_zero.comp ?_
  unfold shell
  refine Real.tendsto_sqrt_atTop.comp ?_
  have t : ∀ i, Tendsto (fun s => b i ^ 2 + s) atTop atTop := fun i =>
    tendsto_atTop_add_const_left _ _ tendsto_id
  exact ((t 0).atTop_mul_atTop₀ (t 1)).atTop_mul_atTop₀ (t 2)

theorem sum_integrable (hb : ∀ i, 0 < b i) :
    IntegrableOn (fun s => ∑ j, 1 / ((b j ^ 2 + s) * shell b s)) (Ioi 0) := by
  have h := integrableOn_Ioi_deriv_of_nonpos' (fun x (hx : x ∈ Ici 0) => shell_deriv hb hx)
    (fun x hx => by
      have : 0 ≤ ∑ j, 1 / ((b j ^ 2 + x) * shell b x) := Finset.sum_nonneg fun j _ => by
        have := axis_pos hb j (le_of_lt hx)
        have := shell_pos hb (le_of_lt hx)
        positivity
      linarith) (shell_tendsto)
  have := h.const_mul (-2)
  refine this.congr ?_
  filter_upwards with x
  ring

theorem shell_continuous : Continuous (shell b) := by
  unfold shell
  fun_prop

theorem single_continuousOn (hb : ∀ i, 0 < b i) (i : Fin 3) :
    ContinuousOn (fun s => 1 / ((b i ^ 2 + s) * shell b s)) (Ioi 0) := by
  have := shell_continuous (b := b)
  refine ContinuousOn.div (by fun_prop) (by fun_prop) fun s hs => ?_
  have := axis_pos hb i (le_of_lt hs)
  have := shell_pos hb (le_of_lt hs)
  positivity

theorem pair_continuousOn (hb : ∀ i, 0 < b i) (i j : Fin 3) :
    ContinuousOn (fun s => 1 / ((b i ^ 2 + s) * (b j ^ 2 + s) * shell b s)) (Ioi 0) := by
  have := shell_continuous (b := b)
  refine ContinuousOn.div (by fun_prop) (by fun_prop) fun s hs => ?_
  have := axis_pos hb i (le_of_lt hs)
  have := axis_pos hb j (le_of_lt hs)
  have := shell_pos hb (le_of_lt hs)
  positivity

theorem single_integrable (hb : ∀ i, 0 < b i) (i : Fin 3) :
    IntegrableOn (fun s => 1 / ((b i ^ 2 + s) * shell b s)) (Ioi 0) := by
  refine Integrable.mono' (sum_integrable hb)
    ((single_continuousOn hb i).aestronglyMeasurable measurableSet_Ioi) ?_
  filter_upwards [ae_restrict_mem measurableSet_Ioi] with s hs
  have p : ∀ j, 0 < 1 / ((b j ^ 2 + s) * shell b s) := fun j => by
    have := axis_pos hb j (le_of_lt hs)
    have := shell_pos hb (le_of_lt hs)
    positivity
  rw [Real.norm_of_nonneg (p i).le]
  exact Finset.single_le_sum (f := fun j => 1 / ((b j ^ 2 + s) * shell b s))
    (fun j _ => (p j).le) (Finset.mem_univ i)

theorem pair_integrable (hb : ∀ i, 0 < b i) (i j : Fin 3) :
    IntegrableOn (fun s => 1 / ((b i ^ 2 + s) * (b j ^ 2 + s) * shell b s)) (Ioi 0) := by
  refine Integrable.mono' ((single_integrable hb i).const_mul (1 / b j ^ 2))
    ((pair_continuousOn hb i j).aestronglyMeasurable measurableSet_Ioi) ?_
  filter_upwards [ae_restrict_mem measurableSet_Ioi] with s hs
  have := axis_pos hb i (le_of_lt hs)
  have := axis_pos hb j (le_of_lt hs)
  have := shell_pos hb (le_of_lt hs)
  have hj := hb j
  have hs' : 0 < s := hs
  rw [Real.norm_of_nonneg (by positivity), div_mul_div_comm, one_mul]
  apply one_div_le_one_div_of_le (by positivity)
  have : b j ^ 2 ≤ b j ^ 2 + s := by linarith
  calc b j ^ 2 * ((b i ^ 2 + s) * shell b s)
      ≤ (b j ^ 2 + s) * ((b i ^ 2 + s) * shell b s) := by gcongr
    _ = _ := by ring

/-- `I_1 + I_2 + I_3 = 4 pi`. -/
theorem muraI_sum (hb : ∀ i, 0 < b i) : muraI b 0 + muraI b 1 + muraI b 2 = 4 * Real.pi := by
  have h := integral_Ioi_of_hasDerivAt_of_nonpos'
    (fun x (hx : x ∈ Ici 0) => shell_deriv hb hx)
    (fun x hx => by
      have : 0 ≤ ∑ j, 1 / ((b j ^ 2 + x) * shell b x) := Finset.sum_nonneg fun j _ => by
        have := axis_pos hb j (le_of_lt hx)
        have := shell_pos hb (le_of_lt hx)
        positivity
      linarith) (shell_tendsto)
  rw [integral_const_mul, integral_finsetSum _ (fun i _ => single_integrable hb i),
    Fin.sum_univ_three, shell_zero hb] at h
  unfold muraI
  have hp := mul_pos (mul_pos (hb 0) (hb 1)) (hb 2)
  rw [← mul_add, ← mul_add]
  generalize b 0 * b 1 * b 2 = p at *
  have h' : (∫ (a : ℝ) in Ioi 0, 1 / ((b 0 ^ 2 + a) * shell b a)) +
        (∫ (a : ℝ) in Ioi 0, 1 / ((b 1 ^ 2 + a) * shell b a)) +
          ∫ (a : ℝ) in Ioi 0, 1 / ((b 2 ^ 2 + a) * shell b a) = 2 * p⁻¹ := by linarith
  rw [h']
  field

theorem single_deriv (hb : ∀ i, 0 < b i) (i : Fin 3) {s : ℝ} (hs : 0 ≤ s) :
    HasDerivAt (fun s => (b i ^ 2 + s)⁻¹ * (shell b s)⁻¹)
      (-(1 / ((b i ^ 2 + s) * (b i ^ 2 + s) * shell b s)
        + (1 / 2) * ∑ j, 1 / ((b i ^ 2 + s) * (b j ^ 2 + s) * shell b s))) s := by
  have hi := axis_pos hb i hs
  have h0 := axis_pos hb 0 hs
  have h1 := axis_pos hb 1 hs
  have h2 := axis_pos hb 2 hs
  have hs' := shell_pos hb hs
  have d : HasDerivAt (fun s => b i ^ 2 + s) 1 s := (hasDerivAt_id s).const_add _
  refine HasDerivAt.congr_deriv ((d.inv hi.ne').mul (shell_deriv hb hs)) ?_
  simp only [Fin.sum_univ_three, Pi.inv_apply]
  generalize shell b s = D at *
  generalize b i ^ 2 + s = w at *
  generalize b 0 ^ 2 + s = x at *
  generalize b 1 ^ 2 + s = y at *
  generalize b 2 ^ 2 + s = z at *
  field

/-- `3 I_ii + I_ij + I_ik = 4 pi / b_i^2`. -/
theorem muraII_sum (hb : ∀ i, 0 < b i) (i : Fin 3) :
    2 * muraII b i i + (muraII b i 0 + muraII b i 1 + muraII b i 2)
      = 4 * Real.pi / b i ^ 2 := by
  have t : Tendsto (fun s => (b i ^ 2 + s)⁻¹ * (shell b s)⁻¹) atTop (𝓝 0) := by
    have := (tendsto_inv_atTop_zero.comp
      (tendsto_atTop_add_const_left atTop (b i ^ 2) tendsto_id)).mul ((shell_tendsto (b := b)))
    simpa using this
  have h := integral_Ioi_of_hasDerivAt_of_nonpos'
    (fun x (hx : x ∈ Ici 0) => single_deriv hb i hx)
    (fun x hx => by
      have hi := axis_pos hb i (le_of_lt hx)
      have := shell_pos hb (le_of_lt hx)
      have : 0 ≤ ∑ j, 1 / ((b i ^ 2 + x) * (b j ^ 2 + x) * shell b x) :=
        Finset.sum_nonneg fun j _ => by
          have := axis_pos hb j (le_of_lt hx)
          positivity
      have : 0 ≤ 1 / ((b i ^ 2 + x) * (b i ^ 2 + x) * shell b x) := by positivity
      linarith) t
  rw [integral_neg, integral_add (pair_integrable hb i i)
      ((integrable_finsetSum _ (fun j _ => pair_integrable hb i j)).const_mul _),
    integral_const_mul, integral_finsetSum _ (fun j _ => pair_integrable hb i j),
    Fin.sum_univ_three, shell_zero hb, add_zero] at h
  unfold muraII
  have hp := mul_pos (mul_pos (hb 0) (hb 1)) (hb 2)
  have hi := hb i
  generalize b 0 * b 1 * b 2 = p at *
  generalize b i = w at *
  have e : ∀ x y z t : ℝ, -(x + 1 / 2 * (y + z + t)) = 0 - (w ^ 2)⁻¹ * p⁻¹ →
      2 * (2 * Real.pi * p * x) + (2 * Real.pi * p * y + 2 * Real.pi * p * z
        + 2 * Real.pi * p * t) = 4 * Real.pi / w ^ 2 := by
    intro x y z t h
    have h' : 2 * x + (y + z + t) = 2 * ((w ^ 2)⁻¹ * p⁻¹) := by linarith
    have : 4 * Real.pi / w ^ 2 = 2 * Real.pi * p * (2 * ((w ^ 2)⁻¹ * p⁻¹)) := by field
    rw [this, ← h']
    ring
  exact e _ _ _ _ h

theorem muraI_pos (hb : ∀ i, 0 < b i) (i : Fin 3) : 0 < muraI b i := by
  have := hb 0
  have := hb 1
  have := hb 2
  unfold muraI
  refine mul_pos (by positivity) ?_
  rw [setIntegral_pos_iff_support_of_nonneg_ae]
  · have : Function.support (fun s => 1 / ((b i ^ 2 + s) * shell b s)) ∩ Ioi 0 = Ioi 0 := by
      refine inter_eq_right.mpr fun s hs => ?_
      have := axis_pos hb i (le_of_lt hs)
      have := shell_pos hb (le_of_lt hs)
      simp only [Function.mem_support]
      positivity
    rw [this]
    simp
  · filter_upwards [ae_restrict_mem measurableSet_Ioi] with s hs
    have := axis_pos hb i (le_of_lt hs)
    have := shell_pos hb (le_of_lt hs)
    simp only [Pi.zero_apply]
    positivity
  · exact single_integrable hb i

theorem muraII_pos (hb : ∀ i, 0 < b i) (i j : Fin 3) : 0 < muraII b i j := by
  have := hb 0
  have := hb 1
  have := hb 2
  unfold muraII
  refine mul_pos (by positivity) ?_
  rw [setIntegral_pos_iff_support_of_nonneg_ae]
  · have : Function.support (fun s => 1 / ((b i ^ 2 + s) * (b j ^ 2 + s) * shell b s)) ∩ Ioi 0
        = Ioi 0 := by
      refine inter_eq_right.mpr fun s hs => ?_
      have := axis_pos hb i (le_of_lt hs)
      have := axis_pos hb j (le_of_lt hs)
      have := shell_pos hb (le_of_lt hs)
      simp only [Function.mem_support]
      positivity
    rw [this]
    simp
  · filter_upwards [ae_restrict_mem measurableSet_Ioi] with s hs
    have := axis_pos hb i (le_of_lt hs)
    have := axis_pos hb j (le_of_lt hs)
    have := shell_pos hb (le_of_lt hs)
    simp only [Pi.zero_apply]
    positivity
  · exact pair_integrable hb i j

/-- `(b_i^2 - b_j^2) I_ij = I_j - I_i`. -/
theorem muraII_diff (hb : ∀ i, 0 < b i) (i j : Fin 3) :
    (b i ^ 2 - b j ^ 2) * muraII b i j = muraI b j - muraI b i := by
  unfold muraI muraII
  rw [← mul_sub, ← integral_sub (single_integrable hb j) (single_integrable hb i),
    mul_left_comm, ← integral_const_mul]
  congr 1
  refine setIntegral_congr_fun measurableSet_Ioi fun s hs => ?_
  have hi := axis_pos hb i (le_of_lt hs)
  have hj := axis_pos hb j (le_of_lt hs)
  have hs' := shell_pos hb (le_of_lt hs)
  have e : b i ^ 2 - b j ^ 2 = (b i ^ 2 + s) - (b j ^ 2 + s) := by ring
  rw [e]
  generalize shell b s = D at *
  generalize b i ^ 2 + s = x at *
  generalize b j ^ 2 + s = y at *
  field

/-- `b_j^2 I_ij < I_i`. -/
theorem muraII_lt (hb : ∀ i, 0 < b i) (i j : Fin 3) : b j ^ 2 * muraII b i j < muraI b i := by
  have := hb 0
  have := hb 1
  have := hb 2
  have key : 0 < ∫ s in Ioi (0 : ℝ), (1 / ((b i ^ 2 + s) * shell b s)
      - b j ^ 2 * (1 / ((b i ^ 2 + s) * (b j ^ 2 + s) * shell b s))) := by
    have pos : ∀ s ∈ Ioi (0 : ℝ), 0 < 1 / ((b i ^ 2 + s) * shell b s)
        - b j ^ 2 * (1 / ((b i ^ 2 + s) * (b j ^ 2 + s) * shell b s)) := by
      intro s hs
      have hi := axis_pos hb i (le_of_lt hs)
      have hj := axis_pos hb j (le_of_lt hs)
      have hs' := shell_pos hb (le_of_lt hs)
      have hs0 : 0 < s := hs
      have e : 1 / ((b i ^ 2 + s) * shell b s)
        - b j ^ 2 * (1 / ((b i ^ 2 + s) * (b j ^ 2 + s) * shell b s))
          = s / ((b i ^ 2 + s) * (b j ^ 2 + s) * shell b s) := by
        have : b j ^ 2 = (b j ^ 2 + s) - s := by ring
        rw [this, sub_add_cancel]
        generalize shell b s = D at *
        generalize b i ^ 2 + s = x at *
        generalize b j ^ 2 + s = y at *
        field
      rw [e]
      positivity
    rw [setIntegral_pos_iff_support_of_nonneg_ae]
    · rw [inter_eq_right.mpr fun s hs => Function.mem_support.mpr (pos s hs).ne']
      simp
    · filter_upwards [ae_restrict_mem measurableSet_Ioi] with s hs
      exact (pos s hs).le
    · exact (single_integrable hb i).sub ((pair_integrable hb i j).const_mul _)
  rw [integral_sub (single_integrable hb i) ((pair_integrable hb i j).const_mul _),
    integral_const_mul] at key
  unfold muraI muraII
  have p : 0 < 2 * Real.pi * (b 0 * b 1 * b 2) := by positivity
  have := mul_pos p key
  rw [mul_sub] at this
  linarith

/-- Equal semi-axes give equal integrals. -/
theorem muraI_congr {i j : Fin 3} (h : b i = b j) : muraI b i = muraI b j := by
  unfold muraI
  rw [h]

theorem muraII_congr {i j k l : Fin 3} (h : b i = b k) (h' : b j = b l) :
    muraII b i j = muraII b k l := by
  unfold muraII
  rw [h, h']

theorem muraII_symm (i j : Fin 3) : muraII b i j = muraII b j i := by
  unfold muraII
  simp only [mul_comm (b i ^ 2 + _)]

end

/-! ## Spheroids -/

theorem spheroid_pos {a : ℝ} (ha : 0 < a) (i : Fin 3) : 0 < spheroid a i := by
  fin_cases i <;> simp [spheroid, ha]

theorem spheroid_shell {a s : ℝ} (hs : 0 ≤ s) :
    shell (spheroid a) s = (1 + s) * √(a ^ 2 + s) := by
  simp only [shell, spheroid, cons_val_zero, cons_val_one, cons_val]
  rw [Real.sqrt_mul (by positivity)]
  congr 1
  rw [one_pow, Real.sqrt_mul_self (by positivity)]

/-- `I_1` of an oblate spheroid in closed form. -/
theorem oblate_I1 {a : ℝ} (h0 : 0 < a) (h1 : a < 1) :
    muraI (spheroid a) 0
      = 2 * Real.pi * a * (Real.arccos a - a * √(1 - a ^ 2)) / √(1 - a ^ 2) ^ 3 := by
  have hc : 0 < 1 - a ^ 2 := by nlinarith
  have hcs : 0 < √(1 - a ^ 2) := Real.sqrt_pos.mpr hc
  have hc2 : √(1 - a ^ 2) ^ 2 = 1 - a ^ 2 := Real.sq_sqrt hc.le
  set c := √(1 - a ^ 2) with hcdef
  have hat : Real.arccos a = Real.pi / 2 - Real.arctan (a / c) := by
    rw [Real.arccos, Real.arcsin_eq_arctan ⟨by linarith, h1⟩]
  have der : ∀ s ∈ Ici (0 : ℝ), HasDerivAt
      (fun s => √(a ^ 2 + s) / (c ^ 2 * (1 + s)) + 1 / c ^ 3 * Real.arctan (√(a ^ 2 + s) / c))
      (1 / (((spheroid a) 0 ^ 2 + s) * shell (spheroid a) s)) s := by
    intro s hs
    have hs0 : 0 ≤ s := hs
    have hq : 0 < a ^ 2 + s := by positivity
    have hu : 0 < √(a ^ 2 + s) := Real.sqrt_pos.mpr hq
    have hu2 : √(a ^ 2 + s) ^ 2 = a ^ 2 + s := Real.sq_sqrt hq.le
    have d0 : HasDerivAt (fun s => a ^ 2 + s) 1 s := (hasDerivAt_id s).const_add _
    have d := d0.sqrt hq.ne'
    have dl : HasDerivAt (fun s => c ^ 2 * (1 + s)) (c ^ 2 * 1) s :=
      ((hasDerivAt_id s).const_add _).const_mul _
    have d1 := d.div dl (by positivity)
    have d2 := ((d.div_const c).arctan).const_mul (1 / c ^ 3)
    refine HasDerivAt.congr_deriv (d1.add d2) ?_
    rw [spheroid_shell hs0]
    have e0 : spheroid a 0 = 1 := rfl
    rw [e0, one_pow]
    have hA : a ^ 2 = 1 - c ^ 2 := by rw [hc2]; ring
    have hs1 : s = √(a ^ 2 + s) ^ 2 - a ^ 2 := by rw [hu2]; ring
    generalize √(a ^ 2 + s) = u at *
    have hs2 : 1 + s = u ^ 2 + c ^ 2 := by rw [hs1, hA]; ring
    rw [hs2]
    field
  have lim : Tendsto
      (fun s => √(a ^ 2 + s) / (c ^ 2 * (1 + s)) + 1 / c ^ 3 * Real.arctan (√(a ^ 2 + s) / c))
      atTop (𝓝 (0 + 1 / c ^ 3 * (Real.pi / 2))) := by
    have tq : Tendsto (fun s : ℝ => √(a ^ 2 + s)) atTop atTop :=
      Real.tendsto_sqrt_atTop.comp (tendsto_atTop_add_const_left _ _ tendsto_id)
    refine Tendsto.add ?_ (Tendsto.const_mul _ ?_)
    · have z : Tendsto (fun s : ℝ => 1 / c ^ 2 * (√(a ^ 2 + s))⁻¹) atTop (𝓝 (1 / c ^ 2 * 0)) :=
        (tendsto_inv_atTop_zero.comp tq).const_mul _
      rw [mul_zero] at z
      refine squeeze_zero' (t₀ := atTop) (g := fun s : ℝ => 1 / c ^ 2 * (√(a ^ 2 + s))⁻¹) ?_ ?_ z
      · filter_upwards [eventually_ge_atTop 0] with s hs
        positivity
      · filter_upwards [eventually_ge_atTop 0] with s hs
        have hq : 0 < a ^ 2 + s := by positivity
        have hu : 0 < √(a ^ 2 + s) := Real.sqrt_pos.mpr hq
        have hu2 : √(a ^ 2 + s) ^ 2 = a ^ 2 + s := Real.sq_sqrt hq.le
        rw [div_le_iff₀ (by positivity)]
        have e : 1 / c ^ 2 * (√(a ^ 2 + s))⁻¹ * (c ^ 2 * (1 + s)) = (1 + s) / √(a ^ 2 + s) := by
          field
        rw [e, le_div_iff₀ hu, ← sq, hu2]
        linarith
    · exact (Real.tendsto_arctan_atTop.mono_right nhdsWithin_le_nhds).comp
        (tq.atTop_div_const hcs)
  have h := integral_Ioi_of_hasDerivAt_of_tendsto' der
    (single_integrable (spheroid_pos h0) 0) lim
  unfold muraI
  rw [h]
  have e0 : spheroid a 0 * spheroid a 1 * spheroid a 2 = a := by simp [spheroid]
  rw [e0, hat]
  have e1 : √(a ^ 2 + 0) = a := by rw [add_zero, Real.sqrt_sq h0.le]
  rw [e1]
  field

end RockPhy.Spec
