import Mathlib.Analysis.RCLike.Sqrt
import Mathlib.Analysis.SpecialFunctions.Complex.Analytic
import Verif.Model.Complex

/-! # Evaluation of the complex arithmetic of the model -/

namespace RockPhy

open Fl

/-- A finite complex number as a pair of finite results. -/
noncomputable def cx (z : ℂ) : Cx Fl := ⟨fin z.re, fin z.im⟩

@[simp] theorem cx_re (z : ℂ) : (cx z).re = fin z.re := rfl
@[simp] theorem cx_im (z : ℂ) : (cx z).im = fin z.im := rfl

theorem cx_ofR (x : ℝ) : Cx.ofR (fin x) = cx (x : ℂ) := by
  unfold Cx.ofR cx
  rw [fl_zero, Complex.ofReal_re, Complex.ofReal_im]

theorem cx_I : (Cx.I : Cx Fl) = cx Complex.I := by
  unfold Cx.I cx
  rw [fl_zero, fl_one, Complex.I_re, Complex.I_im]

theorem cx_add (z w : ℂ) : cx z + cx w = cx (z + w) := by
  show Cx.mk (fin z.re + fin w.re) (fin z.im + fin w.im) = _
  rw [fl_add, fl_add]; rfl

theorem cx_sub (z w : ℂ) : cx z - cx w = cx (z - w) := by
  show Cx.mk (fin z.re - fin w.re) (fin z.im - fin w.im) = _
  rw [fl_sub, fl_sub]; rfl

theorem cx_neg (z : ℂ) : -cx z = cx (-z) := by
  show Cx.mk (-fin z.re) (-fin z.im) = _
  rw [fl_neg, fl_neg]; rfl

theorem cx_mul (z w : ℂ) : cx z * cx w = cx (z * w) := by
  show Cx.mk (fin z.re * fin w.re - fin z.im * fin w.im)
    (fin z.re * fin w.im + fin z.im * fin w.re) = _
  simp only [fl_mul, fl_sub, fl_add, cx, Complex.mul_re, Complex.mul_im]

theorem cx_div {z w : ℂ} (h : w ≠ 0) : cx z / cx w = cx (z / w) := by
  have hn : w.re * w.re + w.im * w.im ≠ 0 := by
    have := Complex.normSq_pos.mpr h
    rw [Complex.normSq_apply] at this
    exact this.ne'
  show Cx.mk ((fin z.re * fin w.re + fin z.im * fin w.im) / (fin w.re * fin w.re + fin w.im * fin w.im))
    ((fin z.im * fin w.re - fin z.re * fin w.im) / (fin w.re * fin w.re + fin w.im * fin w.im)) = _
  simp only [fl_mul, fl_sub, fl_add, fl_div hn, cx, Complex.div_re, Complex.div_im,
    Complex.normSq_apply, Cx.mk.injEq, fin_inj]
  constructor <;> ring

theorem cx_div_zero (z : Cx Fl) : z / cx 0 = ⟨bad, bad⟩ := by
  show Cx.mk _ _ = _
  simp only [cx, Complex.zero_re, Complex.zero_im, fl_mul, fl_add, mul_zero, add_zero,
    fl_div_zero]

theorem cx_abs (z : ℂ) : (cx z).abs = fin ‖z‖ := by
  unfold Cx.abs cx
  simp only [fl_mul, fl_add]
  rw [fl_sqrt (add_nonneg (mul_self_nonneg _) (mul_self_nonneg _)), Complex.norm_def, Complex.normSq_apply]

theorem cx_sqrt (z : ℂ) : Cx.sqrt (cx z) = cx z.sqrt := by
  have h1 : 0 ≤ (‖z‖ + z.re) / 2 := by
    have := neg_le_of_abs_le (Complex.abs_re_le_norm z); linarith
  have h2 : 0 ≤ (‖z‖ - z.re) / 2 := by
    have := le_of_abs_le (Complex.abs_re_le_norm z); linarith
  have a1 : (fin ‖z‖ + fin z.re) / 2 = fin ((‖z‖ + z.re) / 2) := by
    rw [fl_add, fl_nat, fl_div (by norm_num)]
  have a2 : (fin ‖z‖ - fin z.re) / 2 = fin ((‖z‖ - z.re) / 2) := by
    rw [fl_sub, fl_nat, fl_div (by norm_num)]
  have a : Cx.sqrt (cx z) = ⟨fin √((‖z‖ + z.re) / 2), if PyNum.lt (fin z.im) (fin 0)
      then -fin √((‖z‖ - z.re) / 2) else fin √((‖z‖ - z.re) / 2)⟩ := by
    unfold Cx.sqrt
    rw [cx_abs]
    show Cx.mk (PyNum.sqrt ((fin ‖z‖ + fin z.re) / 2)) (if PyNum.lt (fin z.im) 0
      then -PyNum.sqrt ((fin ‖z‖ - fin z.re) / 2) else PyNum.sqrt ((fin ‖z‖ - fin z.re) / 2)) = _
    rw [a1, a2, fl_sqrt h1, fl_sqrt h2, fl_zero]
  rw [a, Complex.sqrt_eq_real_add_ite]
  by_cases h : z.im < 0
  · have e : PyNum.lt (fin z.im) (fin 0) = true := decide_eq_true h
    rw [if_pos e, if_neg h.not_ge]
    simp [cx, fl_neg]
  · have e : ¬ PyNum.lt (fin z.im) (fin 0) = true := by
      rw [fl_lt]; exact h
    rw [if_neg e, if_pos (not_lt.mp h)]
    simp [cx]

theorem cx_exp (z : ℂ) : Cx.exp (cx z) = cx (Complex.exp z) := by
  unfold Cx.exp cx
  simp only [fl_exp, fl_cos, fl_sin, fl_mul, Complex.exp_re, Complex.exp_im]

/-! ## The principal square root -/

theorem csqrt_sq (z : ℂ) : z.sqrt * z.sqrt = z := by
  unfold Complex.sqrt
  by_cases h : z = 0
  · subst h; simp
  · rw [← Complex.cpow_add _ _ h]
    norm_num

theorem csqrt_re (z : ℂ) : z.sqrt.re = √((‖z‖ + z.re) / 2) := Complex.cpow_inv_two_re z

theorem csqrt_re_nonneg (z : ℂ) : 0 ≤ z.sqrt.re := by
  rw [csqrt_re]; exact Real.sqrt_nonneg _

theorem csqrt_im_abs (z : ℂ) : |z.sqrt.im| = √((‖z‖ - z.re) / 2) := by
  rw [Complex.sqrt_eq_real_add_ite]
  have := Real.sqrt_nonneg ((‖z‖ - z.re) / 2)
  generalize √((‖z‖ - z.re) / 2) = y at *
  split_ifs <;> simp [this]

/-- The square root with positive real part is the principal one. -/
theorem csqrt_eq {z w : ℂ} (h : w * w = z) (hr : 0 < w.re) : z.sqrt = w := by
  have h1 : (z.sqrt - w) * (z.sqrt + w) = 0 := by linear_combination csqrt_sq z - h
  rcases mul_eq_zero.mp h1 with h2 | h2
  · linear_combination h2
  · exfalso
    have h3 : z.sqrt.re + w.re = 0 := by
      rw [← Complex.add_re, h2, Complex.zero_re]
    linarith [csqrt_re_nonneg z]

theorem csqrt_re_pos {z : ℂ} (h : z.im ≠ 0 ∨ 0 < z.re) : 0 < z.sqrt.re := by
  rw [csqrt_re]
  apply Real.sqrt_pos.mpr
  have h1 : -‖z‖ ≤ z.re := neg_le_of_abs_le (Complex.abs_re_le_norm z)
  rcases h with h | h
  · have : z.re ≠ -‖z‖ := fun e => by
      have := Complex.sq_norm z
      rw [Complex.normSq_apply] at this
      have h2 : z.re * z.re = ‖z‖ ^ 2 := by rw [e]; ring
      have h3 : z.im * z.im = 0 := by linarith
      exact h (mul_self_eq_zero.mp h3)
    have := lt_of_le_of_ne h1 this.symm
    linarith
  · have := norm_nonneg z
    linarith

/-- Square roots converge when the argument converges to a non-negative real number. -/
theorem csqrt_tendsto {ι : Type} {l : Filter ι} {z : ι → ℂ} {r : ℝ} (hr : 0 ≤ r)
    (h : Filter.Tendsto z l (nhds (r : ℂ))) :
    Filter.Tendsto (fun i => (z i).sqrt) l (nhds ((√r : ℝ) : ℂ)) := by
  have hre : Filter.Tendsto (fun i => (z i).re) l (nhds r) := by
    have := (Complex.continuous_re.tendsto (r : ℂ)).comp h
    rwa [Complex.ofReal_re] at this
  have hn : Filter.Tendsto (fun i => ‖z i‖) l (nhds r) := by
    have := h.norm
    rwa [Complex.norm_real, Real.norm_of_nonneg hr] at this
  have h1 : Filter.Tendsto (fun i => (z i).sqrt.re) l (nhds √r) := by
    have := (Real.continuous_sqrt.tendsto _).comp ((hn.add hre).div_const 2)
    rw [show (r + r) / 2 = r by ring] at this
    refine this.congr fun i => ?_
    rw [csqrt_re]; rfl
  have h2 : Filter.Tendsto (fun i => (z i).sqrt.im) l (nhds 0) := by
    have := (Real.continuous_sqrt.tendsto _).comp ((hn.sub hre).div_const 2)
    rw [show (r - r) / 2 = 0 by ring, Real.sqrt_zero] at this
    rw [tendsto_zero_iff_abs_tendsto_zero]
    refine this.congr fun i => ?_
    show √((‖z i‖ - (z i).re) / 2) = |(z i).sqrt.im|
    rw [csqrt_im_abs]
  have h3 : Filter.Tendsto (fun i => (((z i).sqrt.re : ℝ) : ℂ) + (((z i).sqrt.im : ℝ) : ℂ) * Complex.I)
      l (nhds (((√r : ℝ) : ℂ) + ((0 : ℝ) : ℂ) * Complex.I)) :=
    ((Complex.continuous_ofReal.tendsto _).comp h1).add
      (((Complex.continuous_ofReal.tendsto _).comp h2).mul_const _)
  rw [Complex.ofReal_zero, zero_mul, add_zero] at h3
  exact h3.congr fun i => Complex.re_add_im _

/-- For arguments going to infinity near a vertical line, the root of `u ^ 2 + e` is `u` or `-u`
up to a term that vanishes, according to the side the line lies on. -/
theorem csqrt_sq_add_tendsto {ι : Type} {l : Filter ι} {u : ι → ℂ} {r : ℝ} (e : ℂ) (hr : 0 < r)
    (hu : ∀ i, (u i).re = r) (h : Filter.Tendsto (fun i => ‖u i‖) l Filter.atTop) :
    Filter.Tendsto (fun i => (u i * u i + e).sqrt - u i) l (nhds 0) := by
  have key : ∀ i, ‖(u i * u i + e).sqrt - u i‖ * ‖(u i * u i + e).sqrt + u i‖ = ‖e‖ := fun i => by
    rw [← norm_mul]
    congr 1
    linear_combination csqrt_sq (u i * u i + e)
  have h1 : ∀ i, r ≤ ‖(u i * u i + e).sqrt + u i‖ := fun i => by
    have h2 := le_of_abs_le (Complex.abs_re_le_norm ((u i * u i + e).sqrt + u i))
    rw [Complex.add_re, hu] at h2
    linarith [csqrt_re_nonneg (u i * u i + e)]
  have h2 : ∀ i, ‖(u i * u i + e).sqrt - u i‖ ≤ ‖e‖ / r := fun i => by
    rw [le_div_iff₀ hr, ← key i]
    exact mul_le_mul_of_nonneg_left (h1 i) (norm_nonneg _)
  have h3 : ∀ i, 2 * ‖u i‖ - ‖e‖ / r ≤ ‖(u i * u i + e).sqrt + u i‖ := fun i => by
    have : ‖2 * u i‖ ≤ ‖(u i * u i + e).sqrt + u i‖ + ‖(u i * u i + e).sqrt - u i‖ := by
      have := norm_sub_le ((u i * u i + e).sqrt + u i) ((u i * u i + e).sqrt - u i)
      rwa [show (u i * u i + e).sqrt + u i - ((u i * u i + e).sqrt - u i) = 2 * u i by ring] at this
    rw [norm_mul, Complex.norm_ofNat] at this
    linarith [h2 i]
  have h4 : Filter.Tendsto (fun i => ‖(u i * u i + e).sqrt + u i‖) l Filter.atTop := by
    refine Filter.tendsto_atTop_mono h3 ?_
    exact Filter.tendsto_atTop_add_const_right _ _ (h.const_mul_atTop (by norm_num))
  rw [tendsto_zero_iff_norm_tendsto_zero]
  have h5 : Filter.Tendsto (fun i => ‖e‖ / ‖(u i * u i + e).sqrt + u i‖) l (nhds 0) :=
    h4.const_div_atTop _
  refine h5.congr fun i => ?_
  rw [← key i]
  have := (hr.trans_le (h1 i)).ne'
  exact mul_div_cancel_right₀ _ this

end RockPhy
