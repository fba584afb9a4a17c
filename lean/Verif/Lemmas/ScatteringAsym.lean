import Mathlib.Analysis.Calculus.Deriv.Mul
import Mathlib.Analysis.Calculus.Deriv.Slope
import Mathlib.Analysis.SpecialFunctions.Sqrt
import Mathlib.Tactic.LinearCombination

/-! # Lemmas: first order of a reflection coefficient from energy and reciprocity balances -/

namespace RockPhy.Scat

open Filter Topology

/-- Derivative at 0 of a product whose first factor vanishes there; the second need only have a
limit. -/
theorem deriv_mul_zero {f g : ℝ → ℝ} {f' g0 : ℝ} (hf : HasDerivAt f f' 0) (h0 : f 0 = 0)
    (hg : Tendsto g (𝓝 0) (𝓝 g0)) : HasDerivAt (fun t => f t * g t) (f' * g0) 0 := by
  rw [hasDerivAt_iff_tendsto_slope_zero] at hf ⊢
  refine (hf.mul (hg.mono_left nhdsWithin_le_nhds)).congr' ?_
  refine Eventually.of_forall fun t => ?_
  simp only [zero_add, h0, zero_mul, sub_zero, smul_eq_mul]
  ring

/-- The balances at an interface between nearly equal media.  `f` are energy fluxes, `b` reciprocity
products with the up-going P wave of the background, `d` those with its down-going P wave; `n` are
displacements of shear waves. -/
theorem balance {e c K X1 X2 : ℝ} (he : 0 < e) (hc : 0 < c)
    {R T fi fr ft f1 f2 f3 f4 n1 n2 n3 n4 bi br bt b1 b2 b3 b4 di dr dt d1 d2 d3 d4 : ℝ → ℝ}
    (hE : ∀ᶠ t in 𝓝 0, fi t + R t ^ 2 * fr t + f1 t + f2 t = T t ^ 2 * ft t + f3 t + f4 t)
    (hB : ∀ᶠ t in 𝓝 0, bi t + R t * br t + b1 t + b2 t = T t * bt t + b3 t + b4 t)
    (hD : ∀ᶠ t in 𝓝 0, di t + R t * dr t + d1 t + d2 t = T t * dt t + d3 t + d4 t)
    (h1 : ∀ᶠ t in 𝓝 0, c * n1 t ^ 2 ≤ -f1 t ∧ |b1 t| ≤ K * |t| * n1 t ∧ |d1 t| ≤ K * |t| * n1 t)
    (h2 : ∀ᶠ t in 𝓝 0, c * n2 t ^ 2 ≤ -f2 t ∧ |b2 t| ≤ K * |t| * n2 t ∧ |d2 t| ≤ K * |t| * n2 t)
    (h3 : ∀ᶠ t in 𝓝 0, c * n3 t ^ 2 ≤ f3 t ∧ |b3 t| ≤ K * |t| * n3 t ∧ |d3 t| ≤ K * |t| * n3 t)
    (h4 : ∀ᶠ t in 𝓝 0, c * n4 t ^ 2 ≤ f4 t ∧ |b4 t| ≤ K * |t| * n4 t ∧ |d4 t| ≤ K * |t| * n4 t)
    (hfi : Tendsto fi (𝓝 0) (𝓝 e)) (hfr : Tendsto fr (𝓝 0) (𝓝 (-e)))
    (hft : Tendsto ft (𝓝 0) (𝓝 e)) (hbr : Tendsto br (𝓝 0) (𝓝 (-(2 * e))))
    (hbi : HasDerivAt bi X1 0) (hbt : HasDerivAt bt X2 0) (hbi0 : bi 0 = 0) (hbt0 : bt 0 = 0)
    (hdi : Tendsto di (𝓝 0) (𝓝 (2 * e))) (hdt : Tendsto dt (𝓝 0) (𝓝 (2 * e)))
    (hdr : Tendsto dr (𝓝 0) (𝓝 0)) :
    R 0 = 0 ∧ HasDerivAt R ((X1 - X2) / (2 * e)) 0 := by
  -- bounds
  have L : ∃ L : ℝ, 0 < L ∧ ∀ᶠ t in 𝓝 0, |R t| ≤ L ∧ |T t| ≤ L ∧ |n1 t| ≤ L ∧ |n2 t| ≤ L
      ∧ |n3 t| ≤ L ∧ |n4 t| ≤ L := by
    refine ⟨√4 + √(2 * e / c), by positivity, ?_⟩
    filter_upwards [hE, h1, h2, h3, h4, hfi.eventually_lt_const (show e < 2 * e by linarith),
      hfr.eventually_lt_const (show -e < -e / 2 by linarith),
      hft.eventually_const_lt (show e / 2 < e by linarith)] with t E g1 g2 g3 g4 gi gr gt
    have s1 := mul_nonneg hc.le (sq_nonneg (n1 t))
    have s2 := mul_nonneg hc.le (sq_nonneg (n2 t))
    have s3 := mul_nonneg hc.le (sq_nonneg (n3 t))
    have s4 := mul_nonneg hc.le (sq_nonneg (n4 t))
    have sR : e / 2 * R t ^ 2 ≤ -(R t ^ 2 * fr t) := by nlinarith [sq_nonneg (R t)]
    have sT : e / 2 * T t ^ 2 ≤ T t ^ 2 * ft t := by nlinarith [sq_nonneg (T t)]
    have sR0 := mul_nonneg (half_pos he).le (sq_nonneg (R t))
    have sT0 := mul_nonneg (half_pos he).le (sq_nonneg (T t))
    have key : ∀ z, c * z ^ 2 ≤ 2 * e → |z| ≤ √4 + √(2 * e / c) := fun z hz => by
      have : |z| ≤ √(2 * e / c) := Real.abs_le_sqrt (by rw [le_div_iff₀ hc]; linarith)
      linarith [Real.sqrt_nonneg 4]
    have key' : ∀ z, e / 2 * z ^ 2 ≤ 2 * e → |z| ≤ √4 + √(2 * e / c) := fun z hz => by
      have : |z| ≤ √4 := Real.abs_le_sqrt (by nlinarith)
      linarith [Real.sqrt_nonneg (2 * e / c)]
    refine ⟨key' _ ?_, key' _ ?_, key _ ?_, key _ ?_, key _ ?_, key _ ?_⟩ <;>
      linarith [g1.1, g2.1, g3.1, g4.1]
  obtain ⟨L, hL, hbd⟩ := L
  have habs : Tendsto (fun t : ℝ => |t|) (𝓝 0) (𝓝 0) := by
    simpa using (continuous_abs.tendsto (0 : ℝ))
  -- shear products vanish
  have small : ∀ {a n : ℝ → ℝ}, (∀ᶠ t in 𝓝 0, |a t| ≤ K * |t| * n t) →
      (∀ᶠ t in 𝓝 0, |n t| ≤ L) → Tendsto a (𝓝 0) (𝓝 0) := by
    intro a n ha hn
    have z : Tendsto (fun t : ℝ => |K| * L * |t|) (𝓝 0) (𝓝 0) := by
      simpa using habs.const_mul (|K| * L)
    refine squeeze_zero_norm' ?_ z
    filter_upwards [ha, hn] with t h1 h2
    rw [Real.norm_eq_abs]
    refine h1.trans ((le_abs_self _).trans ?_)
    rw [abs_mul, abs_mul, abs_abs]
    nlinarith [mul_le_mul_of_nonneg_left h2 (mul_nonneg (abs_nonneg K) (abs_nonneg t))]
  have zb1 := small (h1.mono fun t h => h.2.1) (hbd.mono fun t h => h.2.2.1)
  have zb2 := small (h2.mono fun t h => h.2.1) (hbd.mono fun t h => h.2.2.2.1)
  have zb3 := small (h3.mono fun t h => h.2.1) (hbd.mono fun t h => h.2.2.2.2.1)
  have zb4 := small (h4.mono fun t h => h.2.1) (hbd.mono fun t h => h.2.2.2.2.2)
  have zd1 := small (h1.mono fun t h => h.2.2) (hbd.mono fun t h => h.2.2.1)
  have zd2 := small (h2.mono fun t h => h.2.2) (hbd.mono fun t h => h.2.2.2.1)
  have zd3 := small (h3.mono fun t h => h.2.2) (hbd.mono fun t h => h.2.2.2.2.1)
  have zd4 := small (h4.mono fun t h => h.2.2) (hbd.mono fun t h => h.2.2.2.2.2)
  -- bounded times vanishing
  have bz : ∀ {a z : ℝ → ℝ}, (∀ᶠ t in 𝓝 0, |a t| ≤ L) → Tendsto z (𝓝 0) (𝓝 0) →
      Tendsto (fun t => a t * z t) (𝓝 0) (𝓝 0) := by
    intro a z ha hz
    have z' : Tendsto (fun t : ℝ => L * |z t|) (𝓝 0) (𝓝 0) := by
      simpa using hz.abs.const_mul L
    refine squeeze_zero_norm' ?_ z'
    filter_upwards [ha] with t h
    rw [Real.norm_eq_abs, abs_mul]
    gcongr
  have cbi : Tendsto bi (𝓝 0) (𝓝 0) := by simpa [hbi0] using hbi.continuousAt.tendsto
  have cbt : Tendsto bt (𝓝 0) (𝓝 0) := by simpa [hbt0] using hbt.continuousAt.tendsto
  have hbr0 : ∀ᶠ t in 𝓝 0, br t ≠ 0 := hbr.eventually_ne (by linarith)
  have tR : Tendsto R (𝓝 0) (𝓝 0) := by
    have n := ((((bz (hbd.mono fun t h => h.2.1) cbt).sub cbi).add (zb3.add zb4)).sub
      (zb1.add zb2)).div hbr (by linarith)
    simp only [sub_zero, add_zero, zero_div] at n
    refine n.congr' ?_
    filter_upwards [hB, hbr0] with t hb h0
    rw [Pi.div_apply]
    rw [div_eq_iff h0]
    linarith
  have tT : Tendsto T (𝓝 0) (𝓝 1) := by
    have n := ((((hdi.add (bz (hbd.mono fun t h => h.1) hdr)).add (zd1.add zd2)).sub
      (zd3.add zd4))).div hdt (by linarith)
    simp only [sub_zero, add_zero] at n
    rw [div_self (by linarith)] at n
    refine n.congr' ?_
    filter_upwards [hD, hdt.eventually_ne (show 2 * e ≠ 0 by linarith)] with t hb h0
    rw [Pi.div_apply, div_eq_iff h0]
    linarith
  -- shear displacements vanish
  have zE : Tendsto (fun t => (fi t + R t ^ 2 * fr t - T t ^ 2 * ft t) / c) (𝓝 0) (𝓝 0) := by
    have n := (((hfi.add ((tR.pow 2).mul hfr)).sub ((tT.pow 2).mul hft)).div_const c)
    simpa using n
  have zE' : Tendsto (fun t => √((fi t + R t ^ 2 * fr t - T t ^ 2 * ft t) / c)) (𝓝 0) (𝓝 0) := by
    have n := (Real.continuous_sqrt.tendsto _).comp zE
    rw [Real.sqrt_zero] at n
    exact n
  have zn : ∀ᶠ t in 𝓝 0, ∀ z, z = n1 t ∨ z = n2 t ∨ z = n3 t ∨ z = n4 t →
      |z| ≤ √((fi t + R t ^ 2 * fr t - T t ^ 2 * ft t) / c) := by
    filter_upwards [hE, h1, h2, h3, h4] with t E g1 g2 g3 g4 z hz
    have s1 := mul_nonneg hc.le (sq_nonneg (n1 t))
    have s2 := mul_nonneg hc.le (sq_nonneg (n2 t))
    have s3 := mul_nonneg hc.le (sq_nonneg (n3 t))
    have s4 := mul_nonneg hc.le (sq_nonneg (n4 t))
    refine Real.abs_le_sqrt ?_
    rw [le_div_iff₀ hc]
    rcases hz with rfl | rfl | rfl | rfl <;> linarith [g1.1, g2.1, g3.1, g4.1]
  have zn1 : Tendsto n1 (𝓝 0) (𝓝 0) := squeeze_zero_norm' (zn.mono fun t h => h _ (by tauto)) zE'
  have zn2 : Tendsto n2 (𝓝 0) (𝓝 0) := squeeze_zero_norm' (zn.mono fun t h => h _ (by tauto)) zE'
  have zn3 : Tendsto n3 (𝓝 0) (𝓝 0) := squeeze_zero_norm' (zn.mono fun t h => h _ (by tauto)) zE'
  have zn4 : Tendsto n4 (𝓝 0) (𝓝 0) := squeeze_zero_norm' (zn.mono fun t h => h _ (by tauto)) zE'
  -- value at 0
  have R0 : R 0 = 0 := tendsto_nhds_unique (tendsto_const_nhds (f := pure (0 : ℝ)))
    (tR.mono_left (pure_le_nhds 0) |>.congr' (by simp [EventuallyEq])) 
  refine ⟨R0, ?_⟩
  rw [hasDerivAt_iff_tendsto_slope_zero] at hbi hbt ⊢
  simp only [zero_add, hbi0, hbt0, R0, sub_zero, smul_eq_mul] at hbi hbt ⊢
  have w : 𝓝[≠] (0 : ℝ) ≤ 𝓝 0 := nhdsWithin_le_nhds
  have sl : ∀ {a n : ℝ → ℝ}, (∀ᶠ t in 𝓝 0, |a t| ≤ K * |t| * n t) → Tendsto n (𝓝 0) (𝓝 0) →
      Tendsto (fun t => t⁻¹ * a t) (𝓝[≠] 0) (𝓝 0) := by
    intro a n ha hn
    have z' : Tendsto (fun t : ℝ => K * n t) (𝓝[≠] 0) (𝓝 0) := by
      simpa using (hn.const_mul K).mono_left w
    refine squeeze_zero_norm' ?_ z'
    filter_upwards [w ha, self_mem_nhdsWithin] with t h h0
    have hp : 0 < |t| := abs_pos.mpr h0
    rw [Real.norm_eq_abs, abs_mul, abs_inv, inv_mul_eq_div, div_le_iff₀ hp]
    linarith [show |a t| ≤ K * |t| * n t from h]
  have q1 := sl (h1.mono fun t h => h.2.1) zn1
  have q2 := sl (h2.mono fun t h => h.2.1) zn2
  have q3 := sl (h3.mono fun t h => h.2.1) zn3
  have q4 := sl (h4.mono fun t h => h.2.1) zn4
  have n := (((((tT.mono_left w).mul hbt).sub hbi).add (q3.add q4)).sub (q1.add q2)).div
    (hbr.mono_left w) (by linarith)
  rw [show (1 * X2 - X1 + (0 + 0) - (0 + 0)) / -(2 * e) = (X1 - X2) / (2 * e) by field] at n
  refine n.congr' ?_
  filter_upwards [w hB, w hbr0] with t hb h0
  rw [Pi.div_apply, div_eq_iff h0]
  have hb' : bi t + R t * br t + b1 t + b2 t = T t * bt t + b3 t + b4 t := hb
  linear_combination (-t⁻¹) * hb'

end RockPhy.Scat
