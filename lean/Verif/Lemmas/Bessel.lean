import Verif.Spec.Oscillating
import Mathlib.Analysis.Calculus.SmoothSeries
import Mathlib.Analysis.Calculus.MeanValue
import Mathlib.Analysis.SpecialFunctions.Exponential
import Mathlib.Analysis.Calculus.Deriv.Pow
import Mathlib.Analysis.Calculus.Deriv.Inv
import Mathlib.Analysis.Complex.RealDeriv

/-! # Bessel functions as power series, their recurrence and their ratios on the imaginary axis of `z²` -/

namespace RockPhy

open Complex Spec

/-- `Σ tᵏ / (k! (k+m)!)`. -/
noncomputable def bes (m : ℕ) (t : ℂ) : ℂ := ∑' k : ℕ, t ^ k / (k.factorial * (k + m).factorial : ℝ)

theorem bes_term_le (m : ℕ) {M : ℝ} {t : ℂ} (ht : ‖t‖ ≤ M) (k : ℕ) :
    ‖t ^ k / (k.factorial * (k + m).factorial : ℝ)‖ ≤ M ^ k / k.factorial := by
  have h0 : (0 : ℝ) < k.factorial := by exact_mod_cast k.factorial_pos
  have h1 : (1 : ℝ) ≤ (k + m).factorial := by exact_mod_cast (k + m).factorial_pos
  have hM : 0 ≤ M := (norm_nonneg t).trans ht
  rw [norm_div, norm_pow, Complex.norm_real, Real.norm_eq_abs, abs_of_pos (by positivity)]
  apply div_le_div₀ (by positivity) (by gcongr) h0
  nlinarith

theorem bes_summable (m : ℕ) (t : ℂ) :
    Summable fun k : ℕ => t ^ k / (k.factorial * (k + m).factorial : ℝ) :=
  Summable.of_norm_bounded (Real.summable_pow_div_factorial ‖t‖) fun k => bes_term_le m le_rfl k

theorem besselJ_eq (n : ℕ) (z : ℂ) : besselJ n z = (z / 2) ^ n * bes n (-z ^ 2 / 4) := by
  unfold besselJ bes
  rw [← tsum_mul_left]
  congr 1
  funext k
  rw [pow_add, pow_mul, show -z ^ 2 / 4 = -1 * (z / 2) ^ 2 by ring, mul_pow (-1 : ℂ)]
  ring

/-- Recurrence. -/
theorem bes_rec (m : ℕ) (t : ℂ) : bes m t = (m + 1) * bes (m + 1) t + t * bes (m + 2) t := by
  have h1 := bes_summable (m + 1) t
  have h2 := bes_summable (m + 2) t
  -- the shifted series
  have h3 : t * bes (m + 2) t = ∑' k : ℕ, k * (t ^ k / (k.factorial * (k + (m + 1)).factorial : ℝ)) := by
    have hs : Summable fun k : ℕ => (k : ℂ) * (t ^ k / (k.factorial * (k + (m + 1)).factorial : ℝ)) := by
      rw [← summable_nat_add_iff 1]
      refine (h2.mul_left t).congr fun k => ?_
      rw [show k + 1 + (m + 1) = k + (m + 2) by ring, Nat.factorial_succ k]
      have := Nat.factorial_ne_zero k
      have := Nat.factorial_ne_zero (k + (m + 2))
      have : ((k : ℂ) + 1) ≠ 0 := by exact_mod_cast Nat.succ_ne_zero k
      push_cast
      rw [pow_succ]
      field
    rw [hs.tsum_eq_zero_add]
    unfold bes
    rw [← tsum_mul_left]
    simp only [Nat.cast_zero, zero_mul, zero_add]
    congr 1
    funext k
    rw [show k + 1 + (m + 1) = k + (m + 2) by ring, Nat.factorial_succ k]
    have := Nat.factorial_ne_zero k
    have := Nat.factorial_ne_zero (k + (m + 2))
    have : ((k : ℂ) + 1) ≠ 0 := by exact_mod_cast Nat.succ_ne_zero k
    push_cast
    rw [pow_succ]
    field
  have hs : Summable fun k : ℕ => (k : ℂ) * (t ^ k / (k.factorial * (k + (m + 1)).factorial : ℝ)) := by
    rw [← summable_nat_add_iff 1]
    refine (h2.mul_left t).congr fun k => ?_
    rw [show k + 1 + (m + 1) = k + (m + 2) by ring, Nat.factorial_succ k]
    have := Nat.factorial_ne_zero k
    have := Nat.factorial_ne_zero (k + (m + 2))
    have : ((k : ℂ) + 1) ≠ 0 := by exact_mod_cast Nat.succ_ne_zero k
    push_cast
    rw [pow_succ]
    field
  rw [h3]
  unfold bes
  rw [← tsum_mul_left, ← (h1.mul_left _).tsum_add hs]
  congr 1
  funext k
  rw [← add_assoc k m 1, Nat.factorial_succ (k + m)]
  have := Nat.factorial_ne_zero k
  have := Nat.factorial_ne_zero (k + m)
  have : ((k : ℂ) + m + 1) ≠ 0 := by exact_mod_cast Nat.succ_ne_zero (k + m)
  push_cast
  field

theorem hasDerivAt_bes (m : ℕ) (t : ℂ) : HasDerivAt (bes m) (bes (m + 1) t) t := by
  let M : ℝ := ‖t‖ + 1
  have hM : 0 ≤ M := by positivity
  let g' : ℕ → ℂ → ℂ := fun k y => (k * y ^ (k - 1)) / (k.factorial * (k + m).factorial : ℝ)
  let u : ℕ → ℝ := fun k => k * M ^ (k - 1) / k.factorial
  have hu : Summable u := by
    rw [← summable_nat_add_iff 1]
    refine (Real.summable_pow_div_factorial M).congr fun k => ?_
    simp only [u, Nat.factorial_succ, Nat.add_sub_cancel]
    have := Nat.factorial_ne_zero k
    have : ((k : ℝ) + 1) ≠ 0 := by positivity
    push_cast
    field
  have hd := hasDerivAt_tsum_of_isPreconnected (𝕜 := ℂ) (u := u) (t := Metric.ball (0 : ℂ) M)
    (g := fun k y => y ^ k / (k.factorial * (k + m).factorial : ℝ)) (g' := g') (y₀ := t) (y := t) hu
    Metric.isOpen_ball (convex_ball 0 M).isPreconnected
    (fun k y _ => (hasDerivAt_pow k y).div_const _) (fun k y hy => ?_)
    (by simp [M]) (bes_summable m t) (by simp [M])
  · refine hd.congr_deriv ?_
    have hs : Summable fun k => g' k t := Summable.of_norm_bounded hu fun k => ?_
    · rw [hs.tsum_eq_zero_add]
      simp only [g', Nat.cast_zero, zero_mul, zero_div, zero_add, Nat.add_sub_cancel]
      unfold bes
      congr 1
      funext k
      rw [show k + 1 + m = k + (m + 1) by ring, Nat.factorial_succ k]
      have := Nat.factorial_ne_zero k
      have := Nat.factorial_ne_zero (k + (m + 1))
      have : ((k : ℂ) + 1) ≠ 0 := by exact_mod_cast Nat.succ_ne_zero k
      push_cast
      field
    · have ht : ‖t‖ ≤ M := by simp [M]
      simp only [g', u]
      have h0 : (0 : ℝ) < k.factorial := by exact_mod_cast k.factorial_pos
      have h1 : (1 : ℝ) ≤ (k + m).factorial := by exact_mod_cast (k + m).factorial_pos
      rw [norm_div, norm_mul, norm_pow, Complex.norm_real, Real.norm_eq_abs, abs_of_pos (by positivity),
        Complex.norm_natCast]
      apply div_le_div₀ (by positivity) (by gcongr) h0
      nlinarith
  · have ht : ‖y‖ ≤ M := (mem_ball_zero_iff.mp hy).le
    simp only [g', u]
    have h0 : (0 : ℝ) < k.factorial := by exact_mod_cast k.factorial_pos
    have h1 : (1 : ℝ) ≤ (k + m).factorial := by exact_mod_cast (k + m).factorial_pos
    rw [norm_div, norm_mul, norm_pow, Complex.norm_real, Real.norm_eq_abs, abs_of_pos (by positivity),
      Complex.norm_natCast]
    apply div_le_div₀ (by positivity) (by gcongr) h0
    nlinarith

/-! ## Ratios at `t = i y` -/

/-- For large order `m! bes m` is close to one. -/
theorem bes_near_one (t : ℂ) : ∃ N : ℕ, ∀ m ≥ N, ‖m.factorial * bes m t - 1‖ ≤ 1 / 2 := by
  obtain ⟨N, hN⟩ := exists_nat_ge (2 * ‖t‖ * Real.exp ‖t‖)
  refine ⟨N, fun m hm => ?_⟩
  have hs := bes_summable m t
  have e : m.factorial * bes m t - 1
      = ∑' k : ℕ, m.factorial * (t ^ (k + 1) / ((k + 1).factorial * (k + 1 + m).factorial : ℝ)) := by
    unfold bes
    rw [hs.tsum_eq_zero_add, mul_add, ← tsum_mul_left]
    have := Nat.factorial_ne_zero m
    simp only [pow_zero, Nat.factorial_zero, Nat.cast_one, zero_add, one_mul]
    push_cast
    rw [mul_one_div, div_self (by exact_mod_cast this)]
    ring
  rw [e]
  have hb : ∀ k : ℕ, ‖(m.factorial : ℂ) * (t ^ (k + 1) / ((k + 1).factorial * (k + 1 + m).factorial : ℝ))‖
      ≤ ‖t‖ / (m + 1) * (‖t‖ ^ k / k.factorial) := by
    intro k
    have h0 : (0 : ℝ) < k.factorial := by exact_mod_cast k.factorial_pos
    have hf : ((m + 1 : ℕ).factorial : ℝ) ≤ (k + 1 + m).factorial := by
      exact_mod_cast Nat.factorial_le (by omega)
    have hm0 : (0 : ℝ) < m.factorial := by exact_mod_cast m.factorial_pos
    have hk : (k.factorial : ℝ) ≤ (k + 1).factorial := by exact_mod_cast Nat.factorial_le (by omega)
    rw [Nat.factorial_succ] at hf
    push_cast at hf
    have hk1 : (0 : ℝ) < (k + 1).factorial := lt_of_lt_of_le h0 hk
    have hm1 : (0 : ℝ) < (k + 1 + m).factorial := lt_of_lt_of_le (by positivity) hf
    rw [norm_mul, norm_div, norm_pow, Complex.norm_real, Real.norm_eq_abs, abs_of_pos (by positivity),
      Complex.norm_natCast, ← mul_div_assoc, div_mul_div_comm, div_le_div_iff₀ (by positivity) (by positivity)]
    have : (m.factorial : ℝ) * ((m + 1) * k.factorial) ≤ (k + 1).factorial * (k + 1 + m).factorial := by
      calc (m.factorial : ℝ) * ((m + 1) * k.factorial) = k.factorial * ((m + 1) * m.factorial) := by ring
        _ ≤ _ := by gcongr
    calc (m.factorial : ℝ) * ‖t‖ ^ (k + 1) * ((m + 1) * k.factorial)
        = ‖t‖ ^ (k + 1) * (m.factorial * ((m + 1) * k.factorial)) := by ring
      _ ≤ ‖t‖ ^ (k + 1) * ((k + 1).factorial * (k + 1 + m).factorial) := by gcongr
      _ = _ := by rw [pow_succ]; ring
  have hs2 : HasSum (fun k : ℕ => ‖t‖ / (m + 1) * (‖t‖ ^ k / k.factorial)) (‖t‖ / (m + 1) * Real.exp ‖t‖) := by
    rw [Real.exp_eq_exp_ℝ]
    exact (NormedSpace.expSeries_div_hasSum_exp ‖t‖).mul_left _
  refine (tsum_of_norm_bounded hs2 hb).trans ?_
  have hm' : 2 * ‖t‖ * Real.exp ‖t‖ ≤ m := hN.trans (by exact_mod_cast hm)
  rw [div_mul_eq_mul_div, div_le_div_iff₀ (by positivity) (by norm_num)]
  linarith

/-- In the first quadrant. -/
def Quad (m : ℕ) (y : ℝ) : Prop :=
  bes m (I * y) ≠ 0 ∧ bes (m + 1) (I * y) ≠ 0 ∧
    (m : ℝ) + 1 ≤ (bes m (I * y) / bes (m + 1) (I * y)).re ∧ 0 < (bes m (I * y) / bes (m + 1) (I * y)).im

theorem bes_ratio_rec (m : ℕ) {t : ℂ} (h : bes (m + 1) t ≠ 0) :
    bes m t / bes (m + 1) t = (m + 1) + t / (bes (m + 1) t / bes (m + 2) t) := by
  rw [bes_rec m t]
  by_cases h2 : bes (m + 2) t = 0
  · rw [h2]; simp [h]
  · field

theorem imag_div (y : ℝ) {g : ℂ} : ((I * y / g).re = y * g.im / normSq g) ∧ (I * y / g).im = y * g.re / normSq g := by
  constructor
  · rw [Complex.div_re]; simp
  · rw [Complex.div_im]; simp

theorem quad_step {m : ℕ} {y : ℝ} (hy : 0 < y) (h : Quad (m + 1) y) : Quad m y := by
  obtain ⟨h1, h2, hr, hi⟩ := h
  have hg : 0 < (bes (m + 1) (I * y) / bes (m + 2) (I * y)).re := by
    have : (0 : ℝ) < ((m + 1 : ℕ) : ℝ) + 1 := by positivity
    exact lt_of_lt_of_le this hr
  have hn : 0 < normSq (bes (m + 1) (I * y) / bes (m + 2) (I * y)) :=
    normSq_pos.mpr fun e => by rw [e] at hg; simp at hg
  have e := bes_ratio_rec m h1
  have hre : (m : ℝ) + 1 ≤ (bes m (I * y) / bes (m + 1) (I * y)).re := by
    rw [e, add_re, (imag_div y).1]
    have : 0 < y * (bes (m + 1) (I * y) / bes (m + 2) (I * y)).im
        / normSq (bes (m + 1) (I * y) / bes (m + 2) (I * y)) := by positivity
    simp [-map_div₀]
    exact this.le
  refine ⟨fun h0 => ?_, h1, hre, ?_⟩
  · rw [h0] at hre
    simp at hre
    have : (0 : ℝ) ≤ m := by positivity
    linarith
  · rw [e, add_im, (imag_div y).2]
    have : 0 < y * (bes (m + 1) (I * y) / bes (m + 2) (I * y)).re
        / normSq (bes (m + 1) (I * y) / bes (m + 2) (I * y)) := by positivity
    simp [-map_div₀]
    exact this

theorem near_one_ratio {b c : ℂ} (hb : ‖b - 1‖ ≤ 1 / 2) (hc : ‖c - 1‖ ≤ 1 / 2) : 0 < (b / c).re := by
  have hb2 : (b.re - 1) ^ 2 + b.im ^ 2 ≤ 1 / 4 := by
    have := Complex.sq_norm (b - 1)
    rw [normSq_apply] at this
    simp at this
    nlinarith [norm_nonneg (b - 1)]
  have hc2 : (c.re - 1) ^ 2 + c.im ^ 2 ≤ 1 / 4 := by
    have := Complex.sq_norm (c - 1)
    rw [normSq_apply] at this
    simp at this
    nlinarith [norm_nonneg (c - 1)]
  have hc0 : 0 < normSq c := normSq_pos.mpr fun e => by rw [e] at hc2; norm_num at hc2
  rw [Complex.div_re, ← add_div]
  apply div_pos _ hc0
  have r1 : 1 / 2 ≤ b.re := by nlinarith [sq_nonneg b.im]
  have r2 : 1 / 2 ≤ c.re := by nlinarith [sq_nonneg c.im]
  have i1 : b.im ^ 2 < b.re ^ 2 := by nlinarith
  have i2 : c.im ^ 2 < c.re ^ 2 := by nlinarith
  have j1 : |b.im| < b.re := abs_lt_of_sq_lt_sq i1 (by linarith)
  have j2 : |c.im| < c.re := abs_lt_of_sq_lt_sq i2 (by linarith)
  have : |b.im * c.im| < b.re * c.re := by
    rw [abs_mul]
    exact mul_lt_mul'' j1 j2 (abs_nonneg _) (abs_nonneg _)
  linarith [neg_abs_le (b.im * c.im)]

theorem quad_all {y : ℝ} (hy : 0 < y) (m : ℕ) : Quad m y := by
  obtain ⟨N, hN⟩ := bes_near_one (I * y)
  have nz : ∀ k ≥ N, bes k (I * y) ≠ 0 := by
    intro k hk e
    have := hN k hk
    rw [e] at this
    norm_num at this
  have pos : ∀ k ≥ N, 0 < (bes k (I * y) / bes (k + 1) (I * y)).re := by
    intro k hk
    have h := near_one_ratio (hN k hk) (hN (k + 1) (by omega))
    have hk0 : (k.factorial : ℂ) ≠ 0 := by exact_mod_cast k.factorial_ne_zero
    have hk1 : ((k : ℂ) + 1) ≠ 0 := by exact_mod_cast Nat.succ_ne_zero k
    have hz := nz (k + 1) (by omega)
    have e : bes k (I * y) / bes (k + 1) (I * y) = ((k + 1 : ℝ) : ℂ)
        * ((k.factorial * bes k (I * y)) / ((k + 1).factorial * bes (k + 1) (I * y))) := by
      rw [Nat.factorial_succ]
      push_cast
      field
    rw [e, re_ofReal_mul]
    positivity
  have im : ∀ k ≥ N, 0 < (bes k (I * y) / bes (k + 1) (I * y)).im := by
    intro k hk
    have p := pos (k + 1) (by omega)
    have hn : 0 < normSq (bes (k + 1) (I * y) / bes (k + 2) (I * y)) :=
      normSq_pos.mpr fun e => by
        rw [show k + 2 = k + 1 + 1 from rfl] at e
        rw [e] at p; simp at p
    rw [bes_ratio_rec k (nz (k + 1) (by omega)), add_im, (imag_div y).2]
    have : 0 < y * (bes (k + 1) (I * y) / bes (k + 2) (I * y)).re
        / normSq (bes (k + 1) (I * y) / bes (k + 2) (I * y)) := by positivity
    simp [-map_div₀]
    exact this
  have top : ∀ k ≥ N, Quad k y := by
    intro k hk
    have p := im (k + 1) (by omega)
    have hn : 0 < normSq (bes (k + 1) (I * y) / bes (k + 2) (I * y)) :=
      normSq_pos.mpr fun e => by
        rw [show k + 2 = k + 1 + 1 from rfl] at e
        rw [e] at p; simp at p
    refine ⟨nz k hk, nz (k + 1) (by omega), ?_, im k hk⟩
    rw [bes_ratio_rec k (nz (k + 1) (by omega)), add_re, (imag_div y).1]
    have : 0 < y * (bes (k + 1) (I * y) / bes (k + 2) (I * y)).im
        / normSq (bes (k + 1) (I * y) / bes (k + 2) (I * y)) := by positivity
    simp [-map_div₀]
    exact this.le
  -- downward
  have down : ∀ d m, m + d = max m N → Quad m y := by
    intro d
    induction d with
    | zero => intro m hm; exact top m (by omega)
    | succ d ih =>
      intro m hm
      exact quad_step hy (ih (m + 1) (by omega))
  exact down (max m N - m) m (by omega)

/-! ## The Bessel ratio against its limit -/

/-- `T(ζ) = (iζ/2) bes 1 / bes 0` at `t = iζ²/4`. -/
noncomputable def besT (ζ : ℝ) : ℂ :=
  I * ζ / 2 * (bes 1 (I * (ζ ^ 2 / 4 : ℝ)) / bes 0 (I * (ζ ^ 2 / 4 : ℝ)))

theorem bes_zero_ne (ζ : ℝ) : bes 0 (I * (ζ ^ 2 / 4 : ℝ)) ≠ 0 := by
  rcases eq_or_ne ζ 0 with rfl | h
  · unfold bes
    rw [tsum_eq_single 0]
    · simp
    · intro k hk
      simp [hk]
  · exact (quad_all (by positivity) 0).1

theorem besT_eq {ζ : ℝ} (h : 0 < ζ) :
    besT ζ = I * ζ / 2 / (bes 0 (I * (ζ ^ 2 / 4 : ℝ)) / bes 1 (I * (ζ ^ 2 / 4 : ℝ))) := by
  have q := quad_all (y := ζ ^ 2 / 4) (by positivity) 0
  have h0 := q.1
  have h1 := q.2.1
  simp only [Nat.zero_add] at h1
  unfold besT
  field

theorem besT_re_pos {ζ : ℝ} (h : 0 < ζ) : 0 < (besT ζ).re := by
  have q := quad_all (y := ζ ^ 2 / 4) (by positivity) 0
  have h1 := q.2.1
  have hi := q.2.2.2
  simp only [Nat.zero_add] at h1 hi
  rw [besT_eq h]
  have e : I * (ζ : ℂ) / 2 = I * (ζ / 2 : ℝ) := by push_cast; ring
  rw [e, (imag_div _).1]
  have hn : 0 < normSq (bes 0 (I * (ζ ^ 2 / 4 : ℝ)) / bes 1 (I * (ζ ^ 2 / 4 : ℝ))) :=
    normSq_pos.mpr (div_ne_zero q.1 h1)
  positivity

theorem hasDerivAt_besT {ζ : ℝ} (hζ : 0 < ζ) :
    HasDerivAt besT (I - besT ζ / ζ - besT ζ ^ 2) ζ := by
  have h0 := bes_zero_ne ζ
  have ht : HasDerivAt (fun x : ℝ => I * ((x ^ 2 / 4 : ℝ) : ℂ)) (I * (ζ / 2 : ℝ)) ζ := by
    have : HasDerivAt (fun x : ℝ => x ^ 2 / 4) (ζ / 2) ζ := by
      refine ((hasDerivAt_pow 2 ζ).div_const 4).congr_deriv ?_
      simp; ring
    exact this.ofReal_comp.const_mul I
  have hA := (hasDerivAt_bes 0 (I * (ζ ^ 2 / 4 : ℝ))).comp ζ ht
  have hB := (hasDerivAt_bes 1 (I * (ζ ^ 2 / 4 : ℝ))).comp ζ ht
  have hz : HasDerivAt (fun x : ℝ => I * (x : ℂ) / 2) (I / 2) ζ := by
    have := ((hasDerivAt_id ζ).ofReal_comp.const_mul I).div_const 2
    simpa using this
  have hd := hz.mul (hB.div hA h0)
  have hrec := bes_rec 0 (I * (ζ ^ 2 / 4 : ℝ))
  refine hd.congr_deriv ?_
  unfold besT
  simp only [Function.comp, Pi.div_apply, CharP.cast_eq_zero, zero_add, one_mul] at hrec h0 ⊢
  have hI : I ^ 2 = -1 := I_sq
  have hζ' : (ζ : ℂ) ≠ 0 := Complex.ofReal_ne_zero.mpr hζ.ne'
  push_cast at *
  have e2 : bes (1 + 1) (I * (ζ ^ 2 / 4)) = bes 2 (I * (ζ ^ 2 / 4)) := rfl
  rw [e2]
  generalize bes 0 (I * (ζ ^ 2 / 4)) = A at *
  generalize bes 1 (I * (ζ ^ 2 / 4)) = B at *
  generalize bes 2 (I * (ζ ^ 2 / 4)) = C at *
  have hC : C * I * ζ ^ 2 = 4 * (A - B) := by linear_combination -4 * hrec
  field_simp
  linear_combination A * hC

theorem continuous_besT : Continuous besT := by
  have hb : ∀ m, Continuous (bes m) := fun m =>
    continuous_iff_continuousAt.mpr fun t => (hasDerivAt_bes m t).continuousAt
  have h0 := hb 0
  have h1 := hb 1
  unfold besT
  refine Continuous.mul (by fun_prop) (Continuous.div (by fun_prop) (by fun_prop) fun ζ => bes_zero_ne ζ)

/-- The limit of the ratio. -/
noncomputable def besT0 : ℂ := (1 + I) / √2

theorem besT0_sq : besT0 ^ 2 = I := by
  have h : ((√2 : ℝ) : ℂ) ^ 2 = 2 := by
    rw [← Complex.ofReal_pow, Real.sq_sqrt (by norm_num)]; norm_num
  unfold besT0
  rw [div_pow, h]
  linear_combination (1 / 2 : ℂ) * I_sq

theorem besT0_re : besT0.re = 1 / √2 := by
  unfold besT0
  rw [Complex.div_ofReal_re]
  simp

theorem besT0_norm : ‖besT0‖ = 1 := by
  have h : ‖besT0‖ ^ 2 = 1 := by rw [← norm_pow, besT0_sq, norm_I]
  nlinarith [norm_nonneg besT0]

theorem besT_near {ζ : ℝ} (hζ : 0 < ζ) : ‖besT ζ - besT0‖ ≤ √2 / ζ := by
  let m : ℝ → ℂ := fun x => x * (besT x - besT0)
  let f : ℝ → ℝ := fun x => (m x).re ^ 2 + (m x).im ^ 2
  have hm : Continuous m := by
    have := continuous_besT
    fun_prop
  have hf : Continuous f := by fun_prop
  have hd : ∀ x, 0 < x → HasDerivAt m (-besT0 - m x * (besT x + besT0)) x := by
    intro x hx
    have hx' : (x : ℂ) ≠ 0 := Complex.ofReal_ne_zero.mpr hx.ne'
    have h1 := (hasDerivAt_id x).ofReal_comp.mul ((hasDerivAt_besT hx).sub_const besT0)
    refine h1.congr_deriv ?_
    simp only [m, id, Complex.ofReal_one]
    have := besT0_sq
    field_simp
    linear_combination -this * x
  have hdf : ∀ x, 0 < x → HasDerivAt f (2 * (m x).re * (-besT0 - m x * (besT x + besT0)).re
      + 2 * (m x).im * (-besT0 - m x * (besT x + besT0)).im) x := by
    intro x hx
    have hr : HasDerivAt (fun x => (m x).re) (-besT0 - m x * (besT x + besT0)).re x :=
      Complex.reCLM.hasFDerivAt.comp_hasDerivAt x (hd x hx)
    have hi : HasDerivAt (fun x => (m x).im) (-besT0 - m x * (besT x + besT0)).im x :=
      Complex.imCLM.hasFDerivAt.comp_hasDerivAt x (hd x hx)
    refine ((hr.pow 2).add (hi.pow 2)).congr_deriv ?_
    simp
  -- a starting point
  obtain ⟨δ, hδ, hδζ, hδf⟩ : ∃ δ, 0 < δ ∧ δ ≤ ζ ∧ f δ ≤ 2 := by
    have h0 : f 0 < 2 := by simp [f, m]
    obtain ⟨e, he, hb⟩ := Metric.continuousAt_iff.mp hf.continuousAt (2 - f 0) (by linarith)
    refine ⟨min (e / 2) ζ, by positivity, min_le_right _ _, ?_⟩
    have : dist (min (e / 2) ζ) 0 < e := by
      rw [Real.dist_eq, sub_zero, abs_of_pos (by positivity)]
      exact (min_le_left _ _).trans_lt (by linarith)
    have := hb this
    rw [Real.dist_eq] at this
    linarith [(abs_lt.mp this).2]
  have key := image_le_of_deriv_right_lt_deriv_boundary (f := f) (a := δ) (b := ζ) (B := fun _ => 2)
    (B' := fun _ => 0) hf.continuousOn (fun x hx => (hdf x (hδ.trans_le hx.1)).hasDerivWithinAt) hδf
    (fun x => hasDerivAt_const x 2) ?_ (Set.right_mem_Icc.mpr hδζ)
  · have hn : ‖m ζ‖ ^ 2 ≤ 2 := by
      rw [Complex.sq_norm, normSq_apply]
      simp only [f] at key
      linarith
    have h2 : ‖m ζ‖ ≤ √2 := by
      rw [← Real.sqrt_sq (norm_nonneg (m ζ))]
      exact Real.sqrt_le_sqrt hn
    simp only [m, norm_mul, Complex.norm_real, Real.norm_eq_abs, abs_of_pos hζ] at h2
    rw [le_div_iff₀ hζ]
    linarith
  · intro x hx hfx
    have hT := besT_re_pos (hδ.trans_le hx.1)
    have hr := besT0_re
    have hn : besT0.re ^ 2 + besT0.im ^ 2 = 1 := by
      have := Complex.sq_norm besT0
      rw [besT0_norm, normSq_apply] at this
      linarith
    simp only [f] at hfx
    have e : 2 * (m x).re * (-besT0 - m x * (besT x + besT0)).re
        + 2 * (m x).im * (-besT0 - m x * (besT x + besT0)).im
        = -2 * ((m x).re * besT0.re + (m x).im * besT0.im)
          - 2 * ((m x).re ^ 2 + (m x).im ^ 2) * ((besT x).re + besT0.re) := by
      simp only [sub_re, neg_re, mul_re, sub_im, neg_im, mul_im, add_re, add_im]
      ring
    show _ < (0 : ℝ)
    rw [e, hfx]
    have hs : √2 ^ 2 = 2 := Real.sq_sqrt (by norm_num)
    have hs0 : 0 < √2 := by positivity
    have hq : 4 * besT0.re = 2 * √2 := by
      rw [hr]; field_simp; nlinarith
    have cs : -((m x).re * besT0.re + (m x).im * besT0.im) ≤ √2 := by
      apply le_of_sq_le_sq _ hs0.le
      rw [hs]
      nlinarith [sq_nonneg ((m x).re * besT0.im - (m x).im * besT0.re)]
    nlinarith

end RockPhy
