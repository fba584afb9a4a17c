import Verif.Lemmas.Scattering
import Verif.Lemmas.ScatteringAsym
import Mathlib.Algebra.BigOperators.Field

/-! # Lemmas: first order of the exact reflection coefficient of anisotropic media -/

namespace RockPhy.Scat

open Spec Matrix Filter Topology

/-- Vertical slowness, for the horizontal slowness of `x`, of waves of squared slowness `c`. -/
noncomputable def kz (c : ℝ) (x : X) : ℝ := √(c - x.2.2.1 ^ 2 - x.2.2.2 ^ 2)

theorem continuous_kz (c : ℝ) : Continuous (kz c) :=
  Real.continuous_sqrt.comp ((continuous_const.sub (continuous_snd.snd.fst.pow 2)).sub
    (continuous_snd.snd.snd.pow 2))

/-- The P wave of the background, down (`τ = 1`) or up (`τ = -1`), for the horizontal slowness of
`x`. -/
noncomputable def bgs (c τ : ℝ) (x : X) : Fin 3 → ℝ := ![x.2.2.1, x.2.2.2, τ * kz c x]

theorem continuous_bgs (c τ : ℝ) : Continuous (bgs c τ) := by
  refine continuous_pi fun i => ?_
  fin_cases i
  · exact continuous_snd.snd.fst
  · exact continuous_snd.snd.snd
  · exact continuous_const.mul (continuous_kz c)

/-- Distance of a medium from the background. -/
noncomputable def gap (M μ ρ : ℝ) (x : X) : ℝ :=
  |x.2.1 - ρ| + ∑ i, ∑ j, |x.1 i j - isoStiff M μ i j|

section

variable {M μ ρ p1 p2 q0 qS : ℝ}

theorem Background.M_pos (b : Background M μ ρ p1 p2 q0 qS) : 0 < M := b.hμ.trans b.hM

theorem Background.kz_eq (b : Background M μ ρ p1 p2 q0 qS) (C : Matrix (Fin 6) (Fin 6) ℝ) (r : ℝ) :
    kz (ρ / M) (C, r, p1, p2) = q0 := by
  rw [kz, show ρ / M - p1 ^ 2 - p2 ^ 2 = q0 ^ 2 by rw [← b.eq]; ring, Real.sqrt_sq b.hq.le]

theorem Background.wave (b : Background M μ ρ p1 p2 q0 qS) {τ : ℝ} (hτ : τ = 1 ∨ τ = -1) :
    ∀ᶠ x : X in 𝓝 (isoStiff M μ, ρ, p1, p2),
      IsWave (isoStiff M μ) ρ (bgs (ρ / M) τ x) (√(M / ρ) • bgs (ρ / M) τ x) := by
  have hM := b.M_pos
  have h : ∀ᶠ x : X in 𝓝 (isoStiff M μ, ρ, p1, p2), 0 < ρ / M - x.2.2.1 ^ 2 - x.2.2.2 ^ 2 := by
    refine (((continuous_const.sub (continuous_snd.snd.fst.pow 2)).sub
      (continuous_snd.snd.snd.pow 2)).continuousAt).eventually_const_lt ?_
    show 0 < ρ / M - p1 ^ 2 - p2 ^ 2
    nlinarith [b.eq, b.hq]
  filter_upwards [h] with x hx
  have hS : bgs (ρ / M) τ x ⬝ᵥ bgs (ρ / M) τ x = ρ / M := by
    have hk : kz (ρ / M) x ^ 2 = ρ / M - x.2.2.1 ^ 2 - x.2.2.2 ^ 2 := Real.sq_sqrt hx.le
    simp only [bgs, dotProduct, Fin.sum_univ_three]
    simp
    rcases hτ with rfl | rfl <;> linear_combination hk
  rw [iso_wave, dotProduct_smul, hS, smul_smul, smul_smul, ← add_smul]
  congr 1
  rw [smul_eq_mul]
  field

theorem pairing_le (D : Matrix (Fin 6) (Fin 6) ℝ) (e f : Fin 6 → ℝ) :
    |e ⬝ᵥ (D *ᵥ f)| ≤ (∑ i, ∑ j, |D i j|) * ∑ i, ∑ j, |e i| * |f j| := by
  have h1 : |e ⬝ᵥ (D *ᵥ f)| ≤ ∑ i, ∑ j, |D i j| * (|e i| * |f j|) := by
    simp only [dotProduct, mulVec, Finset.mul_sum]
    refine (Finset.abs_sum_le_sum_abs _ _).trans (Finset.sum_le_sum fun i _ => ?_)
    refine (Finset.abs_sum_le_sum_abs _ _).trans (Finset.sum_le_sum fun j _ => ?_)
    rw [abs_mul, abs_mul]
    exact le_of_eq (by ring)
  refine h1.trans ?_
  rw [Finset.sum_mul]
  refine Finset.sum_le_sum fun i _ => ?_
  rw [Finset.sum_mul]
  refine Finset.sum_le_sum fun j _ => ?_
  gcongr
  refine (Finset.single_le_sum (f := fun j => |e i| * |f j|) (fun _ _ => by positivity)
    (Finset.mem_univ j)).trans ?_
  exact Finset.single_le_sum (f := fun i => ∑ j, |e i| * |f j|)
    (fun _ _ => Finset.sum_nonneg fun _ _ => by positivity) (Finset.mem_univ i)

/-- Waves whose vertical slowness stays away from that of a P wave of the background are nearly
orthogonal to it. -/
theorem cross_bound (b : Background M μ ρ p1 p2 q0 qS) {τ : ℝ} (hτ : τ = 1 ∨ τ = -1)
    {H : Set (X × Y)} (hH : IsClosed H)
    (hw : ∀ z ∈ H, IsWave z.1.1 z.1.2.1 (slow z.1 z.2) z.2.2 ∧ z.2.2 ⬝ᵥ z.2.2 = 1) {g : ℝ}
    (hg : 0 < g) (hgap : ∀ y, ((isoStiff M μ, ρ, p1, p2), y) ∈ H → g < |y.1 - τ * q0|) :
    ∃ K, 0 ≤ K ∧ ∀ᶠ x : X in 𝓝 (isoStiff M μ, ρ, p1, p2), ∀ y, (x, y) ∈ H →
      |cross x.1 (slow x y) y.2 (isoStiff M μ) (bgs (ρ / M) τ x) (√(M / ρ) • bgs (ρ / M) τ x)|
        ≤ K * gap M μ ρ x := by
  set x0 : X := (isoStiff M μ, ρ, p1, p2) with hx0
  set G : X × Y → ℝ := fun z => |z.2.2 ⬝ᵥ (√(M / ρ) • bgs (ρ / M) τ z.1)|
    + ∑ i, ∑ j, |waveStrain (bgs (ρ / M) τ z.1) (√(M / ρ) • bgs (ρ / M) τ z.1) i|
      * |waveStrain (slow z.1 z.2) z.2.2 j| with hG
  have cb : Continuous fun z : X × Y => bgs (ρ / M) τ z.1 :=
    (continuous_bgs _ _).comp continuous_fst
  have cb' : Continuous fun z : X × Y => √(M / ρ) • bgs (ρ / M) τ z.1 := (continuous_const_smul _).comp cb
  have c1 := continuous_strain cb cb'
  have c2 := continuous_strain continuous_slow (continuous_snd.snd : Continuous fun z : X × Y => z.2.2)
  have cG : Continuous G := by
    refine ((continuous_snd.snd.dotProduct cb').abs).add ?_
    refine continuous_finsetSum _ fun i _ => continuous_finsetSum _ fun j _ => ?_
    exact ((continuous_apply i).comp c1).abs.mul ((continuous_apply j).comp c2).abs
  have hK := (isCompact_Icc (a := -(√(2 * (|x0.2.1| + 1) / μ)))
    (b := √(2 * (|x0.2.1| + 1) / μ))).prod isCompact_unit
  obtain ⟨B, hB⟩ := hK.exists_bound_of_continuousOn (f := fun y : Y => G (x0, y))
    (cG.comp (continuous_const.prodMk continuous_id)).continuousOn
  have hbs := (bounded_slow b.hμ b.hM (x0 := x0) rfl).self_of_nhds
  have key := modes_limit b.hμ b.hM (x0 := x0) rfl hH
    (V := {z | G z < |B| + 1 ∧ g < |z.2.1 - τ * kz (ρ / M) z.1|})
    ((isOpen_lt cG continuous_const).inter (isOpen_lt continuous_const
      (continuous_snd.fst.sub (continuous_const.mul ((continuous_kz _).comp continuous_fst))).abs))
    hw (fun y hy => by
      refine ⟨?_, ?_⟩
      · have := hB y ⟨hbs y (hw _ hy).1 (hw _ hy).2, (hw _ hy).2⟩
        have h2 := (le_abs_self (G (x0, y))).trans this
        exact lt_of_le_of_lt (h2.trans (le_abs_self B)) (by linarith)
      · show g < |y.1 - τ * kz (ρ / M) x0|
        rw [hx0, b.kz_eq]; exact hgap y hy)
  refine ⟨(|B| + 1) / g, by positivity, ?_⟩
  filter_upwards [key, b.wave hτ] with x hx hbw y hy
  obtain ⟨k1, k2⟩ := hx y hy
  have r := reciprocity (C := x.1) (C' := isoStiff M μ) (ρ := x.2.1) (ρ' := ρ) (p1 := x.2.2.1)
    (p2 := x.2.2.2) (q := y.1) (q' := τ * kz (ρ / M) x) (u := y.2)
    (u' := √(M / ρ) • bgs (ρ / M) τ x) (iso_symm M μ) (hw _ hy).1 hbw
  have hN : 0 ≤ gap M μ ρ x := by
    unfold gap
    exact add_nonneg (abs_nonneg _) (Finset.sum_nonneg fun _ _ => Finset.sum_nonneg fun _ _ =>
      abs_nonneg _)
  have est : |(y.1 - τ * kz (ρ / M) x)
      * cross x.1 (slow x y) y.2 (isoStiff M μ) (bgs (ρ / M) τ x) (√(M / ρ) • bgs (ρ / M) τ x)|
      ≤ gap M μ ρ x * (|B| + 1) := by
    have e : (y.1 - τ * kz (ρ / M) x) * cross x.1 (slow x y) y.2 (isoStiff M μ)
        (bgs (ρ / M) τ x) (√(M / ρ) • bgs (ρ / M) τ x)
        = (x.2.1 - ρ) * (y.2 ⬝ᵥ (√(M / ρ) • bgs (ρ / M) τ x))
        - waveStrain (bgs (ρ / M) τ x) (√(M / ρ) • bgs (ρ / M) τ x)
          ⬝ᵥ ((x.1 - isoStiff M μ) *ᵥ waveStrain (slow x y) y.2) := r
    rw [e]
    have a1 := pairing_le (x.1 - isoStiff M μ)
      (waveStrain (bgs (ρ / M) τ x) (√(M / ρ) • bgs (ρ / M) τ x)) (waveStrain (slow x y) y.2)
    have a2 := abs_sub ((x.2.1 - ρ) * (y.2 ⬝ᵥ (√(M / ρ) • bgs (ρ / M) τ x)))
      (waveStrain (bgs (ρ / M) τ x) (√(M / ρ) • bgs (ρ / M) τ x)
          ⬝ᵥ ((x.1 - isoStiff M μ) *ᵥ waveStrain (slow x y) y.2))
    have a3 : G (x, y) = |y.2 ⬝ᵥ (√(M / ρ) • bgs (ρ / M) τ x)|
      + ∑ i, ∑ j, |waveStrain (bgs (ρ / M) τ x) (√(M / ρ) • bgs (ρ / M) τ x) i|
        * |waveStrain (slow x y) y.2 j| := rfl
    have k1' : G (x, y) < |B| + 1 := k1
    rw [a3] at k1'
    have e1 : ∑ i, ∑ j, |(x.1 - isoStiff M μ) i j| = ∑ i, ∑ j, |x.1 i j - isoStiff M μ i j| := rfl
    rw [e1] at a1
    rw [abs_mul (x.2.1 - ρ)] at a2
    unfold gap at hN ⊢
    have n1 : 0 ≤ ∑ i, ∑ j, |x.1 i j - isoStiff M μ i j| :=
      Finset.sum_nonneg fun _ _ => Finset.sum_nonneg fun _ _ => abs_nonneg _
    have n2 : 0 ≤ ∑ i, ∑ j, |waveStrain (bgs (ρ / M) τ x) (√(M / ρ) • bgs (ρ / M) τ x) i|
        * |waveStrain (slow x y) y.2 j| :=
      Finset.sum_nonneg fun _ _ => Finset.sum_nonneg fun _ _ => by positivity
    generalize ∑ i, ∑ j, |x.1 i j - isoStiff M μ i j| = D at *
    generalize (∑ i, ∑ j, |waveStrain (bgs (ρ / M) τ x) (√(M / ρ) • bgs (ρ / M) τ x) i|
        * |waveStrain (slow x y) y.2 j|) = F at *
    have n3 := abs_nonneg (y.2 ⬝ᵥ (√(M / ρ) • bgs (ρ / M) τ x))
    have n4 := abs_nonneg (x.2.1 - ρ)
    generalize |y.2 ⬝ᵥ (√(M / ρ) • bgs (ρ / M) τ x)| = W at *
    generalize |x.2.1 - ρ| = r at *
    refine a2.trans ((add_le_add_right a1 _).trans ?_)
    nlinarith [mul_nonneg n4 n2, mul_nonneg n1 n3]
  rw [abs_mul] at est
  rw [div_mul_eq_mul_div, le_div_iff₀ hg]
  have k2' : g < |y.1 - τ * kz (ρ / M) x| := k2
  nlinarith [abs_nonneg (cross x.1 (slow x y) y.2 (isoStiff M μ) (bgs (ρ / M) τ x)
    (√(M / ρ) • bgs (ρ / M) τ x))]

/-- A path of media through the background, with the horizontal slowness of the problem. -/
structure Path (M μ ρ p1 p2 : ℝ) (C : ℝ → Matrix (Fin 6) (Fin 6) ℝ) (r P1 P2 : ℝ → ℝ)
    (C' : Matrix (Fin 6) (Fin 6) ℝ) (r' : ℝ) : Prop where
  C0 : C 0 = isoStiff M μ
  r0 : r 0 = ρ
  dC : ∀ i j, HasDerivAt (fun t => C t i j) (C' i j) 0
  dr : HasDerivAt r r' 0
  tP1 : Tendsto P1 (𝓝 0) (𝓝 p1)
  tP2 : Tendsto P2 (𝓝 0) (𝓝 p2)
  symm : ∀ᶠ t in 𝓝 0, (C t).IsSymm

variable {C : ℝ → Matrix (Fin 6) (Fin 6) ℝ} {r P1 P2 : ℝ → ℝ} {C' : Matrix (Fin 6) (Fin 6) ℝ} {r' : ℝ}

theorem Path.tendsto (h : Path M μ ρ p1 p2 C r P1 P2 C' r') :
    Tendsto (fun t => (C t, r t, P1 t, P2 t)) (𝓝 0) (𝓝 (isoStiff M μ, ρ, p1, p2)) := by
  refine Tendsto.prodMk_nhds ?_ (Tendsto.prodMk_nhds ?_ (h.tP1.prodMk_nhds h.tP2))
  · refine tendsto_pi_nhds.mpr fun i => tendsto_pi_nhds.mpr fun j => ?_
    have := (h.dC i j).continuousAt.tendsto
    rw [h.C0] at this
    exact this
  · have := h.dr.continuousAt.tendsto
    rw [h.r0] at this
    exact this

theorem Path.gap_le (h : Path M μ ρ p1 p2 C r P1 P2 C' r') :
    ∃ K, 0 ≤ K ∧ ∀ᶠ t in 𝓝 0, gap M μ ρ (C t, r t, P1 t, P2 t) ≤ K * |t| := by
  have lip : ∀ {f : ℝ → ℝ} {f' : ℝ}, HasDerivAt f f' 0 →
      ∃ K, 0 ≤ K ∧ ∀ᶠ t in 𝓝 0, |f t - f 0| ≤ K * |t| := by
    intro f f' hf
    obtain ⟨K, hK, hb⟩ := (hf.differentiableAt.isBigO_sub).exists_nonneg
    refine ⟨K, hK, ?_⟩
    have := hb.bound
    filter_upwards [this] with t ht
    simpa [Real.norm_eq_abs] using ht
  obtain ⟨K0, hK0, b0⟩ := lip h.dr
  choose K hK bK using fun i j => lip (h.dC i j)
  refine ⟨K0 + ∑ i, ∑ j, K i j, add_nonneg hK0 (Finset.sum_nonneg fun i _ =>
    Finset.sum_nonneg fun j _ => hK i j), ?_⟩
  have all : ∀ᶠ t in 𝓝 0, ∀ i j, |C t i j - C 0 i j| ≤ K i j * |t| :=
    eventually_all.mpr fun i => eventually_all.mpr fun j => bK i j
  filter_upwards [b0, all] with t h0 ha
  rw [h.r0] at h0
  rw [h.C0] at ha
  unfold gap
  rw [add_mul, Finset.sum_mul]
  refine add_le_add h0 (Finset.sum_le_sum fun i _ => ?_)
  rw [Finset.sum_mul]
  exact Finset.sum_le_sum fun j _ => ha i j

/-- Reciprocity solved for the product with a P wave of the background. -/
theorem cross_eq {x : X} {y : Y} {τ : ℝ} (hy : IsWave x.1 x.2.1 (slow x y) y.2)
    (hb : IsWave (isoStiff M μ) ρ (bgs (ρ / M) τ x) (√(M / ρ) • bgs (ρ / M) τ x))
    (h3 : y.1 - τ * kz (ρ / M) x ≠ 0) :
    cross x.1 (slow x y) y.2 (isoStiff M μ) (bgs (ρ / M) τ x) (√(M / ρ) • bgs (ρ / M) τ x)
      = (x.2.1 - ρ) * ((y.2 ⬝ᵥ (√(M / ρ) • bgs (ρ / M) τ x)) / (y.1 - τ * kz (ρ / M) x))
        - ∑ i, ∑ j, (x.1 i j - isoStiff M μ i j)
          * (waveStrain (bgs (ρ / M) τ x) (√(M / ρ) • bgs (ρ / M) τ x) i
            * waveStrain (slow x y) y.2 j / (y.1 - τ * kz (ρ / M) x)) := by
  have r' : (y.1 - τ * kz (ρ / M) x) * cross x.1 (slow x y) y.2
      (isoStiff M μ) (bgs (ρ / M) τ x) (√(M / ρ) • bgs (ρ / M) τ x)
      = (x.2.1 - ρ) * (y.2 ⬝ᵥ (√(M / ρ) • bgs (ρ / M) τ x))
      - waveStrain (bgs (ρ / M) τ x) (√(M / ρ) • bgs (ρ / M) τ x)
        ⬝ᵥ ((x.1 - isoStiff M μ) *ᵥ waveStrain (slow x y) y.2) :=
    reciprocity (C := x.1) (C' := isoStiff M μ) (ρ := x.2.1) (ρ' := ρ) (p1 := x.2.2.1)
      (p2 := x.2.2.2) (q := y.1) (q' := τ * kz (ρ / M) x) (u := y.2)
      (u' := √(M / ρ) • bgs (ρ / M) τ x) (iso_symm M μ) hy hb
  generalize waveStrain (bgs (ρ / M) τ x) (√(M / ρ) • bgs (ρ / M) τ x) = e0 at *
  generalize waveStrain (slow x y) y.2 = e at *
  generalize y.1 - τ * kz (ρ / M) x = k at *
  have ex : e0 ⬝ᵥ ((x.1 - isoStiff M μ) *ᵥ e)
      = ∑ i, ∑ j, (x.1 i j - isoStiff M μ i j) * (e0 i * e j) := by
    simp only [dotProduct, mulVec, Finset.mul_sum]
    refine Finset.sum_congr rfl fun i _ => Finset.sum_congr rfl fun j _ => ?_
    rw [Matrix.sub_apply]; ring
  rw [ex] at r'
  have ex2 : (∑ i, ∑ j, (x.1 i j - isoStiff M μ i j) * (e0 i * e j / k))
      = (∑ i, ∑ j, (x.1 i j - isoStiff M μ i j) * (e0 i * e j)) / k := by
    simp only [Finset.sum_div, mul_div_assoc]
  rw [ex2, ← mul_div_assoc, ← sub_div, eq_div_iff h3, mul_comm]
  exact r'

theorem form_deriv (h : Path M μ ρ p1 p2 C r P1 P2 C' r') {w k : ℝ → ℝ} {e0 e : ℝ → Fin 6 → ℝ}
    {w0 k0 : ℝ} {a0 a : Fin 6 → ℝ} (hw : Tendsto w (𝓝 0) (𝓝 w0)) (hk : Tendsto k (𝓝 0) (𝓝 k0))
    (n0 : k0 ≠ 0) (he0 : Tendsto e0 (𝓝 0) (𝓝 a0)) (he : Tendsto e (𝓝 0) (𝓝 a)) :
    HasDerivAt (fun t => (r t - ρ) * (w t / k t)
        - ∑ i, ∑ j, (C t i j - isoStiff M μ i j) * (e0 t i * e t j / k t))
      ((r' * w0 - a0 ⬝ᵥ (C' *ᵥ a)) / k0) 0 := by
  have d1 := deriv_mul_zero (h.dr.sub_const ρ) (by rw [h.r0, sub_self]) (hw.div hk n0)
  have d2 := HasDerivAt.fun_sum (u := Finset.univ) fun i (_ : i ∈ Finset.univ) =>
    HasDerivAt.fun_sum (u := Finset.univ) fun j (_ : j ∈ Finset.univ) => deriv_mul_zero
      ((h.dC i j).sub_const (isoStiff M μ i j)) (by rw [h.C0, sub_self])
      ((((tendsto_pi_nhds.mp he0 i).mul (tendsto_pi_nhds.mp he j))).div hk n0)
  refine (d1.sub d2).congr_deriv ?_
  rw [sub_div]
  congr 1
  · rw [mul_div_assoc]
  · simp only [dotProduct, mulVec, Finset.mul_sum, Finset.sum_div]
    refine Finset.sum_congr rfl fun i _ => Finset.sum_congr rfl fun j _ => ?_
    ring

/-- Reciprocity product with a P wave of the background. -/
noncomputable def bgcross (M μ ρ τ : ℝ) (x : X) (y : Y) : ℝ :=
  cross x.1 (slow x y) y.2 (isoStiff M μ) (bgs (ρ / M) τ x) (√(M / ρ) • bgs (ρ / M) τ x)

theorem continuous_bgcross (M μ ρ τ : ℝ) : Continuous fun z : X × Y => bgcross M μ ρ τ z.1 z.2 := by
  have cb : Continuous fun z : X × Y => bgs (ρ / M) τ z.1 :=
    (continuous_bgs _ _).comp continuous_fst
  have cb' : Continuous fun z : X × Y => √(M / ρ) • bgs (ρ / M) τ z.1 :=
    (continuous_const_smul _).comp cb
  exact (continuous_snd.snd.dotProduct (continuous_traction continuous_const cb cb')).add
    (cb'.dotProduct (continuous_traction continuous_fst.fst continuous_slow continuous_snd.snd))

theorem Background.bgs_tendsto (b : Background M μ ρ p1 p2 q0 qS) {x : ℝ → X}
    (tx : Tendsto x (𝓝 0) (𝓝 (isoStiff M μ, ρ, p1, p2))) (τ : ℝ) :
    Tendsto (fun t => bgs (ρ / M) τ (x t)) (𝓝 0) (𝓝 ![p1, p2, τ * q0]) := by
  have k := ((continuous_bgs (ρ / M) τ).tendsto _).comp tx
  rw [bgs, b.kz_eq] at k
  exact k

theorem strain_tendsto {s u : ℝ → Fin 3 → ℝ} {s0 u0 : Fin 3 → ℝ} (hs : Tendsto s (𝓝 0) (𝓝 s0))
    (hu : Tendsto u (𝓝 0) (𝓝 u0)) :
    Tendsto (fun t => waveStrain (s t) (u t)) (𝓝 0) (𝓝 (waveStrain s0 u0)) := by
  have c : Continuous fun z : (Fin 3 → ℝ) × (Fin 3 → ℝ) => waveStrain z.1 z.2 :=
    continuous_strain continuous_fst continuous_snd
  have h := (c.tendsto (s0, u0)).comp (hs.prodMk_nhds hu)
  simpa only [Function.comp_def] using h

theorem dot_tendsto {s u : ℝ → Fin 3 → ℝ} {s0 u0 : Fin 3 → ℝ} (hs : Tendsto s (𝓝 0) (𝓝 s0))
    (hu : Tendsto u (𝓝 0) (𝓝 u0)) :
    Tendsto (fun t => s t ⬝ᵥ u t) (𝓝 0) (𝓝 (s0 ⬝ᵥ u0)) :=
  ((continuous_fst.dotProduct continuous_snd :
    Continuous fun z : (Fin 3 → ℝ) × (Fin 3 → ℝ) => z.1 ⬝ᵥ z.2).tendsto (s0, u0)).comp
      (hs.prodMk_nhds hu)

theorem slow_tendsto {x : ℝ → X} {y : ℝ → Y} {C0 : Matrix (Fin 6) (Fin 6) ℝ} {r0 q : ℝ}
    {u : Fin 3 → ℝ} (tx : Tendsto x (𝓝 0) (𝓝 (C0, r0, p1, p2)))
    (ty : Tendsto y (𝓝 0) (𝓝 (q, u))) :
    Tendsto (fun t => slow (x t) (y t)) (𝓝 0) (𝓝 ![p1, p2, q]) :=
  (continuous_slow.tendsto ((C0, r0, p1, p2), (q, u))).comp (tx.prodMk_nhds ty)

theorem Background.k_tendsto (b : Background M μ ρ p1 p2 q0 qS) {x : ℝ → X}
    (tx : Tendsto x (𝓝 0) (𝓝 (isoStiff M μ, ρ, p1, p2))) :
    Tendsto (fun t => kz (ρ / M) (x t)) (𝓝 0) (𝓝 q0) := by
  have k := ((continuous_kz (ρ / M)).tendsto _).comp tx
  rw [b.kz_eq] at k
  exact k

/-- First order of the reciprocity product of a down-going P wave with the up-going P wave of the
background. -/
theorem cross_deriv (b : Background M μ ρ p1 p2 q0 qS) (h : Path M μ ρ p1 p2 C r P1 P2 C' r')
    {x : ℝ → X} (hx : ∀ t, x t = (C t, r t, P1 t, P2 t))
    {y : ℝ → Y} (hy : ∀ᶠ t in 𝓝 0, (x t, y t) ∈ Pset 1) :
    bgcross M μ ρ (-1) (x 0) (y 0) = 0 ∧
    HasDerivAt (fun t => bgcross M μ ρ (-1) (x t) (y t))
      ((r' * ((√(M / ρ) • ![p1, p2, q0]) ⬝ᵥ (√(M / ρ) • ![p1, p2, -q0]))
        - waveStrain ![p1, p2, -q0] (√(M / ρ) • ![p1, p2, -q0])
          ⬝ᵥ (C' *ᵥ waveStrain ![p1, p2, q0] (√(M / ρ) • ![p1, p2, q0]))) / (2 * q0)) 0 := by
  have tx : Tendsto x (𝓝 0) (𝓝 (isoStiff M μ, ρ, p1, p2)) := by
    rw [funext hx]; exact h.tendsto
  have ty := P_tendsto b (Or.inl rfl) tx hy
  rw [one_mul] at ty
  have tk : Tendsto (fun t => (y t).1 - -1 * kz (ρ / M) (x t)) (𝓝 0) (𝓝 (2 * q0)) := by
    have k1 := (ty.fst_nhds).sub ((b.k_tendsto tx).const_mul (-1))
    rw [show q0 - -1 * q0 = 2 * q0 by ring] at k1
    exact k1
  have tb : Tendsto (fun t => bgs (ρ / M) (-1) (x t)) (𝓝 0) (𝓝 ![p1, p2, -q0]) := by
    have k := b.bgs_tendsto tx (-1)
    rw [neg_one_mul] at k
    exact k
  have tb' := tb.const_smul √(M / ρ)
  have tu : Tendsto (fun t => (y t).2) (𝓝 0) (𝓝 (√(M / ρ) • ![p1, p2, q0])) := ty.snd_nhds
  have te := strain_tendsto (slow_tendsto tx ty) tu
  have te0 := strain_tendsto tb tb'
  have n0 : 2 * q0 ≠ 0 := by have := b.hq; positivity
  have tw := dot_tendsto tu tb'
  have e1 : ∀ t, (x t).1 = C t := fun t => by rw [hx]
  have e2 : ∀ t, (x t).2.1 = r t := fun t => by rw [hx]
  have main := form_deriv h tw tk n0 te0 te
  have eqn : ∀ᶠ t in 𝓝 0, bgcross M μ ρ (-1) (x t) (y t)
      = (r t - ρ) * (((y t).2 ⬝ᵥ (√(M / ρ) • bgs (ρ / M) (-1) (x t)))
          / ((y t).1 - -1 * kz (ρ / M) (x t)))
        - ∑ i, ∑ j, (C t i j - isoStiff M μ i j)
          * (waveStrain (bgs (ρ / M) (-1) (x t)) (√(M / ρ) • bgs (ρ / M) (-1) (x t)) i
            * waveStrain (slow (x t) (y t)) (y t).2 j / ((y t).1 - -1 * kz (ρ / M) (x t))) := by
    filter_upwards [hy, tx.eventually (b.wave (Or.inr rfl)), tk.eventually_ne n0] with t h1 h2 h3
    rw [bgcross, cross_eq h1.1.1 h2 h3, e1, e2]
  refine ⟨?_, main.congr_of_eventuallyEq eqn⟩
  have := eqn.self_of_nhds
  rw [h.C0, h.r0] at this
  simp only [sub_self, zero_mul, Finset.sum_const_zero] at this
  exact this

theorem bgcross_smul (τ c q : ℝ) (x : X) (u : Fin 3 → ℝ) :
    bgcross M μ ρ τ x (q, c • u) = c * bgcross M μ ρ τ x (q, u) :=
  cross_smul x.1 c ![x.2.2.1, x.2.2.2, q] u _ _ _

/-- Shear waves are nearly orthogonal to the P waves of the background. -/
theorem S_cross (b : Background M μ ρ p1 p2 q0 qS) {σ τ : ℝ} (hσ : σ = 1 ∨ σ = -1)
    (hτ : τ = 1 ∨ τ = -1) :
    ∃ K, 0 ≤ K ∧ ∀ᶠ x : X in 𝓝 (isoStiff M μ, ρ, p1, p2), ∀ q u,
      IsS x.1 x.2.1 ![x.2.2.1, x.2.2.2, q] u → 0 ≤ σ * downFlux x.1 ![x.2.2.1, x.2.2.2, q] u →
      |bgcross M μ ρ τ x (q, u)| ≤ K * gap M μ ρ x * √(u ⬝ᵥ u) := by
  have hlt := b.lt
  obtain ⟨K, hK, key⟩ := cross_bound b hτ (isClosed_Sset σ) (fun z hz => hz.1)
    (g := (qS - q0) / 2) (by linarith) (fun y hy => by
      rw [(Sset_limit b hσ hy).1]
      have := b.hq
      rcases hσ with rfl | rfl <;> rcases hτ with rfl | rfl
      · rw [abs_of_pos (by linarith)]; linarith
      · rw [abs_of_pos (by linarith)]; linarith
      · rw [abs_of_neg (by linarith)]; linarith
      · rw [abs_of_neg (by linarith)]; linarith)
  refine ⟨K, hK, ?_⟩
  filter_upwards [key] with x hx q u h hf
  rcases (dot_self_nonneg u).eq_or_lt with h0 | hu
  · have e := dot_self_eq_zero h0.symm
    have z : bgcross M μ ρ τ x (q, u) = 0 := by
      have := bgcross_smul (M := M) (μ := μ) (ρ := ρ) τ 0 q x u
      rwa [zero_smul, zero_mul, ← e] at this
    rw [z, ← h0, Real.sqrt_zero, mul_zero, abs_zero]
  · have hn : 0 < √(u ⬝ᵥ u) := Real.sqrt_pos.mpr hu
    have k : |bgcross M μ ρ τ x (q, (√(u ⬝ᵥ u))⁻¹ • u)| ≤ K * gap M μ ρ x := hx _ (S_unit h hf hu)
    rw [bgcross_smul, abs_mul, abs_inv, abs_of_pos hn, inv_mul_le_iff₀ hn] at k
    linarith

/-- Waves of one medium with different vertical slownesses are orthogonal. -/
theorem orthogonal {C : Matrix (Fin 6) (Fin 6) ℝ} {ρ p1 p2 q q' : ℝ} {u u' : Fin 3 → ℝ}
    (hC : C.IsSymm) (h : IsWave C ρ ![p1, p2, q] u) (h' : IsWave C ρ ![p1, p2, q'] u')
    (hq : u = 0 ∨ u' = 0 ∨ q ≠ q') :
    u ⬝ᵥ traction C ![p1, p2, q'] u' + u' ⬝ᵥ traction C ![p1, p2, q] u = 0 := by
  have z : ∀ s, traction C s 0 = 0 := fun s => by simp [traction, waveStrain]
  rcases hq with rfl | rfl | hq
  · simp [z]
  · simp [z]
  · have r := reciprocity hC h h'
    rw [sub_self, sub_self, zero_mul, zero_mulVec, dotProduct_zero, sub_zero] at r
    exact (mul_eq_zero.mp r).resolve_left (sub_ne_zero.mpr hq)

/-- The energy arriving leaves. -/
theorem energy_balance {C₁ C₂ : Matrix (Fin 6) (Fin 6) ℝ} {ρ₁ ρ₂ p1 p2 R : ℝ} {w : Waves}
    (h : IsScattering C₁ ρ₁ C₂ ρ₂ p1 p2 R w) (s1 : C₁.IsSymm) (s2 : C₂.IsSymm)
    (n1 : w.qi ≠ w.qr) (n2 : w.us = 0 ∨ w.qi ≠ w.qs) (n3 : w.us' = 0 ∨ w.qi ≠ w.qs')
    (n4 : w.us = 0 ∨ w.qr ≠ w.qs) (n5 : w.us' = 0 ∨ w.qr ≠ w.qs')
    (n6 : w.ud = 0 ∨ w.qt ≠ w.qd) (n7 : w.ud' = 0 ∨ w.qt ≠ w.qd') :
    downFlux C₁ ![p1, p2, w.qi] w.ui + R ^ 2 * downFlux C₁ ![p1, p2, w.qr] w.ur
        + downFlux C₁ ![p1, p2, w.qs] w.us + downFlux C₁ ![p1, p2, w.qs'] w.us'
      = w.T ^ 2 * downFlux C₂ ![p1, p2, w.qt] w.ut + downFlux C₂ ![p1, p2, w.qd] w.ud
        + downFlux C₂ ![p1, p2, w.qd'] w.ud' := by
  have e : (w.ui + R • w.ur + w.us + w.us') ⬝ᵥ
      (traction C₁ ![p1, p2, w.qi] w.ui + R • traction C₁ ![p1, p2, w.qr] w.ur
        + traction C₁ ![p1, p2, w.qs] w.us + traction C₁ ![p1, p2, w.qs'] w.us')
      = (w.T • w.ut + w.ud + w.ud') ⬝ᵥ (w.T • traction C₂ ![p1, p2, w.qt] w.ut
        + traction C₂ ![p1, p2, w.qd] w.ud + traction C₂ ![p1, p2, w.qd'] w.ud') := by
    rw [h.displacement, h.tractions]
  have o1 := orthogonal s1 h.incident.wave h.reflected.wave (Or.inr (Or.inr n1))
  have o2 := orthogonal s1 h.incident.wave h.shear_up.wave (Or.inr n2)
  have o3 := orthogonal s1 h.incident.wave h.shear_up'.wave (Or.inr n3)
  have o4 := orthogonal s1 h.reflected.wave h.shear_up.wave (Or.inr n4)
  have o5 := orthogonal s1 h.reflected.wave h.shear_up'.wave (Or.inr n5)
  have o6 := orthogonal s1 h.shear_up.wave h.shear_up'.wave (Or.inr (Or.inr h.shear_up_ne))
  have o7 := orthogonal s2 h.transmitted.wave h.shear_down.wave (Or.inr n6)
  have o8 := orthogonal s2 h.transmitted.wave h.shear_down'.wave (Or.inr n7)
  have o9 := orthogonal s2 h.shear_down.wave h.shear_down'.wave (Or.inr (Or.inr h.shear_down_ne))
  simp only [add_dotProduct, dotProduct_add, smul_dotProduct, dotProduct_smul, smul_eq_mul] at e
  simp only [downFlux]
  linear_combination e - R * o1 - o2 - o3 - R * o4 - R * o5 - o6 + w.T * o7 + w.T * o8 + o9

/-- Reciprocity balance of the interface with a given wave of the background. -/
theorem cross_balance {C₁ C₂ : Matrix (Fin 6) (Fin 6) ℝ} {ρ₁ ρ₂ p1 p2 R : ℝ} {w : Waves}
    (h : IsScattering C₁ ρ₁ C₂ ρ₂ p1 p2 R w) (τ : ℝ) :
    bgcross M μ ρ τ (C₁, ρ₁, p1, p2) (w.qi, w.ui)
        + R * bgcross M μ ρ τ (C₁, ρ₁, p1, p2) (w.qr, w.ur)
        + bgcross M μ ρ τ (C₁, ρ₁, p1, p2) (w.qs, w.us)
        + bgcross M μ ρ τ (C₁, ρ₁, p1, p2) (w.qs', w.us')
      = w.T * bgcross M μ ρ τ (C₂, ρ₂, p1, p2) (w.qt, w.ut)
        + bgcross M μ ρ τ (C₂, ρ₂, p1, p2) (w.qd, w.ud)
        + bgcross M μ ρ τ (C₂, ρ₂, p1, p2) (w.qd', w.ud') := by
  have hb : bgs (ρ / M) τ (C₂, ρ₂, p1, p2) = bgs (ρ / M) τ (C₁, ρ₁, p1, p2) := rfl
  simp only [bgcross, cross, slow, hb]
  generalize traction (isoStiff M μ) (bgs (ρ / M) τ (C₁, ρ₁, p1, p2))
    (√(M / ρ) • bgs (ρ / M) τ (C₁, ρ₁, p1, p2)) = a
  generalize √(M / ρ) • bgs (ρ / M) τ (C₁, ρ₁, p1, p2) = c
  have e1 := congrArg (fun v => v ⬝ᵥ a) h.displacement
  have e2 := congrArg (fun v => c ⬝ᵥ v) h.tractions
  simp only [add_dotProduct, dotProduct_add, smul_dotProduct, dotProduct_smul, smul_eq_mul] at e1 e2
  linear_combination e1 + e2

end

end RockPhy.Scat
