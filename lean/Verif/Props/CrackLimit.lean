import Mathlib.Topology.Algebra.Field
import Mathlib.Topology.Order.LeftRightNhds
import Mathlib.Analysis.SpecialFunctions.Trigonometric.Inverse
import Verif.Lemmas.Hudson
import Verif.Props.Porous
import Verif.Props.Spheres

/-! # Property C83: penny shaped cracks as the limit of flat spheroids

The crack models `Dilute_crack` and `hudson` are compared with the limit of Eshelby's spheroid as
the aspect ratio goes to zero while the crack density stays fixed. -/

namespace RockPhy.Spec

open Filter Topology Matrix

/-- Stress components in Voigt order. -/
def stressVoigt (s : Strain) : Fin 6 → ℝ := ![s 0 0, s 1 1, s 2 2, s 1 2, s 0 2, s 0 1]

/-- Porosity of `n` ellipsoids with semi-axes `a`, `a`, `c` in the volume `V`. -/
noncomputable def crackPorosity (n a c V : ℝ) : ℝ := n * (4 / 3 * Real.pi * a * a * c) / V

/-- Crack density of `n` cracks of radius `a` in the volume `V`. -/
noncomputable def crackDensity (n a V : ℝ) : ℝ := n * a ^ 3 / V

end RockPhy.Spec

namespace RockPhy.EM

open Fl Spec Filter Topology Matrix

/-! ## Flat spheroids -/

theorem small_lt_one : ∀ᶠ a : ℝ in 𝓝[>] 0, 0 < a ∧ a < 1 :=
  Ioo_mem_nhdsGT one_pos

theorem tendsto_id0 : Tendsto (fun a : ℝ => a) (𝓝[>] 0) (𝓝 0) :=
  tendsto_id.mono_left nhdsWithin_le_nhds

theorem one_over {f : ℝ → ℝ} {x : ℝ} (h : Tendsto f (𝓝[>] 0) (𝓝 x)) (hx : x ≠ 0) :
    Tendsto (fun a => 1 / f a) (𝓝[>] 0) (𝓝 (1 / x)) :=
  (tendsto_const_nhds (x := (1 : ℝ))).div h hx

theorem tendsto_tau : Tendsto (fun a => shapeT a / a) (𝓝[>] 0) (𝓝 (Real.pi / 2)) := by
  have c : ContinuousAt (fun a : ℝ => (Real.arccos a - a * √(1 - a ^ 2)) / √(1 - a ^ 2) ^ 3) 0 := by
    refine ContinuousAt.div ?_ ?_ (by simp)
    · exact (Real.continuous_arccos.continuousAt).sub (by fun_prop)
    · fun_prop
  have l := c.tendsto.mono_left (nhdsWithin_le_nhds (s := Set.Ioi 0))
  have v : (Real.arccos 0 - 0 * √(1 - (0 : ℝ) ^ 2)) / √(1 - (0 : ℝ) ^ 2) ^ 3 = Real.pi / 2 := by
    simp
  rw [v] at l
  refine l.congr' ?_
  filter_upwards [small_lt_one] with a ha
  rw [shapeT_oblate ha.1 ha.2, mul_div_assoc, mul_div_cancel_left₀ _ ha.1.ne']

theorem tendsto_psi : Tendsto (fun a => shapeF a / a) (𝓝[>] 0) (𝓝 0) := by
  have l : Tendsto (fun a : ℝ => a * (3 * (a * (shapeT a / a)) - 2) / (1 - a ^ 2)) (𝓝[>] 0)
      (𝓝 (0 * (3 * (0 * (Real.pi / 2)) - 2) / (1 - 0 ^ 2))) := by
    refine Tendsto.div ?_ ?_ (by norm_num)
    · exact tendsto_id0.mul (((tendsto_id0.mul tendsto_tau).const_mul 3).sub_const 2)
    · exact (tendsto_id0.pow 2).const_sub 1
  simp only [zero_mul, zero_div] at l
  refine l.congr' ?_
  filter_upwards [small_lt_one] with a ha
  have : 1 - a ^ 2 ≠ 0 := by nlinarith
  have h0 := ha.1.ne'
  rw [shapeF_eq ha.1 ha.2.ne, mul_div_cancel₀ _ h0]
  field

/-- Any continuous function of the aspect ratio and the scaled shape numbers. -/
theorem tendsto_shape {Φ : ℝ → ℝ → ℝ → ℝ} (h : Continuous fun p : ℝ × ℝ × ℝ => Φ p.1 p.2.1 p.2.2) :
    Tendsto (fun a => Φ a (shapeT a / a) (shapeF a / a)) (𝓝[>] 0) (𝓝 (Φ 0 (Real.pi / 2) 0)) :=
  (h.tendsto (0, Real.pi / 2, 0)).comp (tendsto_id0.prodMk_nhds (tendsto_tau.prodMk_nhds tendsto_psi))

variable {K G k g R : ℝ}

/-- `a / F2` in the limit, for a filling of moduli `a k K`, `a g G`. -/
theorem tendsto_F2 (hR : 0 < R) (hR' : R < 3 / 4) (hk : 0 ≤ k) (hg : 0 ≤ g) :
    Tendsto (fun a => a / bF2 (a * g - 1) ((a * k - a * g) / 3) R (shapeT a) (shapeF a)) (𝓝[>] 0)
      (𝓝 (1 / (k * (1 - 4 * R / 3) + 4 * R / 3 * g + Real.pi * R * (1 - R)))) := by
  have pp := Real.pi_pos
  have l := tendsto_shape (Φ := fun a τ ψ => g - (3 / 2 * (ψ + τ) - R * (3 / 2 * ψ + 5 / 2 * τ))
    + a * g * (3 / 2 * (ψ + τ) - R * (3 / 2 * ψ + 5 / 2 * τ)) + (k - g) / 3 * (3 - 4 * R)
    + (a * g - 1) * (a * k - 1) * (3 / 2 - 2 * R) * (ψ + τ - R * (ψ - τ + 2 * a * τ ^ 2)))
    (by fun_prop)
  have v : g - (3 / 2 * (0 + Real.pi / 2) - R * (3 / 2 * 0 + 5 / 2 * (Real.pi / 2)))
    + 0 * g * (3 / 2 * (0 + Real.pi / 2) - R * (3 / 2 * 0 + 5 / 2 * (Real.pi / 2)))
    + (k - g) / 3 * (3 - 4 * R)
    + (0 * g - 1) * (0 * k - 1) * (3 / 2 - 2 * R)
      * (0 + Real.pi / 2 - R * (0 - Real.pi / 2 + 2 * 0 * (Real.pi / 2) ^ 2))
    = k * (1 - 4 * R / 3) + 4 * R / 3 * g + Real.pi * R * (1 - R) := by ring
  rw [v] at l
  have ne : k * (1 - 4 * R / 3) + 4 * R / 3 * g + Real.pi * R * (1 - R) ≠ 0 := by
    have h1 : 0 ≤ k * (1 - 4 * R / 3) := mul_nonneg hk (by linarith)
    have h2 : 0 < Real.pi * R * (1 - R) := mul_pos (by positivity) (by linarith)
    have h3 : 0 ≤ 4 * R / 3 * g := by positivity
    linarith
  refine (one_over l ne).congr' ?_
  filter_upwards [small_lt_one] with a ha
  have h0 := ha.1.ne'
  have e : bF2 (a * g - 1) ((a * k - a * g) / 3) R (shapeT a) (shapeF a)
      = a * (g - (3 / 2 * (shapeF a / a + shapeT a / a)
        - R * (3 / 2 * (shapeF a / a) + 5 / 2 * (shapeT a / a)))
    + a * g * (3 / 2 * (shapeF a / a + shapeT a / a)
        - R * (3 / 2 * (shapeF a / a) + 5 / 2 * (shapeT a / a))) + (k - g) / 3 * (3 - 4 * R)
    + (a * g - 1) * (a * k - 1) * (3 / 2 - 2 * R)
      * (shapeF a / a + shapeT a / a
        - R * (shapeF a / a - shapeT a / a + 2 * a * (shapeT a / a) ^ 2))) := by
    unfold bF2
    field
  rw [e, div_mul_eq_div_div, div_self h0]

/-- `a / F3` in the limit. -/
theorem tendsto_F3 (hR' : R < 3 / 4) (hg : 0 ≤ g) :
    Tendsto (fun a => a / bF3 (a * g - 1) R (shapeT a) (shapeF a)) (𝓝[>] 0)
      (𝓝 (1 / (g + Real.pi / 4 * (3 - 2 * R)))) := by
  have pp := Real.pi_pos
  have l := tendsto_shape (Φ := fun a τ ψ => g - (-ψ - 3 / 2 * τ + R * (ψ + τ))
    + a * g * (-ψ - 3 / 2 * τ + R * (ψ + τ))) (by fun_prop)
  have v : g - (-0 - 3 / 2 * (Real.pi / 2) + R * (0 + Real.pi / 2))
    + 0 * g * (-0 - 3 / 2 * (Real.pi / 2) + R * (0 + Real.pi / 2))
    = g + Real.pi / 4 * (3 - 2 * R) := by ring
  rw [v] at l
  have ne : g + Real.pi / 4 * (3 - 2 * R) ≠ 0 := by
    have h2 : 0 < Real.pi / 4 * (3 - 2 * R) := mul_pos (by positivity) (by linarith)
    linarith
  refine (one_over l ne).congr' ?_
  filter_upwards [small_lt_one] with a ha
  have h0 := ha.1.ne'
  have e : bF3 (a * g - 1) R (shapeT a) (shapeF a)
      = a * (g - (-(shapeF a / a) - 3 / 2 * (shapeT a / a) + R * (shapeF a / a + shapeT a / a))
    + a * g * (-(shapeF a / a) - 3 / 2 * (shapeT a / a) + R * (shapeF a / a + shapeT a / a))) := by
    unfold bF3
    field
  rw [e, div_mul_eq_div_div, div_self h0]

theorem tendsto_T : Tendsto shapeT (𝓝[>] 0) (𝓝 0) := by
  have l := tendsto_shape (Φ := fun a τ _ => a * τ) (by fun_prop)
  simp only [zero_mul] at l
  refine l.congr' ?_
  filter_upwards [small_lt_one] with a ha
  rw [mul_div_cancel₀ _ ha.1.ne']

theorem tendsto_F : Tendsto shapeF (𝓝[>] 0) (𝓝 0) := by
  have l := tendsto_shape (Φ := fun a _ ψ => a * ψ) (by fun_prop)
  simp only [zero_mul] at l
  refine l.congr' ?_
  filter_upwards [small_lt_one] with a ha
  rw [mul_div_cancel₀ _ ha.1.ne']

/-- Any continuous function of the aspect ratio and the shape numbers themselves. -/
theorem tendsto_shape0 {Φ : ℝ → ℝ → ℝ → ℝ} (h : Continuous fun p : ℝ × ℝ × ℝ => Φ p.1 p.2.1 p.2.2) :
    Tendsto (fun a => Φ a (shapeT a) (shapeF a)) (𝓝[>] 0) (𝓝 (Φ 0 0 0)) :=
  (h.tendsto (0, 0, 0)).comp (tendsto_id0.prodMk_nhds (tendsto_T.prodMk_nhds tendsto_F))

theorem tendsto_F4 : Tendsto (fun a => a / bF4 (a * g - 1) R (shapeT a) (shapeF a)) (𝓝[>] 0)
    (𝓝 0) := by
  have l := tendsto_shape0 (Φ := fun a t f => bF4 (a * g - 1) R t f) (by unfold bF4; fun_prop)
  have v : bF4 (0 * g - 1) R 0 0 = 1 := by unfold bF4; ring
  simp only [v] at l
  have := tendsto_id0.div l one_ne_zero
  rwa [zero_div] at this

/-- Strains in flat spheroids, scaled by the aspect ratio: only the opening and the sliding of the
crack faces remain. -/
theorem thin_strain (hK : 0 < K) (hG : 0 < G) (hk : 0 ≤ k) (hg : 0 ≤ g) {e0 : Strain}
    (h0 : e0.IsSymm) {e : ℝ → Strain}
    (he : ∀ a, 0 < a → a ≤ 1 → IsInclusionStrain K G (a * k) (a * g) (spheroid a) e0 (e a)) :
    let R := G / (K + 4 / 3 * G)
    let Φ2 := k / K * (1 - 4 * R / 3) + 4 * R / 3 * (g / G) + Real.pi * R * (1 - R)
    let Φ3 := g / G + Real.pi / 4 * (3 - 2 * R)
    Tendsto (fun a => a * e a 0 1) (𝓝[>] 0) (𝓝 0) ∧
    Tendsto (fun a => a * e a 0 2) (𝓝[>] 0) (𝓝 (e0 0 2 * (1 / Φ3))) ∧
    Tendsto (fun a => a * e a 1 2) (𝓝[>] 0) (𝓝 (e0 1 2 * (1 / Φ3))) ∧
    Tendsto (fun a => a * e a 0 0) (𝓝[>] 0) (𝓝 0) ∧
    Tendsto (fun a => a * e a 1 1) (𝓝[>] 0) (𝓝 0) ∧
    Tendsto (fun a => a * e a 2 2) (𝓝[>] 0)
      (𝓝 ((e0 2 2 + (1 - 2 * R) * (e0 0 0 + e0 1 1)) * (1 / Φ2))) := by
  intro R Φ2 Φ3
  obtain ⟨-, -, rR, rR'⟩ := berryman_ranges hK hG hk hg
  have hk' : 0 ≤ k / K := by positivity
  have hg' : 0 ≤ g / G := by positivity
  have l2 := tendsto_F2 rR rR' hk' hg'
  have l3 := tendsto_F3 rR' hg'
  have l4 := tendsto_F4 (g := g / G) (R := R)
  have sol := fun a (ha : 0 < a ∧ a < 1) =>
    (inclusion_solution hK hG (mul_nonneg ha.1.le hk) (mul_nonneg ha.1.le hg) ha.1 ha.2.le h0).2
      (e a) (he a ha.1 ha.2.le)
  simp only [mul_div_assoc] at sol
  change ∀ a, _ → _ at sol
  have c01 : Tendsto (fun a => a * e a 0 1) (𝓝[>] 0) (𝓝 0) := by
    have l := l4.const_mul (e0 0 1)
    rw [mul_zero] at l
    refine l.congr' ?_
    filter_upwards [small_lt_one] with a ha
    obtain ⟨-, h, -⟩ := sol a ha
    rw [h]; ring
  have c02 : Tendsto (fun a => a * e a 0 2) (𝓝[>] 0) (𝓝 (e0 0 2 * (1 / Φ3))) := by
    refine (l3.const_mul (e0 0 2)).congr' ?_
    filter_upwards [small_lt_one] with a ha
    obtain ⟨-, -, h, -⟩ := sol a ha
    rw [h]; ring
  have c12 : Tendsto (fun a => a * e a 1 2) (𝓝[>] 0) (𝓝 (e0 1 2 * (1 / Φ3))) := by
    refine (l3.const_mul (e0 1 2)).congr' ?_
    filter_upwards [small_lt_one] with a ha
    obtain ⟨-, -, -, h, -⟩ := sol a ha
    rw [h]; ring
  have cd : Tendsto (fun a => a * e a 0 0 - a * e a 1 1) (𝓝[>] 0) (𝓝 0) := by
    have l := l4.const_mul (e0 0 0 - e0 1 1)
    rw [mul_zero] at l
    refine l.congr' ?_
    filter_upwards [small_lt_one] with a ha
    obtain ⟨-, -, -, -, h, -⟩ := sol a ha
    rw [← mul_sub, h]; ring
  have cs : Tendsto (fun a => a * e a 0 0 + a * e a 1 1) (𝓝[>] 0) (𝓝 0) := by
    have n := tendsto_shape0 (Φ := fun a t f =>
      ((1 + ((1 - R) * (1 + f) + R * (1 - t)) * (a * (g / G) - 1)
        + (2 * ((1 - R) * (2 - 3 * t - f) / 2 - R * (1 - t)) + ((1 - R) * (1 + f) + R * (1 - t)))
          * ((a * (k / K) - a * (g / G)) / 3)) * (e0 0 0 + e0 1 1)
        - 2 * ((1 - R) * (1 - (2 - 3 * t - f) / 2) * ((a * (k / K) - a * (g / G)) / 3)
          + (-((1 - R) * f / 2) - R * t / 2)
            * (a * (g / G) - 1 + (a * (k / K) - a * (g / G)) / 3)) * e0 2 2)) (by fun_prop)
    have l := n.mul l2
    have z : ((1 + ((1 - R) * (1 + 0) + R * (1 - 0)) * (0 * (g / G) - 1)
        + (2 * ((1 - R) * (2 - 3 * 0 - 0) / 2 - R * (1 - 0)) + ((1 - R) * (1 + 0) + R * (1 - 0)))
          * ((0 * (k / K) - 0 * (g / G)) / 3)) * (e0 0 0 + e0 1 1)
        - 2 * ((1 - R) * (1 - (2 - 3 * 0 - 0) / 2) * ((0 * (k / K) - 0 * (g / G)) / 3)
          + (-((1 - R) * 0 / 2) - R * 0 / 2)
            * (0 * (g / G) - 1 + (0 * (k / K) - 0 * (g / G)) / 3)) * e0 2 2) = 0 := by ring
    rw [z, zero_mul] at l
    refine l.congr' ?_
    filter_upwards [small_lt_one] with a ha
    obtain ⟨-, -, -, -, -, h, -⟩ := sol a ha
    rw [← mul_add, h]; ring
  have cw : Tendsto (fun a => a * e a 2 2) (𝓝[>] 0)
      (𝓝 ((e0 2 2 + (1 - 2 * R) * (e0 0 0 + e0 1 1)) * (1 / Φ2))) := by
    have n := tendsto_shape0 (Φ := fun a t f =>
      ((1 + (1 - R) * (1 - (2 - 3 * t - f) / 2) * (a * (g / G) - 1)
        + 2 * ((1 - R) * (1 - (2 - 3 * t - f) / 2) + (-((1 - R) * f / 2) - R * t / 2))
          * ((a * (k / K) - a * (g / G)) / 3)) * e0 2 2
        - (((1 - R) * (2 - 3 * t - f) / 2 - R * (1 - t)) * (a * (g / G) - 1)
          + (2 * ((1 - R) * (2 - 3 * t - f) / 2 - R * (1 - t)) + ((1 - R) * (1 + f) + R * (1 - t)))
            * ((a * (k / K) - a * (g / G)) / 3)) * (e0 0 0 + e0 1 1))) (by fun_prop)
    have l := n.mul l2
    have z : ((1 + (1 - R) * (1 - (2 - 3 * 0 - 0) / 2) * (0 * (g / G) - 1)
        + 2 * ((1 - R) * (1 - (2 - 3 * 0 - 0) / 2) + (-((1 - R) * 0 / 2) - R * 0 / 2))
          * ((0 * (k / K) - 0 * (g / G)) / 3)) * e0 2 2
        - (((1 - R) * (2 - 3 * 0 - 0) / 2 - R * (1 - 0)) * (0 * (g / G) - 1)
          + (2 * ((1 - R) * (2 - 3 * 0 - 0) / 2 - R * (1 - 0)) + ((1 - R) * (1 + 0) + R * (1 - 0)))
            * ((0 * (k / K) - 0 * (g / G)) / 3)) * (e0 0 0 + e0 1 1))
        = e0 2 2 + (1 - 2 * R) * (e0 0 0 + e0 1 1) := by ring
    rw [z] at l
    refine l.congr' ?_
    filter_upwards [small_lt_one] with a ha
    obtain ⟨-, -, -, -, -, -, h⟩ := sol a ha
    rw [h]; ring
  refine ⟨c01, c02, c12, ?_, ?_, cw⟩
  · have := (cs.add cd).div_const 2
    simp only [add_zero, zero_div] at this
    refine this.congr fun a => ?_
    ring
  · have := (cs.sub cd).div_const 2
    simp only [sub_zero, zero_div] at this
    refine this.congr fun a => ?_
    ring

end RockPhy.EM

namespace RockPhy.Props

open Fl EM Spec Filter Topology Matrix

/-- `crack_por` is the porosity of penny shaped cracks of given density and aspect ratio. -/
theorem C83_crack_por (n a c V : ℝ) (ha : 0 < a) :
    utils.crack_por (fin (crackDensity n a V)) (fin (c / a)) = fin (crackPorosity n a c V) := by
  rw [utils.crack_por_eval]
  unfold crackDensity crackPorosity
  refine congrArg fin ?_
  field

example : crackPorosity 1000 0.1 0.001 10 = 4 / 3 * Real.pi * 0.001 := by
  unfold crackPorosity; ring

/-- Factor by which a fluid of stiffness `k` (modulus over aspect ratio) reduces the opening. -/
noncomputable def crackD (ν k K : ℝ) : ℝ :=
  1 / (1 + 4 / (3 * Real.pi) * ((1 - ν ^ 2) / (1 - 2 * ν)) * (k / K))

/-- Strain concentration of flat spheroids filled with a fluid, times their porosity. -/
theorem crack_factors (K G k crd : ℝ) (hK : 0 < K) (hG : 0 < G) (hk : 0 ≤ k) (P Q : ℝ → ℝ)
    (h : ∀ a, 0 < a → a ≤ 1 → IsConcentration K G (a * k) 0 (spheroid a) (P a) (Q a)) :
    let ν := nuOf K G
    Tendsto (fun a => crackPorosity crd 1 a 1 * P a) (𝓝[>] 0)
      (𝓝 (16 / 9 * (1 - ν ^ 2) / (1 - 2 * ν) * crd * crackD ν k K)) ∧
    Tendsto (fun a => crackPorosity crd 1 a 1 * Q a) (𝓝[>] 0)
      (𝓝 (32 / 45 * (1 - ν) * (crackD ν k K + 3 / (2 - ν)) * crd)) := by
  intro ν
  have pp := Real.pi_pos
  obtain ⟨n1, n2⟩ := nuOf_facts hK hG
  change -1 < ν at n1
  change ν < 1 / 2 at n2
  have d1 : 0 < 1 - 2 * ν := by linarith
  have d1' : 0 < 1 - ν * 2 := by linarith
  have d2 : 0 < 2 - ν := by linarith
  have d3 : 0 < 1 - ν := by linarith
  have d4 : 0 < 1 + ν := by linarith
  obtain ⟨-, -, rR, rR'⟩ := berryman_ranges hK hG (le_refl (0 : ℝ)) (le_refl (0 : ℝ))
  have eR : G / (K + 4 / 3 * G) = (1 - 2 * ν) / (2 * (1 - ν)) := by
    rw [div_eq_div_iff (by positivity) (by positivity)]
    change _ = (1 - 2 * nuOf K G) * _
    change G * (2 * (1 - nuOf K G)) = _
    unfold nuOf
    field
  have hk' : 0 ≤ k / K := by positivity
  have l2 := tendsto_F2 (k := k / K) (g := 0) rR rR' hk' le_rfl
  have l3 := tendsto_F3 (g := 0) rR' le_rfl
  have l4 := tendsto_F4 (g := 0) (R := G / (K + 4 / 3 * G))
  simp only [mul_zero, sub_zero, zero_sub, zero_add, add_zero] at l2 l3 l4
  have ev : ∀ a, 0 < a ∧ a < 1 → P a
        = bF1 (-1) (G / (K + 4 / 3 * G)) (shapeT a) (shapeF a)
          / bF2 (-1) (a * (k / K) / 3) (G / (K + 4 / 3 * G)) (shapeT a) (shapeF a) ∧
      Q a = (2 / bF3 (-1) (G / (K + 4 / 3 * G)) (shapeT a) (shapeF a)
        + 2 / bF4 (-1) (G / (K + 4 / 3 * G)) (shapeT a) (shapeF a)
        + (4 * (G / (K + 4 / 3 * G)) + (3 - 4 * (G / (K + 4 / 3 * G))) * (a * (k / K))) / 3
          / bF2 (-1) (a * (k / K) / 3) (G / (K + 4 / 3 * G)) (shapeT a) (shapeF a)) / 5 := by
    intro a ha
    obtain ⟨rA, rB, -, -⟩ := berryman_ranges hK hG (mul_nonneg ha.1.le hk) (le_refl (0 : ℝ))
    obtain ⟨b1, b2, b3, b4⟩ := shape_bounds ha.1 ha.2.le
    have p2 := bF2_pos rA rB rR rR' b1 b2 b3 b4
    have p3 := bF3_pos rA rR rR' b2 b3 b4
    have p4 := bF4_pos rA rR rR' b1 b2 b3 b4
    obtain ⟨u1, u2⟩ := (h a ha.1 ha.2.le).unique
      (berryman_concentration hK hG ha.1 p2.ne' p3.ne' p4.ne')
    rw [bQ_eq p2.ne' p4.ne'] at u2
    rw [u1, u2]
    simp only [zero_div, sub_zero, zero_sub, bP, mul_div_assoc]
    refine ⟨trivial, ?_⟩
    congr 3
    ring
  have pD : 0 < 1 + 4 / (3 * Real.pi) * ((1 - ν ^ 2) / (1 - 2 * ν)) * (k / K) := by
    have : 0 < 1 - ν ^ 2 := by nlinarith
    positivity
  have e1 : 1 - (1 - 2 * ν) / (2 * (1 - ν)) = 1 / (2 * (1 - ν)) := by field
  have e2 : 3 - 2 * ((1 - 2 * ν) / (2 * (1 - ν))) = (2 - ν) / (1 - ν) := by field
  have e3 : 1 - 4 * ((1 - 2 * ν) / (2 * (1 - ν))) / 3 = (1 + ν) / (3 * (1 - ν)) := by field
  rw [eR] at l2 l3 l4 ev
  rw [e1, e3] at l2
  rw [e2] at l3
  have e4 : k / K * ((1 + ν) / (3 * (1 - ν)))
      + Real.pi * ((1 - 2 * ν) / (2 * (1 - ν))) * (1 / (2 * (1 - ν)))
      = Real.pi * (1 - 2 * ν) / (4 * (1 - ν) ^ 2)
        * (1 + 4 / (3 * Real.pi) * ((1 - ν ^ 2) / (1 - 2 * ν)) * (k / K)) := by
    field
  rw [e4] at l2
  unfold crackD
  generalize 1 + 4 / (3 * Real.pi) * ((1 - ν ^ 2) / (1 - 2 * ν)) * (k / K) = q at *
  generalize hR : (1 - 2 * ν) / (2 * (1 - ν)) = R at *
  constructor
  · have n := tendsto_shape0 (Φ := fun _ t f => bF1 (-1) R t f) (by unfold bF1; fun_prop)
    have z : bF1 (-1) R 0 0 = (1 + ν) / (3 * (1 - ν)) := by rw [← e3]; unfold bF1; ring
    rw [z] at n
    have l := (n.mul l2).const_mul (4 / 3 * Real.pi * crd)
    have v : 4 / 3 * Real.pi * crd * ((1 + ν) / (3 * (1 - ν))
          * (1 / (Real.pi * (1 - 2 * ν) / (4 * (1 - ν) ^ 2) * q)))
        = 16 / 9 * (1 - ν ^ 2) / (1 - 2 * ν) * crd * (1 / q) := by
      field
    rw [v] at l
    refine l.congr' ?_
    filter_upwards [small_lt_one] with a ha
    rw [(ev a ha).1]
    unfold crackPorosity
    ring
  · have n := tendsto_shape0 (Φ := fun a _ _ => (4 * R + (3 - 4 * R) * (a * (k / K))) / 3)
      (by fun_prop)
    simp only [zero_mul, mul_zero, add_zero] at n
    have l := (((l3.const_mul 2).add (l4.const_mul 2)).add
      (n.mul l2)).const_mul (4 / 15 * Real.pi * crd)
    have v : 4 / 15 * Real.pi * crd * (2 * (1 / (Real.pi / 4 * ((2 - ν) / (1 - ν)))) + 2 * 0
          + 4 * R / 3 * (1 / (Real.pi * (1 - 2 * ν) / (4 * (1 - ν) ^ 2) * q)))
        = 32 / 45 * (1 - ν) * (1 / q + 3 / (2 - ν)) * crd := by
      rw [← hR]
      field
    rw [v] at l
    refine l.congr' ?_
    filter_upwards [small_lt_one] with a ha
    rw [(ev a ha).2]
    unfold crackPorosity
    ring

/-- `Dilute_crack` is the limit of flat empty spheroids of random orientation: their number is
kept and their aspect ratio goes to zero. -/
theorem C83_Dilute_crack (K G crd : ℝ) (hK : 0 < K) (hG : 0 < G) (hc : 0 ≤ crd) (P Q : ℝ → ℝ)
    (h : ∀ a, 0 < a → a ≤ 1 → IsConcentration K G 0 0 (spheroid a) (P a) (Q a)) :
    ∃ K' G' : ℝ, Dilute_crack (fin K) (fin G) (fin crd) = (fin K', fin G') ∧
      Tendsto (fun a => 1 / (1 / K + crackPorosity crd 1 a 1 * P a / K)) (𝓝[>] 0) (𝓝 K') ∧
      Tendsto (fun a => 1 / (1 / G + crackPorosity crd 1 a 1 * Q a / G)) (𝓝[>] 0) (𝓝 G') := by
  obtain ⟨n1, n2⟩ := nuOf_facts hK hG
  obtain ⟨l1, l2⟩ := crack_factors K G 0 crd hK hG le_rfl P Q (by simpa using h)
  have eD : crackD (nuOf K G) 0 K = 1 := by unfold crackD; simp
  rw [eD] at l1 l2
  set ν := nuOf K G with hν
  have d1 : 0 < 1 - 2 * ν := by linarith
  have d2 : 0 < 2 - ν := by linarith
  have d3 : 0 < 1 - ν := by linarith
  have d5 : 0 < 5 - ν := by linarith
  have q1 : 0 ≤ 16 / 9 * (1 - ν ^ 2) / (1 - 2 * ν) * crd := by
    have : 0 < 1 - ν ^ 2 := by nlinarith
    positivity
  have q2 : 0 ≤ 32 * (1 - ν) * (5 - ν) / (45 * (2 - ν)) * crd := by positivity
  refine ⟨_, _, Dilute_crack_eval hK hG (by linarith) (by linarith), ?_, ?_⟩
  · have l := one_over ((l1.div_const K).const_add (1 / K)) (by positivity)
    have v : 1 / (1 / K + 16 / 9 * (1 - ν ^ 2) / (1 - 2 * ν) * crd * 1 / K)
        = K / (1 + 16 / 9 * (1 - ν ^ 2) / (1 - 2 * ν) * crd) := by
      rw [mul_one, ← add_div, one_div_div]
    rw [v] at l
    exact l
  · have e : 32 / 45 * (1 - ν) * (1 + 3 / (2 - ν)) * crd
        = 32 * (1 - ν) * (5 - ν) / (45 * (2 - ν)) * crd := by field
    rw [e] at l2
    have l := one_over ((l2.div_const G).const_add (1 / G)) (by positivity)
    have v : 1 / (1 / G + 32 * (1 - ν) * (5 - ν) / (45 * (2 - ν)) * crd / G)
        = G / (1 + 32 * (1 - ν) * (5 - ν) / (45 * (2 - ν)) * crd) := by
      rw [← add_div, one_div_div]
    rw [v] at l
    exact l

/-- The concentrations required above exist for every aspect ratio. -/
example : ∃ P Q : ℝ → ℝ, ∀ a, 0 < a → a ≤ 1 → IsConcentration 37 44 0 0 (spheroid a) (P a) (Q a) := by
  have : ∀ a : ℝ, ∃ PQ : ℝ × ℝ, 0 < a → a ≤ 1 →
      IsConcentration 37 44 0 0 (spheroid a) PQ.1 PQ.2 := by
    intro a
    by_cases h : 0 < a ∧ a ≤ 1
    · obtain ⟨P, Q, -, -, -, c⟩ := C79_oblate 37 44 0 0 a (by norm_num) (by norm_num) le_rfl le_rfl
        h.1 h.2
      exact ⟨(P, Q), fun _ _ => c⟩
    · exact ⟨0, fun h1 h2 => absurd ⟨h1, h2⟩ h⟩
  choose f hf using this
  exact ⟨fun a => (f a).1, fun a => (f a).2, hf⟩

/-- `hudson` to first order against the limit of aligned flat spheroids whose filling has moduli
proportional to the aspect ratio (`a k`, `a g`), so that the stiffness of the crack against
opening and sliding is kept.  All constants are those of the limit except `C44`, which is right
only for cracks without a shear modulus: the code has `lambda+G` where the limit has
`lambda+2G`. -/
theorem C83_hudson (K G k g crd : ℝ) (hK : 0 < K) (hG : 0 < G) (hk : 0 ≤ k) (hg : 0 ≤ g) :
    ∃ C11 C33 C13 C44 X44 : ℝ,
      (∀ a, 0 < a → hudson (fin K) (fin G) (fin (a * k)) (fin (a * g)) (fin a) (fin crd) 1 3
        = .ok ((vtiMatrix C11 C33 C13 C44 G).map fin)) ∧
      (∀ e0 : Strain, e0.IsSymm →
        (∀ a, 0 < a → a ≤ 1 → ∃ s, IsDiluteStress K G (a * k) (a * g) (spheroid a)
          (crackPorosity crd 1 a 1) e0 s) ∧
        ∀ s : ℝ → Strain, (∀ a, 0 < a → a ≤ 1 →
          IsDiluteStress K G (a * k) (a * g) (spheroid a) (crackPorosity crd 1 a 1) e0 (s a)) →
          Tendsto (fun a => stressVoigt (s a)) (𝓝[>] 0)
            (𝓝 (vtiMatrix C11 C33 C13 X44 G *ᵥ voigt e0))) ∧
      (X44 = C44 ↔ g = 0 ∨ crd = 0) := by
  have pp := Real.pi_pos
  have p1 := lam_pos1 hK hG
  have p2 := lam_pos2 hK hG
  have p3 := lam_pos34 hK hG
  have p2' : 0 < lam K G + G * 2 := by linarith
  have p3' : 0 < 3 * lam K G + G * 4 := by linarith
  obtain ⟨-, -, rR, rR'⟩ := berryman_ranges hK hG hk hg
  have eR : G / (K + 4 / 3 * G) = G / (lam K G + 2 * G) := by
    congr 1; unfold lam; ring
  set R := G / (K + 4 / 3 * G) with hR
  have hΦ2 : k / K * (1 - 4 * R / 3) + 4 * R / 3 * (g / G) + Real.pi * R * (1 - R)
      = Real.pi * G * (lam K G + G) / (lam K G + 2 * G) ^ 2
        * (1 + (k + 4 * g / 3) * (lam K G + 2 * G) / (Real.pi * G * (lam K G + G))) := by
    have e1 : 1 - 4 * R / 3 = K / (lam K G + 2 * G) := by
      have : K = lam K G + 2 * G - 4 * G / 3 := by unfold lam; ring
      rw [eR, eq_div_iff p2.ne']
      refine Eq.trans ?_ this.symm
      field
    have e2 : 1 - R = (lam K G + G) / (lam K G + 2 * G) := by rw [eR]; field
    rw [e1, e2, eR]
    field
  have hΦ3 : g / G + Real.pi / 4 * (3 - 2 * R) = Real.pi * (3 * lam K G + 4 * G)
      / (4 * (lam K G + 2 * G))
        * (1 + 4 * g * (lam K G + 2 * G) / (Real.pi * G * (3 * lam K G + 4 * G))) := by
    have e2 : 3 - 2 * R = (3 * lam K G + 4 * G) / (lam K G + 2 * G) := by rw [eR]; field
    rw [e2]
    field
  set Φ2 := k / K * (1 - 4 * R / 3) + 4 * R / 3 * (g / G) + Real.pi * R * (1 - R) with dΦ2
  set Φ3 := g / G + Real.pi / 4 * (3 - 2 * R) with dΦ3
  have hU3 : ∀ a, 0 < a → rU3 K G (a * k) (a * g) a
      = 4 / 3 * Real.pi * G / (lam K G + 2 * G) / Φ2 := by
    intro a ha
    rw [hΦ2]
    unfold rU3
    have : (a * k + 4 * (a * g) / 3) * (lam K G + 2 * G) / (Real.pi * a * G * (lam K G + G))
        = (k + 4 * g / 3) * (lam K G + 2 * G) / (Real.pi * G * (lam K G + G)) := by field
    rw [this]
    have q : 0 < 1 + (k + 4 * g / 3) * (lam K G + 2 * G) / (Real.pi * G * (lam K G + G)) := by
      positivity
    generalize 1 + (k + 4 * g / 3) * (lam K G + 2 * G) / (Real.pi * G * (lam K G + G)) = q at *
    field
  have hU1 : ∀ a, 0 < a → rU1 K G (a * g) a = 16 * (lam K G + 2 * G) / (3 * (3 * lam K G + 4 * G)
    * (1 + 4 * g * (lam K G + G) / (Real.pi * G * (3 * lam K G + 4 * G)))) := by
    intro a ha
    unfold rU1
    have : 4 * (a * g) * (lam K G + G) / (Real.pi * a * G * (3 * lam K G + 4 * G))
        = 4 * g * (lam K G + G) / (Real.pi * G * (3 * lam K G + 4 * G)) := by field
    rw [this]
  refine ⟨K + 4 * G / 3 - crd * (lam K G ^ 2 / G * (4 / 3 * Real.pi * G / (lam K G + 2 * G) / Φ2)),
    K + 4 * G / 3 - crd * ((lam K G + 2 * G) ^ 2 / G
      * (4 / 3 * Real.pi * G / (lam K G + 2 * G) / Φ2)),
    K - 2 * G / 3 - crd * (lam K G * (lam K G + 2 * G) / G
      * (4 / 3 * Real.pi * G / (lam K G + 2 * G) / Φ2)),
    G - crd * (G * (16 * (lam K G + 2 * G) / (3 * (3 * lam K G + 4 * G)
    * (1 + 4 * g * (lam K G + G) / (Real.pi * G * (3 * lam K G + 4 * G)))))),
    G - crd * (G * (4 / 3 * Real.pi / Φ3)), ?_, ?_, ?_⟩
  · intro a ha
    have ok : CrackOK K G (a * k) (a * g) a := ⟨hK, hG, by positivity, by positivity, ha⟩
    rw [hudson_eval ok crd (o := 0) (Or.inl ⟨rfl, rfl⟩)]
    simp only [if_true, zero_mul, add_zero]
    unfold h11 h13 h33 h44
    rw [hU3 a ha, hU1 a ha]
    congr 3 <;> ring
  · intro e0 hs
    refine ⟨fun a h0 h1 => ?_, fun s h => ?_⟩
    · obtain ⟨e, he⟩ := (inclusion_solution hK hG (mul_nonneg h0.le hk) (mul_nonneg h0.le hg) h0 h1
        hs).1
      exact ⟨_, e, he, rfl⟩
    have h' : ∀ a, ∃ e, 0 < a → a ≤ 1 → IsInclusionStrain K G (a * k) (a * g) (spheroid a) e0 e ∧
        s a = hooke K G e0 + crackPorosity crd 1 a 1 • (hooke (a * k) (a * g) e - hooke K G e) := by
      intro a
      by_cases c : 0 < a ∧ a ≤ 1
      · obtain ⟨e, he⟩ := h a c.1 c.2
        exact ⟨e, fun _ _ => he⟩
      · exact ⟨0, fun h1 h2 => absurd ⟨h1, h2⟩ c⟩
    choose e he using h'
    obtain ⟨l01, l02, l12, l00, l11, l22⟩ := thin_strain hK hG hk hg hs
      (fun a h0 h1 => (he a h0 h1).1)
    rw [← hR, ← dΦ3] at l02 l12
    rw [← hR, ← dΦ2] at l22
    have lt := (l00.add l11).add l22
    rw [add_zero, zero_add] at lt
    -- one component of the stress
    have comp : ∀ i j (d v w : ℝ), d = (1 : Strain) i j →
        Tendsto (fun a => a * e a i j) (𝓝[>] 0) (𝓝 v) →
        w = (K - 2 * G / 3) * e0.trace * d + 2 * G * e0 i j
          - 4 / 3 * Real.pi * crd * ((K - 2 * G / 3)
            * ((e0 2 2 + (1 - 2 * R) * (e0 0 0 + e0 1 1)) * (1 / Φ2)) * d + 2 * G * v) →
        Tendsto (fun a => s a i j) (𝓝[>] 0) (𝓝 w) := by
      intro i j d v w hd hv hw
      have k1 : Tendsto (fun a : ℝ => a * k - 2 * (a * g) / 3 - (K - 2 * G / 3)) (𝓝[>] 0)
          (𝓝 (0 * k - 2 * (0 * g) / 3 - (K - 2 * G / 3))) :=
        ((tendsto_id0.mul_const k).sub (((tendsto_id0.mul_const g).const_mul 2).div_const 3)).sub_const _
      have k2 : Tendsto (fun a : ℝ => 2 * (a * g) - 2 * G) (𝓝[>] 0) (𝓝 (2 * (0 * g) - 2 * G)) :=
        ((tendsto_id0.mul_const g).const_mul 2).sub_const _
      have l := ((((k1.mul lt).mul_const d).add (k2.mul hv)).const_mul
        (4 / 3 * Real.pi * crd)).const_add ((K - 2 * G / 3) * e0.trace * d + 2 * G * e0 i j)
      have ew : w = (K - 2 * G / 3) * e0.trace * d + 2 * G * e0 i j + 4 / 3 * Real.pi * crd
          * ((0 * k - 2 * (0 * g) / 3 - (K - 2 * G / 3))
            * ((e0 2 2 + (1 - 2 * R) * (e0 0 0 + e0 1 1)) * (1 / Φ2)) * d
              + (2 * (0 * g) - 2 * G) * v) := by
        rw [hw]; ring
      rw [ew]
      refine l.congr' ?_
      filter_upwards [small_lt_one] with a ha
      rw [(he a ha.1 ha.2.le).2]
      have tr : (e a).trace = e a 0 0 + e a 1 1 + e a 2 2 := trace_fin_three _
      simp only [hooke, Matrix.add_apply, Matrix.smul_apply, Matrix.sub_apply, smul_eq_mul, ← hd,
        tr, crackPorosity]
      ring
    have tr0 : e0.trace = e0 0 0 + e0 1 1 + e0 2 2 := trace_fin_three _
    have q2 : Φ2 ≠ 0 := by
      rw [hΦ2]; positivity
    have q3 : Φ3 ≠ 0 := by
      rw [hΦ3]; positivity
    have e12 : 1 - 2 * R = lam K G / (lam K G + 2 * G) := by rw [eR]; field
    have eK : K - 2 * G / 3 = lam K G := rfl
    have eM : K + 4 * G / 3 = lam K G + 2 * G := by unfold lam; ring
    rw [tendsto_pi_nhds]
    clear_value Φ2 Φ3 R
    intro i
    fin_cases i
    · refine comp 0 0 1 0 _ (by simp) l00 ?_
      simp only [vtiMatrix, orthoMatrix, voigt, Matrix.mulVec, dotProduct, Fin.sum_univ_six, tr0,
        e12, eK, eM]
      simp
      field
    · refine comp 1 1 1 0 _ (by simp) l11 ?_
      simp only [vtiMatrix, orthoMatrix, voigt, Matrix.mulVec, dotProduct, Fin.sum_univ_six, tr0,
        e12, eK, eM]
      simp
      field
    · refine comp 2 2 1 _ _ (by simp) l22 ?_
      simp only [vtiMatrix, orthoMatrix, voigt, Matrix.mulVec, dotProduct, Fin.sum_univ_six, tr0,
        e12, eK, eM]
      simp
      field
    · refine comp 1 2 0 _ _ (by simp) l12 ?_
      simp only [vtiMatrix, orthoMatrix, voigt, Matrix.mulVec, dotProduct, Fin.sum_univ_six, tr0,
        e12, eK, eM]
      simp
      field
    · refine comp 0 2 0 _ _ (by simp) l02 ?_
      simp only [vtiMatrix, orthoMatrix, voigt, Matrix.mulVec, dotProduct, Fin.sum_univ_six, tr0,
        e12, eK, eM]
      simp
      field
    · refine comp 0 1 0 _ _ (by simp) l01 ?_
      simp only [vtiMatrix, orthoMatrix, voigt, Matrix.mulVec, dotProduct, Fin.sum_univ_six, tr0,
        e12, eK, eM]
      simp
      field
  · have hX : 4 / 3 * Real.pi / Φ3 = 16 * (lam K G + 2 * G) / (3 * (3 * lam K G + 4 * G)
        * (1 + 4 * g * (lam K G + 2 * G) / (Real.pi * G * (3 * lam K G + 4 * G)))) := by
      rw [hΦ3]
      have q : 0 < 1 + 4 * g * (lam K G + 2 * G) / (Real.pi * G * (3 * lam K G + 4 * G)) := by
        positivity
      generalize 1 + 4 * g * (lam K G + 2 * G) / (Real.pi * G * (3 * lam K G + 4 * G)) = q at *
      field
    rw [hX]
    constructor
    · intro h
      by_contra c
      push Not at c
      have hg' : 0 < g := lt_of_le_of_ne hg (Ne.symm c.1)
      have h2 := mul_left_cancel₀ c.2 (sub_right_injective h)
      have h3 := mul_left_cancel₀ hG.ne' h2
      have : 16 * (lam K G + 2 * G) / (3 * (3 * lam K G + 4 * G)
          * (1 + 4 * g * (lam K G + 2 * G) / (Real.pi * G * (3 * lam K G + 4 * G))))
          < 16 * (lam K G + 2 * G) / (3 * (3 * lam K G + 4 * G)
          * (1 + 4 * g * (lam K G + G) / (Real.pi * G * (3 * lam K G + 4 * G)))) := by
        gcongr
        linarith
      linarith
    · rintro (rfl | rfl)
      · simp
      · simp

example : (0 : ℝ) < 37 ∧ (0 : ℝ) < 44 ∧ (0 : ℝ) ≤ 2.2 ∧ (0 : ℝ) ≤ 0 := by norm_num

/-! ## C84: self-consistent cracks with fluid -/

/-- Moduli `K`, `G` of a solid `K0`, `G0` with randomly oriented flat cracks of density `crd`
filled with a fluid of modulus `k` times the aspect ratio, by the self-consistent rule: the
mean strain in a crack is that of a spheroid in the effective medium. -/
def IsCrackedSC (K0 G0 k crd K G : ℝ) : Prop :=
  ∀ P Q : ℝ → ℝ,
    (∀ a, 0 < a → a ≤ 1 → IsConcentration K G (a * k) 0 (spheroid a) (P a) (Q a)) →
    Tendsto (fun a => K0 + crackPorosity crd 1 a 1 * (a * k - K0) * P a) (𝓝[>] 0) (𝓝 K) ∧
    Tendsto (fun a => G0 + crackPorosity crd 1 a 1 * (0 - G0) * Q a) (𝓝[>] 0) (𝓝 G)

theorem concentrations_exist {K G k : ℝ} (hK : 0 < K) (hG : 0 < G) (hk : 0 ≤ k) :
    ∃ P Q : ℝ → ℝ, ∀ a, 0 < a → a ≤ 1 →
      IsConcentration K G (a * k) 0 (spheroid a) (P a) (Q a) := by
  have : ∀ a : ℝ, ∃ PQ : ℝ × ℝ, 0 < a → a ≤ 1 →
      IsConcentration K G (a * k) 0 (spheroid a) PQ.1 PQ.2 := by
    intro a
    by_cases h : 0 < a ∧ a ≤ 1
    · obtain ⟨P, Q, -, -, -, c⟩ := C79_oblate K G (a * k) 0 a hK hG (mul_nonneg h.1.le hk) le_rfl
        h.1 h.2
      exact ⟨(P, Q), fun _ _ => c⟩
    · exact ⟨0, fun h1 h2 => absurd ⟨h1, h2⟩ h⟩
  choose f hf using this
  exact ⟨fun a => (f a).1, fun a => (f a).2, hf⟩

/-- The self-consistent rule in closed form (O'Connell and Budiansky 1974). -/
theorem crackedSC_iff {K0 G0 k crd K G : ℝ} (hK : 0 < K) (hG : 0 < G) (hk : 0 ≤ k) :
    IsCrackedSC K0 G0 k crd K G ↔
      K = K0 * (1 - 16 / 9 * (1 - nuOf K G ^ 2) / (1 - 2 * nuOf K G) * crd
        * crackD (nuOf K G) k K) ∧
      G = G0 * (1 - 32 / 45 * (1 - nuOf K G) * (crackD (nuOf K G) k K + 3 / (2 - nuOf K G)) * crd) := by
  have key : ∀ P Q : ℝ → ℝ,
    (∀ a, 0 < a → a ≤ 1 → IsConcentration K G (a * k) 0 (spheroid a) (P a) (Q a)) →
    Tendsto (fun a => K0 + crackPorosity crd 1 a 1 * (a * k - K0) * P a) (𝓝[>] 0)
      (𝓝 (K0 * (1 - 16 / 9 * (1 - nuOf K G ^ 2) / (1 - 2 * nuOf K G) * crd
        * crackD (nuOf K G) k K))) ∧
    Tendsto (fun a => G0 + crackPorosity crd 1 a 1 * (0 - G0) * Q a) (𝓝[>] 0)
      (𝓝 (G0 * (1 - 32 / 45 * (1 - nuOf K G) * (crackD (nuOf K G) k K + 3 / (2 - nuOf K G)) * crd))) := by
    intro P Q h
    obtain ⟨l1, l2⟩ := crack_factors K G k crd hK hG hk P Q h
    constructor
    · have l := (((tendsto_id0.mul_const k).sub_const K0).mul l1).const_add K0
      have v : ∀ x : ℝ, K0 + (0 * k - K0) * x = K0 * (1 - x) := fun x => by ring
      rw [v] at l
      refine l.congr fun a => ?_
      ring
    · have l := (l2.const_mul (0 - G0)).const_add G0
      have v : ∀ x : ℝ, G0 + (0 - G0) * x = G0 * (1 - x) := fun x => by ring
      rw [v] at l
      refine l.congr fun a => ?_
      ring
  constructor
  · intro h
    obtain ⟨P, Q, c⟩ := concentrations_exist hK hG hk
    obtain ⟨k1, k2⟩ := key P Q c
    obtain ⟨m1, m2⟩ := h P Q c
    exact ⟨tendsto_nhds_unique m1 k1, tendsto_nhds_unique m2 k2⟩
  · rintro ⟨h1, h2⟩ P Q c
    obtain ⟨k1, k2⟩ := key P Q c
    rw [← h1] at k1
    rw [← h2] at k2
    exact ⟨k1, k2⟩

/-- `OConnell_Budiansky` uses the strain of dry cracks in a medium whose Poisson ratio is
`nu0 (1 - 16 crd / 9)`, O'Connell and Budiansky's approximation of the effective one. -/
theorem C84_OConnell_Budiansky (K0 G0 crd K G : ℝ) (hK0 : 0 < K0) (hG0 : 0 < G0) (hK : 0 < K)
    (hG : 0 < G) (hν : poisson K G = poisson K0 G0 * (1 - 16 * crd / 9)) (P Q : ℝ → ℝ)
    (h : ∀ a, 0 < a → a ≤ 1 → IsConcentration K G 0 0 (spheroid a) (P a) (Q a)) :
    ∃ K' G' : ℝ, OConnell_Budiansky (fin K0) (fin G0) (fin crd) = (fin K', fin G') ∧
      Tendsto (fun a => K0 + crackPorosity crd 1 a 1 * (0 - K0) * P a) (𝓝[>] 0) (𝓝 K') ∧
      Tendsto (fun a => G0 + crackPorosity crd 1 a 1 * (0 - G0) * Q a) (𝓝[>] 0) (𝓝 G') := by
  obtain ⟨n1, n2⟩ := nuOf_facts hK hG
  obtain ⟨l1, l2⟩ := crack_factors K G 0 crd hK hG le_rfl P Q (by simpa using h)
  have eD : crackD (nuOf K G) 0 K = 1 := by unfold crackD; simp
  have hν' : nuOf K G = nuEff K0 G0 crd := hν
  rw [eD, hν'] at l1 l2
  rw [hν'] at n1 n2
  have d1 : 0 < 1 - 2 * nuEff K0 G0 crd := by linarith
  have d2 : 0 < 2 - nuEff K0 G0 crd := by linarith
  have d1' : 0 < 1 - nuEff K0 G0 crd * 2 := by linarith
  refine ⟨_, _, OConnell_Budiansky_eval hK0 hG0 d1.ne' d2.ne', ?_, ?_⟩
  · have l := (l1.const_mul (0 - K0)).const_add K0
    generalize nuEff K0 G0 crd = ν at *
    have v : K0 + (0 - K0) * (16 / 9 * (1 - ν ^ 2) / (1 - 2 * ν) * crd * 1)
        = K0 * (1 - 16 * (1 - ν ^ 2) * crd / (9 * (1 - 2 * ν))) := by field
    rw [v] at l
    refine l.congr fun a => ?_
    ring
  · have l := (l2.const_mul (0 - G0)).const_add G0
    generalize nuEff K0 G0 crd = ν at *
    have v : G0 + (0 - G0) * (32 / 45 * (1 - ν) * (1 + 3 / (2 - ν)) * crd)
        = G0 * (1 - 32 * (1 - ν) * (5 - ν) * crd / (45 * (2 - ν))) := by field
    rw [v] at l
    refine l.congr fun a => ?_
    ring

/-- Media that meet the condition on the Poisson ratio. -/
example : poisson 5 3 = poisson 5 3 * (1 - 16 * 0 / 9) ∧
    poisson 27 25 = poisson 5 3 * (1 - 16 * (22 / 53 * 9 / 16) / 9) := by
  unfold poisson; norm_num

/-- The two residuals as real equations. -/
theorem OC_R_root {ν D crd ν0 w : ℝ} (h1 : -1 < ν) (h2 : ν < 1 / 2) (h3 : -1 < ν0) (h4 : ν0 < 1 / 2)
    (h : OC_R_funcs (fin ν) (fin D) (fin crd) (fin ν0) (fin w) = (fin 0, fin 0)) :
    D * (1 + 3 * ν0) * (2 - ν) - 2 * (1 - 2 * ν0) ≠ 0 ∧
    45 / 16 * (ν0 - ν) / (1 - ν ^ 2) * (2 - ν)
      = crd * (D * (1 + 3 * ν0) * (2 - ν) - 2 * (1 - 2 * ν0)) ∧
    crd * D ^ 2 - (crd + 9 / 16 * (1 - 2 * ν) / (1 - ν0 ^ 2) + 3 * w / (4 * Real.pi)) * D
      + 9 / 16 * (1 - 2 * ν) / (1 - ν0 ^ 2) = 0 := by
  have pp := Real.pi_pos
  have n1 : 1 - ν ^ 2 ≠ 0 := by nlinarith
  have n2 : 1 - ν0 ^ 2 ≠ 0 := by nlinarith
  unfold OC_R_funcs at h
  by_cases c : D * (1 + 3 * ν0) * (2 - ν) - 2 * (1 - 2 * ν0) = 0
  · exfalso
    have e := congrArg Prod.fst h
    simp (disch := first | assumption | positivity) only [fl, c] at e
    rw [fl_div_zero] at e
    exact Fl.noConfusion e
  · simp (disch := first | assumption | positivity) only [fl] at h
    injection h with a b
    rw [fin_inj] at a b
    refine ⟨c, ?_, b⟩
    have := sub_eq_zero.mp a
    rwa [div_eq_iff c] at this

/-- `OConnell_Budiansky_fl` with an exact root finder.  The first equation makes the result
consistent: it has the Poisson ratio that was used in the formulas.  The second equation uses
the Poisson ratio of the solid where the effective one belongs, so that the result is the
self-consistent one only for dry cracks (`D = 1`), without cracks, or in the accidental case that
the two ratios are opposite. -/
theorem C84_OConnell_Budiansky_fl (fsolve : (Fl × Fl → Fl × Fl) → Fl × Fl → Fl × Fl)
    (K0 G0 Kfl crd a ν D : ℝ) (hK0 : 0 < K0) (hG0 : 0 < G0) (hKfl : 0 ≤ Kfl) (ha : 0 < a)
    (hf : fsolve (fun p => OC_R_funcs p.1 p.2 (fin crd) (fin (poisson K0 G0))
      (fin (Kfl / a / K0))) (0.2, 0.9) = (fin ν, fin D))
    (hr : OC_R_funcs (fin ν) (fin D) (fin crd) (fin (poisson K0 G0)) (fin (Kfl / a / K0))
      = (fin 0, fin 0)) (h1 : -1 < ν) (h2 : ν < 1 / 2) :
    ∃ K G : ℝ, OConnell_Budiansky_fl fsolve (fin K0) (fin G0) (fin Kfl) (fin crd) (fin a)
        = (fin K, fin G) ∧
      (D = 1 → Kfl = 0) ∧
      (0 < K → 0 < G → poisson K G = ν ∧
        (IsCrackedSC K0 G0 (Kfl / a) crd K G ↔ D = 1 ∨ crd = 0 ∨ ν = -poisson K0 G0)) := by
  have pp := Real.pi_pos
  have hν0 : poisson K0 G0 = nuOf K0 G0 := rfl
  obtain ⟨f1, f2⟩ := nuOf_facts hK0 hG0
  rw [← hν0] at f1 f2
  have e0 : (3 * K0 - 2 * G0) / (6 * K0 + 2 * G0) = poisson K0 G0 := by
    unfold poisson
    congr 1
    ring
  obtain ⟨r0, r1, r2⟩ := OC_R_root h1 h2 f1 f2 hr
  have d1 : 0 < 1 - 2 * ν := by linarith
  have d2 : 0 < 2 - ν := by linarith
  have d3 : 0 < 1 - ν ^ 2 := by nlinarith
  have d0 : 0 < 1 - poisson K0 G0 ^ 2 := by nlinarith
  have eK : K0 = 2 * (1 + poisson K0 G0) / (3 * (1 - 2 * poisson K0 G0)) * G0 := by
    have : 0 < 1 - 2 * poisson K0 G0 := by linarith
    rw [div_mul_eq_mul_div, eq_div_iff (by positivity)]
    unfold poisson
    field
  have ev : OConnell_Budiansky_fl fsolve (fin K0) (fin G0) (fin Kfl) (fin crd) (fin a)
      = (fin (K0 * (1 - 16 * (1 - ν ^ 2) * crd * D / (9 * (1 - 2 * ν)))),
         fin (G0 * (1 - 32 / 45 * (1 - ν) * (D + 3 / (2 - ν)) * crd))) := by
    have n1 : (6 * K0 + 2 * G0) ≠ 0 := by positivity
    have hf' : fsolve (fun p => OC_R_funcs p.1 p.2 (fin crd)
        ((3 * fin K0 - 2 * fin G0) / (6 * fin K0 + 2 * fin G0)) (fin Kfl / fin a / fin K0)) (0.2, 0.9)
        = (fin ν, fin D) := by
      rw [← hf]
      congr 1
      funext p
      congr 1 <;> simp (disch := first | assumption | positivity) only [fl, e0]
    unfold OConnell_Budiansky_fl
    simp only [hf']
    simp (disch := first | assumption | positivity) only [fl]
  have hw : 0 ≤ Kfl / a / K0 := by positivity
  refine ⟨_, _, ev, ?_, ?_⟩
  · rintro rfl
    have : 3 * (Kfl / a / K0) / (4 * Real.pi) = 0 := by linarith
    have : Kfl / a / K0 = 0 := by
      rcases div_eq_zero_iff.mp this with h | h
      · linarith
      · exact absurd h (by positivity)
    rcases div_eq_zero_iff.mp this with h | h
    · rcases div_eq_zero_iff.mp h with h | h
      · exact h
      · exact absurd h ha.ne'
    · exact absurd h hK0.ne'
  · intro pK pG
    have d1' : 0 < 1 - ν * 2 := by linarith
    have r1' : 45 * (poisson K0 G0 - ν) * (2 - ν)
        = 16 * crd * (D * (1 + 3 * poisson K0 G0) * (2 - ν) - 2 * (1 - 2 * poisson K0 G0))
          * (1 - ν ^ 2) := by
      have : 45 * (poisson K0 G0 - ν) * (2 - ν) = 16 * (1 - ν ^ 2)
          * (45 / 16 * (poisson K0 G0 - ν) / (1 - ν ^ 2) * (2 - ν)) := by field
      rw [this, r1]
      ring
    have hY : 3 / (2 - ν) * (2 - ν) = 3 := div_mul_cancel₀ _ d2.ne'
    have hx : (1 - 2 * ν) * (1 - 16 * (1 - ν ^ 2) * crd * D / (9 * (1 - 2 * ν)))
        = 1 - 2 * ν - 16 / 9 * (1 - ν ^ 2) * crd * D := by field
    have hx' : 16 * (1 - ν ^ 2) * crd * D / (9 * (1 - 2 * ν))
        = 16 / 9 * (1 - ν ^ 2) / (1 - 2 * ν) * crd * D := by field
    have hP : (1 + poisson K0 G0) * ((1 - 2 * ν)
          * (1 - 16 * (1 - ν ^ 2) * crd * D / (9 * (1 - 2 * ν))))
        = (1 + ν) * (1 - 2 * poisson K0 G0)
          * (1 - 32 / 45 * (1 - ν) * (D + 3 / (2 - ν)) * crd) := by
      rw [hx]
      refine mul_left_cancel₀ d2.ne' ?_
      linear_combination 1 / 15 * r1' + 32 / 45 * (1 + ν) * (1 - 2 * poisson K0 G0) * (1 - ν) * crd * hY
    have pK' : 0 < 1 - 16 * (1 - ν ^ 2) * crd * D / (9 * (1 - 2 * ν)) :=
      pos_of_mul_pos_right pK hK0.le
    have hnu : nuOf (K0 * (1 - 16 * (1 - ν ^ 2) * crd * D / (9 * (1 - 2 * ν))))
        (G0 * (1 - 32 / 45 * (1 - ν) * (D + 3 / (2 - ν)) * crd)) = ν := by
      generalize 1 - 16 * (1 - ν ^ 2) * crd * D / (9 * (1 - 2 * ν)) = x at *
      generalize 1 - 32 / 45 * (1 - ν) * (D + 3 / (2 - ν)) * crd = y at *
      have : 0 < 1 - 2 * poisson K0 G0 := by linarith
      have q : 3 * (K0 * x) * (1 - 2 * ν) = 2 * (G0 * y) * (1 + ν) := by
        refine mul_left_cancel₀ this.ne' ?_
        have eK' : 3 * K0 * (1 - 2 * poisson K0 G0) = 2 * (1 + poisson K0 G0) * G0 := by
          nth_rw 1 [eK]
          field
        linear_combination x * (1 - 2 * ν) * eK' + 2 * G0 * hP
      unfold nuOf
      rw [div_eq_iff (by positivity)]
      linear_combination q
    refine ⟨hnu, ?_⟩
    rw [crackedSC_iff pK pG (by positivity), hnu]
    -- the equation for D that would be right
    have hc : 0 < 16 / 9 * (1 - ν ^ 2) / (1 - 2 * ν) := by positivity
    have hcD : crackD ν (Kfl / a) (K0 * (1 - 16 * (1 - ν ^ 2) * crd * D / (9 * (1 - 2 * ν)))) = D ↔
        crd * D ^ 2 - (crd + 9 / 16 * (1 - 2 * ν) / (1 - ν ^ 2)
          + 3 * (Kfl / a / K0) / (4 * Real.pi)) * D + 9 / 16 * (1 - 2 * ν) / (1 - ν ^ 2) = 0 := by
      have e : Kfl / a / (K0 * (1 - 16 * (1 - ν ^ 2) * crd * D / (9 * (1 - 2 * ν))))
          = Kfl / a / K0 / (1 - 16 * (1 - ν ^ 2) * crd * D / (9 * (1 - 2 * ν))) := by
        rw [div_mul_eq_div_div]
      unfold crackD
      rw [e]
      generalize Kfl / a / K0 = w at *
      have q : 0 < 1 + 4 / (3 * Real.pi) * ((1 - ν ^ 2) / (1 - 2 * ν))
          * (w / (1 - 16 * (1 - ν ^ 2) * crd * D / (9 * (1 - 2 * ν)))) := by positivity
      rw [div_eq_iff q.ne']
      have m : (9 / 16 * (1 - 2 * ν) / (1 - ν ^ 2)
          * (1 - 16 * (1 - ν ^ 2) * crd * D / (9 * (1 - 2 * ν))))
          * (D * (1 + 4 / (3 * Real.pi) * ((1 - ν ^ 2) / (1 - 2 * ν))
            * (w / (1 - 16 * (1 - ν ^ 2) * crd * D / (9 * (1 - 2 * ν))))) - 1)
          = -(crd * D ^ 2 - (crd + 9 / 16 * (1 - 2 * ν) / (1 - ν ^ 2) + 3 * w / (4 * Real.pi)) * D
            + 9 / 16 * (1 - 2 * ν) / (1 - ν ^ 2)) := by
        generalize hz : 1 - 16 * (1 - ν ^ 2) * crd * D / (9 * (1 - 2 * ν)) = z at *
        have hz' : 16 * (1 - ν ^ 2) * crd * D = (1 - z) * (9 * (1 - 2 * ν)) := by
          rw [← hz]; field
        have hz2 : crd * D = (1 - z) * (9 / 16 * (1 - 2 * ν) / (1 - ν ^ 2)) := by
          rw [eq_comm, mul_div_assoc', div_eq_iff d3.ne']
          linear_combination -1 / 16 * hz'
        have : crd * D ^ 2 - (crd + 9 / 16 * (1 - 2 * ν) / (1 - ν ^ 2) + 3 * w / (4 * Real.pi)) * D
            + 9 / 16 * (1 - 2 * ν) / (1 - ν ^ 2) = crd * D * (D - 1)
            - (9 / 16 * (1 - 2 * ν) / (1 - ν ^ 2) + 3 * w / (4 * Real.pi)) * D
            + 9 / 16 * (1 - 2 * ν) / (1 - ν ^ 2) := by ring
        rw [this, hz2]
        field
      have q2 : 0 < 9 / 16 * (1 - 2 * ν) / (1 - ν ^ 2)
          * (1 - 16 * (1 - ν ^ 2) * crd * D / (9 * (1 - 2 * ν))) := by positivity
      constructor
      · intro h
        have : D * (1 + 4 / (3 * Real.pi) * ((1 - ν ^ 2) / (1 - 2 * ν))
            * (w / (1 - 16 * (1 - ν ^ 2) * crd * D / (9 * (1 - 2 * ν))))) - 1 = 0 := by linarith
        rw [this, mul_zero] at m
        linarith
      · intro h
        rw [h, neg_zero] at m
        have := (mul_eq_zero.mp m).resolve_left q2.ne'
        linarith
    generalize crackD ν (Kfl / a) (K0 * (1 - 16 * (1 - ν ^ 2) * crd * D / (9 * (1 - 2 * ν)))) = D' at *
    have step : (K0 * (1 - 16 * (1 - ν ^ 2) * crd * D / (9 * (1 - 2 * ν)))
          = K0 * (1 - 16 / 9 * (1 - ν ^ 2) / (1 - 2 * ν) * crd * D') ∧
        G0 * (1 - 32 / 45 * (1 - ν) * (D + 3 / (2 - ν)) * crd)
          = G0 * (1 - 32 / 45 * (1 - ν) * (D' + 3 / (2 - ν)) * crd)) ↔ crd = 0 ∨ D' = D := by
      constructor
      · rintro ⟨h, -⟩
        have h := sub_right_injective (mul_left_cancel₀ hK0.ne' h)
        rw [hx', mul_assoc, mul_assoc] at h
        have h := mul_left_cancel₀ hc.ne' h
        by_cases c : crd = 0
        · exact Or.inl c
        · exact Or.inr (mul_left_cancel₀ c h).symm
      · rintro (rfl | rfl)
        · simp
        · rw [hx']
          exact ⟨rfl, rfl⟩
    rw [step, hcD]
    have sub : (9 / 16 * (1 - 2 * ν) / (1 - ν ^ 2)
        - 9 / 16 * (1 - 2 * ν) / (1 - poisson K0 G0 ^ 2)) * (1 - D)
        = crd * D ^ 2 - (crd + 9 / 16 * (1 - 2 * ν) / (1 - ν ^ 2)
          + 3 * (Kfl / a / K0) / (4 * Real.pi)) * D + 9 / 16 * (1 - 2 * ν) / (1 - ν ^ 2) := by
      linear_combination -r2
    rw [← sub, mul_eq_zero]
    have sq : 9 / 16 * (1 - 2 * ν) / (1 - ν ^ 2)
        - 9 / 16 * (1 - 2 * ν) / (1 - poisson K0 G0 ^ 2) = 0 ↔ ν ^ 2 = poisson K0 G0 ^ 2 := by
      rw [sub_eq_zero, div_eq_div_iff d3.ne' d0.ne']
      constructor
      · intro h
        have := mul_left_cancel₀ (by positivity) h
        linarith
      · intro h
        rw [h]
    rw [sq, sq_eq_sq_iff_eq_or_eq_neg]
    have same : ν = poisson K0 G0 → crd = 0 := by
      intro h
      rw [h, sub_self] at r1
      rw [← h] at r1
      simp only [mul_zero, zero_div, zero_mul] at r1
      rw [h] at r1 r0
      exact (mul_eq_zero.mp r1.symm).resolve_right r0
    constructor
    · rintro (h | (h | h) | h)
      · exact Or.inr (Or.inl h)
      · exact Or.inr (Or.inl (same h))
      · exact Or.inr (Or.inr h)
      · exact Or.inl (by linarith)
    · rintro (h | h | h)
      · exact Or.inr (Or.inr (by linarith))
      · exact Or.inl h
      · exact Or.inr (Or.inl (Or.inr h))

/-- A root of the two equations with fluid in the cracks, where all hypotheses hold. -/
example : (0 : ℝ) < 3375 / 19456 ∧
    OC_R_funcs (fin (1 / 5)) (fin (4 / 5)) (fin (3375 / 19456)) (fin (poisson 5 3))
      (fin (8967 / 2432000 * Real.pi / (1 / 100) / 5)) = (fin 0, fin 0) ∧
    (0 : ℝ) < 5 * (1 - 16 * (1 - (1 / 5) ^ 2) * (3375 / 19456) * (4 / 5) / (9 * (1 - 2 * (1 / 5)))) ∧
    (0 : ℝ) < 3 * (1 - 32 / 45 * (1 - 1 / 5) * (4 / 5 + 3 / (2 - 1 / 5)) * (3375 / 19456)) := by
  have pp := Real.pi_pos
  have e : poisson 5 3 = 1 / 4 := by unfold poisson; norm_num
  refine ⟨by norm_num, ?_, by norm_num, by norm_num⟩
  rw [e]
  have n1 : (1 : ℝ) - (1 / 5) ^ 2 ≠ 0 := by norm_num
  have n2 : (1 : ℝ) - (1 / 4) ^ 2 ≠ 0 := by norm_num
  have n3 : (4 / 5 : ℝ) * (1 + 3 * (1 / 4)) * (2 - 1 / 5) - 2 * (1 - 2 * (1 / 4)) ≠ 0 := by norm_num
  unfold OC_R_funcs
  simp (disch := first | assumption | positivity) only [fl]
  refine Prod.ext (congrArg fin ?_) (congrArg fin ?_)
  · norm_num
  · field_simp
    norm_num

end RockPhy.Props
