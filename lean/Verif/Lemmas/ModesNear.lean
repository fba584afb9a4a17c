import Verif.Lemmas.ModesSolve
import Verif.Lemmas.ReflectionFirst

/-! # Lemmas: sorting the waves of a medium near an isotropic one -/

namespace RockPhy.Scat

open Spec Matrix Filter Topology

theorem form_smul_right (C : Matrix (Fin 6) (Fin 6) ℝ) (c : ℝ) (s u : Fin 3 → ℝ) :
    stiffForm C s (c • u) = c ^ 2 * stiffForm C s u := by
  rw [stiffForm, stiffForm, waveStrain, waveStrain, mulVec_smul, mulVec_smul, mulVec_smul,
    dotProduct_smul, smul_dotProduct, smul_eq_mul, smul_eq_mul]
  ring

theorem form_vert (C : Matrix (Fin 6) (Fin 6) ℝ) (u : Fin 3 → ℝ) :
    u ⬝ᵥ (vert C *ᵥ u) = stiffForm C ![0, 0, 1] u := by
  rw [stiffForm, waveStrain, vert, mulVec_mulVec, mulVec_mulVec, Matrix.mul_assoc]

theorem form_horz (C : Matrix (Fin 6) (Fin 6) ℝ) (p1 p2 : ℝ) (u : Fin 3 → ℝ) :
    u ⬝ᵥ (horz C p1 p2 *ᵥ u) = stiffForm C ![p1, p2, 0] u := by
  rw [stiffForm, waveStrain, horz, mulVec_mulVec, mulVec_mulVec, Matrix.mul_assoc]

theorem normalise {u : Fin 3 → ℝ} (hu : u ≠ 0) :
    0 < u ⬝ᵥ u ∧ ((√(u ⬝ᵥ u))⁻¹ • u) ⬝ᵥ ((√(u ⬝ᵥ u))⁻¹ • u) = 1 := by
  have h : 0 < u ⬝ᵥ u := lt_of_le_of_ne (dot_self_nonneg u) fun h => hu (dot_self_eq_zero h.symm)
  refine ⟨h, ?_⟩
  rw [smul_dotProduct, dotProduct_smul, smul_eq_mul, smul_eq_mul, ← mul_assoc, ← mul_inv,
    Real.mul_self_sqrt h.le, inv_mul_cancel₀ h.ne']

section

variable {C : Matrix (Fin 6) (Fin 6) ℝ} {ρ p1 p2 : ℝ}

/-- Energy flows along the vertical slowness. -/
theorem Subcritical.aprod_pos (h : Subcritical C ρ p1 p2) {u v : Fin 3 → ℝ} (hu : u ≠ 0) :
    0 < aprod C ρ p1 p2 u v u v := by
  have := h.horz_lt u hu
  have a2 : 0 ≤ v ⬝ᵥ (vert C *ᵥ v) := by
    by_cases hv : v = 0
    · simp [hv]
    · exact (h.vert_pos v hv).le
  rw [aprod]
  linarith

theorem Subcritical.wave_aprod (h : Subcritical C ρ p1 p2) {q : ℝ} {u : Fin 3 → ℝ}
    (hw : IsWave C ρ ![p1, p2, q] u) :
    aprod C ρ p1 p2 u (q • u) u (q • u) = 2 * q * downFlux C ![p1, p2, q] u := by
  have e := congrArg (fun z => u ⬝ᵥ z) hw
  simp only [christoffel_split h.symm] at e
  rw [dotProduct_add, dotProduct_smul, dotProduct_add, dotProduct_smul, smul_eq_mul, smul_eq_mul,
    add_mulVec, dotProduct_add, dotProduct_mulVec u (mixed C p1 p2)ᵀ, vecMul_transpose,
    dotProduct_comm (mixed C p1 p2 *ᵥ u)] at e
  rw [aprod, downFlux, traction_split, dotProduct_add]
  simp only [mulVec_smul, dotProduct_smul, smul_eq_mul, smul_dotProduct] at e ⊢
  linarith

theorem Subcritical.flux_sign (h : Subcritical C ρ p1 p2) {q σ : ℝ} {u : Fin 3 → ℝ}
    (hw : IsWave C ρ ![p1, p2, q] u) (hq : 0 < σ * q) :
    0 ≤ σ * downFlux C ![p1, p2, q] u := by
  by_cases hu : u = 0
  · simp [hu, downFlux]
  have h1 := h.aprod_pos (v := q • u) hu
  rw [h.wave_aprod hw] at h1
  by_contra hn
  push Not at hn
  nlinarith [mul_pos_of_neg_of_neg hn (show -(σ * q) < 0 by linarith), sq_nonneg σ]

/-- A wave is a P wave, up to scale, or a shear wave. -/
theorem dichotomy {u : Fin 3 → ℝ} {s : Fin 3 → ℝ} (hw : IsWave C ρ s u) (hu : u ≠ 0) :
    (∃ c : ℝ, c ≠ 0 ∧ IsP C ρ s (c • u)) ∨ IsS C ρ s u := by
  by_cases ha : 2 * (s ⬝ᵥ u) ^ 2 ≤ (s ⬝ᵥ s) * (u ⬝ᵥ u)
  · exact Or.inr ⟨hw, ha⟩
  left
  push Not at ha
  obtain ⟨hpos, h1⟩ := normalise hu
  have hn : 0 < √(u ⬝ᵥ u) := Real.sqrt_pos.mpr hpos
  have hs : s ⬝ᵥ u ≠ 0 := by
    intro h0
    rw [h0] at ha
    nlinarith [mul_nonneg (dot_self_nonneg s) hpos.le]
  have wave : ∀ c : ℝ, IsWave C ρ s (c • u) := by
    intro c
    rw [IsWave, mulVec_smul, hw, smul_comm]
  have along : ∀ c : ℝ, c ^ 2 = (u ⬝ᵥ u)⁻¹ → s ⬝ᵥ s ≤ 2 * (s ⬝ᵥ (c • u)) ^ 2 := by
    intro c hc
    rw [dotProduct_smul, smul_eq_mul, mul_pow, hc, ← mul_assoc, mul_comm 2, mul_assoc,
      inv_mul_eq_div, le_div_iff₀ hpos]
    exact ha.le
  have sq : ((√(u ⬝ᵥ u))⁻¹) ^ 2 = (u ⬝ᵥ u)⁻¹ := by rw [inv_pow, Real.sq_sqrt hpos.le]
  rcases lt_or_gt_of_ne hs with h | h
  · refine ⟨-(√(u ⬝ᵥ u))⁻¹, by simpa using hn.ne', wave _, ?_, ?_, along _ (by rw [neg_sq, sq])⟩
    · rw [neg_smul, neg_dotProduct_neg]; exact h1
    · rw [dotProduct_smul, smul_eq_mul]
      exact mul_pos_of_neg_of_neg (by simpa using hn) h
  · refine ⟨(√(u ⬝ᵥ u))⁻¹, by simpa using hn.ne', wave _, h1, ?_, along _ sq⟩
    rw [dotProduct_smul, smul_eq_mul]
    exact mul_pos (inv_pos.mpr hn) h

theorem IsP.pset {x : X} {q σ : ℝ} {u : Fin 3 → ℝ} (h : IsP x.1 x.2.1 ![x.2.2.1, x.2.2.2, q] u)
    (hf : 0 ≤ σ * downFlux x.1 ![x.2.2.1, x.2.2.2, q] u) : (x, (q, u)) ∈ Pset σ :=
  ⟨⟨h.wave, h.unit⟩, h.toward.le, h.along, hf⟩

end

section near

variable {M μ ρ p1 p2 q0 qS : ℝ}

theorem Background.subcritical (b : Background M μ ρ p1 p2 q0 qS) :
    ∀ᶠ x : X in 𝓝 (isoStiff M μ, ρ, p1, p2), x.1.IsSymm →
      Subcritical x.1 x.2.1 x.2.2.1 x.2.2.2 := by
  have key := isCompact_unit.eventually_forall_of_forall_eventually
    (x₀ := ((isoStiff M μ, ρ, p1, p2) : X))
    (P := fun x u => stiffForm x.1 ![x.2.2.1, x.2.2.2, 0] u < x.2.1) (fun u hu => ?_)
  · filter_upwards [key, elliptic b.hμ b.hM (x0 := ((isoStiff M μ, ρ, p1, p2) : X)) rfl] with x h1 h2 hs
    refine ⟨hs, ?_, ?_⟩
    · intro u hu
      obtain ⟨hp, hn⟩ := normalise hu
      have := h2 ![0, 0, 1] _ (by simp [dotProduct, Fin.sum_univ_three]) hn
      rw [form_smul_right, inv_pow, Real.sq_sqrt hp.le, inv_mul_eq_div, lt_div_iff₀ hp] at this
      rw [form_vert]
      nlinarith [b.hμ]
    · intro u hu
      obtain ⟨hp, hn⟩ := normalise hu
      have := h1 _ hn
      rw [form_smul_right, inv_pow, Real.sq_sqrt hp.le, inv_mul_eq_div, div_lt_iff₀ hp] at this
      rw [form_horz]
      exact this
  · have hsl : Continuous fun z : X × (Fin 3 → ℝ) => (![z.1.2.2.1, z.1.2.2.2, 0] : Fin 3 → ℝ) := by
      refine continuous_pi fun i => ?_
      fin_cases i
      · exact continuous_fst.snd.snd.fst
      · exact continuous_fst.snd.snd.snd
      · exact continuous_const
    have hc : Continuous fun z : X × (Fin 3 → ℝ) => stiffForm z.1.1 ![z.1.2.2.1, z.1.2.2.2, 0] z.2 :=
      continuous_snd.dotProduct ((continuous_dir hsl).matrix_mulVec
        (continuous_fst.fst.matrix_mulVec (continuous_strain hsl continuous_snd)))
    refine (isOpen_lt hc continuous_fst.snd.fst).mem_nhds ?_
    show stiffForm (isoStiff M μ) ![p1, p2, 0] u < ρ
    rw [iso_stiffForm, show u ⬝ᵥ u = 1 from hu]
    have hM := b.hM
    have hμ := b.hμ
    have cs : (![p1, p2, 0] ⬝ᵥ u) ^ 2 ≤ p1 ^ 2 + p2 ^ 2 := by
      have h1 : u 0 * u 0 + u 1 * u 1 + u 2 * u 2 = 1 := by
        have : u ⬝ᵥ u = 1 := hu
        simpa [dotProduct, Fin.sum_univ_three] using this
      have h2 : ![p1, p2, 0] ⬝ᵥ u = p1 * u 0 + p2 * u 1 := by
        simp [dotProduct, Fin.sum_univ_three]
      rw [h2]
      nlinarith [sq_nonneg (p1 * u 1 - p2 * u 0), mul_nonneg (sq_nonneg p1) (sq_nonneg (u 2)),
        mul_nonneg (sq_nonneg p2) (sq_nonneg (u 2))]
    have e : ![p1, p2, 0] ⬝ᵥ ![p1, p2, 0] = p1 ^ 2 + p2 ^ 2 := by
      simp [dotProduct, Fin.sum_univ_three]; ring
    rw [e]
    have lt : M * (p1 ^ 2 + p2 ^ 2) < ρ := by
      have := b.eq
      have hM0 := b.M_pos
      have hq := b.hq
      rw [eq_div_iff hM0.ne'] at this
      nlinarith [mul_pos (pow_pos hq 2) hM0]
    nlinarith [mul_le_mul_of_nonneg_left cs (sub_pos.mpr hM).le]

theorem continuous_mat {Z : Type*} [TopologicalSpace Z] {f g : Z → Fin 3 → ℝ}
    {c : Z → Matrix (Fin 6) (Fin 6) ℝ} (hf : Continuous f) (hg : Continuous g) (hc : Continuous c) :
    Continuous fun z => dirMatrix (f z) * c z * (dirMatrix (g z))ᵀ :=
  ((continuous_dir hf).matrix_mul hc).matrix_mul (continuous_dir hg).matrix_transpose

theorem continuous_aprod : Continuous fun z : X × Y × Y =>
    aprod z.1.1 z.1.2.1 z.1.2.2.1 z.1.2.2.2 z.2.1.2 (z.2.1.1 • z.2.1.2) z.2.2.2
      (z.2.2.1 • z.2.2.2) := by
  have hsl : Continuous fun z : X × Y × Y => (![z.1.2.2.1, z.1.2.2.2, 0] : Fin 3 → ℝ) := by
    refine continuous_pi fun i => ?_
    fin_cases i
    · exact continuous_fst.snd.snd.fst
    · exact continuous_fst.snd.snd.snd
    · exact continuous_const
  have c1 : Continuous fun z : X × Y × Y => z.2.1.2 := continuous_snd.fst.snd
  have c2 : Continuous fun z : X × Y × Y => z.2.2.2 := continuous_snd.snd.snd
  have d1 : Continuous fun z : X × Y × Y => z.2.1.1 • z.2.1.2 := continuous_snd.fst.fst.smul c1
  have d2 : Continuous fun z : X × Y × Y => z.2.2.1 • z.2.2.2 := continuous_snd.snd.fst.smul c2
  have hC : Continuous fun z : X × Y × Y => z.1.1 := continuous_fst.fst
  have hh : Continuous fun z : X × Y × Y => horz z.1.1 z.1.2.2.1 z.1.2.2.2 := continuous_mat hsl hsl hC
  have hv : Continuous fun z : X × Y × Y => vert z.1.1 :=
    continuous_mat continuous_const continuous_const hC
  exact ((continuous_fst.snd.fst.mul (c1.dotProduct c2)).sub
    (c1.dotProduct (hh.matrix_mulVec c2))).add (d1.dotProduct (hv.matrix_mulVec d2))

end near

end RockPhy.Scat
