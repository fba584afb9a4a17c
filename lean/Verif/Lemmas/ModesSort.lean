import Verif.Lemmas.ModesNear

/-! # Lemmas: near an isotropic medium one wave of each sense is a P wave and two are shear waves -/

namespace RockPhy.Scat

open Spec Matrix Filter Topology

variable {M μ ρ p1 p2 q0 qS : ℝ}

/-- The background P wave. -/
noncomputable def bgP (M ρ p1 p2 q0 σ : ℝ) : Y := (σ * q0, √(M / ρ) • ![p1, p2, σ * q0])

theorem Background.bg_aprod (b : Background M μ ρ p1 p2 q0 qS) {σ : ℝ} (hσ : σ = 1 ∨ σ = -1) :
    aprod (isoStiff M μ) ρ p1 p2 (bgP M ρ p1 p2 q0 σ).2
      ((bgP M ρ p1 p2 q0 σ).1 • (bgP M ρ p1 p2 q0 σ).2) (bgP M ρ p1 p2 q0 σ).2
      ((bgP M ρ p1 p2 q0 σ).1 • (bgP M ρ p1 p2 q0 σ).2) = 2 * (M * q0 ^ 2) := by
  have hs := b.subcritical.self_of_nhds (iso_symm M μ)
  rw [bgP, hs.wave_aprod (b.wave0 hσ), b.flux hσ]
  rcases hσ with rfl | rfl <;> ring

/-- P waves of one sense are not orthogonal to each other. -/
theorem Background.P_aprod (b : Background M μ ρ p1 p2 q0 qS) {σ : ℝ} (hσ : σ = 1 ∨ σ = -1) :
    ∀ᶠ x : X in 𝓝 (isoStiff M μ, ρ, p1, p2), ∀ y y', (x, y) ∈ Pset σ → (x, y') ∈ Pset σ →
      0 < aprod x.1 x.2.1 x.2.2.1 x.2.2.2 y.2 (y.1 • y.2) y'.2 (y'.1 • y'.2) := by
  have hpos : 0 < 2 * (M * q0 ^ 2) := by have := b.M_pos; have := b.hq; positivity
  rw [← b.bg_aprod hσ] at hpos
  have hev := (continuous_aprod.tendsto (((isoStiff M μ, ρ, p1, p2) : X),
    bgP M ρ p1 p2 q0 σ, bgP M ρ p1 p2 q0 σ)).eventually (lt_mem_nhds hpos)
  rw [nhds_prod_eq] at hev
  obtain ⟨U, hU, W, hW, h⟩ := Filter.eventually_prod_iff.mp hev
  rw [nhds_prod_eq] at hW
  obtain ⟨V1, hV1, V2, hV2, h'⟩ := Filter.eventually_prod_iff.mp hW
  have hV := hV1.and hV2
  obtain ⟨V, hVs, hVo, hVm⟩ := eventually_nhds_iff.mp hV
  have lim := modes_limit b.hμ b.hM (x0 := (isoStiff M μ, ρ, p1, p2)) rfl
    (isClosed_Pset σ) (V := Set.univ ×ˢ V) (isOpen_univ.prod hVo) (fun z hz => hz.1)
    (fun y hy => ⟨trivial, by rw [Pset_limit b hσ hy]; exact hVm⟩)
  filter_upwards [lim, hU] with x hx hxU y y' hy hy'
  exact h hxU (h' (hVs _ (hx _ hy).2).1 (hVs _ (hx _ hy').2).2)

theorem Background.P_mid (b : Background M μ ρ p1 p2 q0 qS) {σ : ℝ} (hσ : σ = 1 ∨ σ = -1) :
    ∀ᶠ x : X in 𝓝 (isoStiff M μ, ρ, p1, p2), ∀ y, (x, y) ∈ Pset σ → σ * y.1 < (q0 + qS) / 2 := by
  have lim := modes_limit b.hμ b.hM (x0 := (isoStiff M μ, ρ, p1, p2)) rfl
    (isClosed_Pset σ) (V := {z | σ * z.2.1 < (q0 + qS) / 2})
    (isOpen_lt (continuous_const.mul continuous_snd.fst) continuous_const) (fun z hz => hz.1)
    (fun y hy => by
      rw [Pset_limit b hσ hy]
      show σ * (σ * q0) < _
      have := b.lt
      rcases hσ with rfl | rfl <;> linarith)
  filter_upwards [lim] with x hx y hy
  exact hx y hy

section

variable {C : Matrix (Fin 6) (Fin 6) ℝ} {r : ℝ}

theorem aprod_expand (m : Modes C r p1 p2) (c : Ix → ℝ) :
    aprod C r p1 p2 (∑ i, c i • m.u i) (∑ i, c i • m.q i • m.u i) (∑ i, c i • m.u i)
      (∑ i, c i • m.q i • m.u i) = ∑ i, c i ^ 2 := by
  have h : ∀ i j, aprod C r p1 p2 (m.u i) (m.q i • m.u i) (m.u j) (m.q j • m.u j)
      = if i = j then 1 else 0 := m.ortho
  have e : aprod C r p1 p2 (∑ i, c i • m.u i) (∑ i, c i • m.q i • m.u i) (∑ i, c i • m.u i)
      (∑ i, c i • m.q i • m.u i)
      = ∑ i, ∑ j, c i * (c j * aprod C r p1 p2 (m.u j) (m.q j • m.u j) (m.u i) (m.q i • m.u i)) := by
    unfold aprod
    simp only [mulVec_sum, sum_dotProduct, dotProduct_sum, smul_dotProduct, dotProduct_smul,
      mulVec_smul, smul_eq_mul, Finset.mul_sum, mul_add, mul_sub, Finset.sum_add_distrib,
      Finset.sum_sub_distrib]
    congr 1
    · congr 1
      refine Finset.sum_congr rfl fun i _ => Finset.sum_congr rfl fun j _ => ?_
      ring
    · refine Finset.sum_congr rfl fun i _ => Finset.sum_congr rfl fun j _ => ?_
      ring
  rw [e]
  refine Finset.sum_congr rfl fun i _ => ?_
  simp only [h, mul_ite, mul_one, mul_zero, Finset.sum_ite_eq', Finset.mem_univ, if_true]
  ring

end

/-- One of the waves is slower, vertically, than the shear waves. -/
theorem Background.exists_low (b : Background M μ ρ p1 p2 q0 qS) {σ : ℝ} (hσ : σ = 1 ∨ σ = -1) :
    ∀ᶠ x : X in 𝓝 (isoStiff M μ, ρ, p1, p2), ∀ m : Modes x.1 x.2.1 x.2.2.1 x.2.2.2,
      ∃ i, 0 < σ * m.q i ∧ σ * m.q i < (q0 + qS) / 2 := by
  have hq := b.hq
  have hlt := b.lt
  have hM := b.M_pos
  set y := bgP M ρ p1 p2 q0 σ with hy
  have hc : Continuous fun x : X => (q0 + qS) / 2 * (σ * (2 * downFlux x.1 (slow x y) y.2))
      - aprod x.1 x.2.1 x.2.2.1 x.2.2.2 y.2 (y.1 • y.2) y.2 (y.1 • y.2) := by
    have h1 : Continuous fun x : X => (x, y) := continuous_id.prodMk continuous_const
    have h2 : Continuous fun x : X => (x, y, y) := continuous_id.prodMk continuous_const
    exact (continuous_const.mul (continuous_const.mul (continuous_const.mul
      (continuous_flux'.comp h1)))).sub (continuous_aprod.comp h2)
  have h0 : 0 < (q0 + qS) / 2 * (σ * (2 * downFlux (isoStiff M μ)
      (slow (isoStiff M μ, ρ, p1, p2) y) y.2))
      - aprod (isoStiff M μ) ρ p1 p2 y.2 (y.1 • y.2) y.2 (y.1 • y.2) := by
    rw [b.bg_aprod hσ, hy, bgP]
    have e : downFlux (isoStiff M μ) (slow (isoStiff M μ, ρ, p1, p2)
      (σ * q0, √(M / ρ) • ![p1, p2, σ * q0])) (√(M / ρ) • ![p1, p2, σ * q0]) = σ * (M * q0) :=
      b.flux hσ
    dsimp only
    rw [e]
    have : σ * (2 * (σ * (M * q0))) = 2 * (M * q0) := by rcases hσ with rfl | rfl <;> ring
    rw [this]
    nlinarith [mul_pos hM hq]
  filter_upwards [hc.continuousAt.eventually (lt_mem_nhds h0)] with x hx m
  by_contra hn
  push Not at hn
  obtain ⟨c, hu, hv⟩ := m.span y.2 (y.1 • y.2)
  have t1 : traction x.1 (slow x y) y.2 = ∑ i, c i • m.t i := by
    rw [slow, traction_split, hv]
    conv_lhs => rw [hu]
    simp only [Modes.t, traction_split, mulVec_sum, mulVec_smul, smul_add, Finset.sum_add_distrib]
  have e1 := m.energy (fun i => i) Function.injective_id c
  rw [← hu, ← t1] at e1
  have e2 : aprod x.1 x.2.1 x.2.2.1 x.2.2.2 y.2 (y.1 • y.2) y.2 (y.1 • y.2) = ∑ i, c i ^ 2 := by
    rw [hv]
    conv_lhs => rw [hu]
    exact aprod_expand m c
  have hx' : 0 < (q0 + qS) / 2 * (σ * (2 * (y.2 ⬝ᵥ traction x.1 (slow x y) y.2)))
      - aprod x.1 x.2.1 x.2.2.1 x.2.2.2 y.2 (y.1 • y.2) y.2 (y.1 • y.2) := hx
  rw [e1, e2, Finset.mul_sum, Finset.mul_sum, ← Finset.sum_sub_distrib] at hx'
  refine absurd hx' (not_lt.mpr (Finset.sum_nonpos fun i _ => ?_))
  have hm : 0 < (q0 + qS) / 2 := by linarith
  have hss : σ * σ = 1 := by rcases hσ with rfl | rfl <;> norm_num
  have key : (q0 + qS) / 2 * (σ * (m.q i)⁻¹) ≤ 1 := by
    have einv : σ * (m.q i)⁻¹ = (σ * m.q i)⁻¹ := by
      rw [mul_inv]; congr 1; rcases hσ with rfl | rfl <;> norm_num
    rw [einv]
    rcases lt_or_ge 0 (σ * m.q i) with h | h
    · rw [← div_eq_mul_inv, div_le_one h]; exact hn i h
    · have : (σ * m.q i)⁻¹ ≤ 0 := inv_nonpos.mpr h
      nlinarith
  nlinarith [sq_nonneg (c i)]

/-- The waves of one sense: one P wave and two shear waves. -/
structure Sorted (C : Matrix (Fin 6) (Fin 6) ℝ) (r p1 p2 mid σ : ℝ) (m : Modes C r p1 p2) : Prop where
  sort : ∃ i j k : {i // 0 < σ * m.q i}, i ≠ j ∧ i ≠ k ∧ j ≠ k ∧
    (∃ c : ℝ, c ≠ 0 ∧ IsP C r ![p1, p2, m.q i.1] (c • m.u i.1)) ∧
    mid < σ * m.q j.1 ∧ mid < σ * m.q k.1
  shear : ∀ q u, IsWave C r ![p1, p2, q] u → mid < σ * q →
    IsS C r ![p1, p2, q] u ∧ 0 ≤ σ * downFlux C ![p1, p2, q] u

theorem Modes.u_ne {C : Matrix (Fin 6) (Fin 6) ℝ} {r : ℝ} (m : Modes C r p1 p2) (i : Ix) :
    m.u i ≠ 0 := by
  intro h
  have := m.ortho i i
  rw [h, if_pos rfl, aprod] at this
  simp at this

theorem aprod_smul (C : Matrix (Fin 6) (Fin 6) ℝ) (r c c' q q' : ℝ) (u u' : Fin 3 → ℝ) :
    aprod C r p1 p2 (c • u) (q • c • u) (c' • u') (q' • c' • u')
      = c * c' * aprod C r p1 p2 u (q • u) u' (q' • u') := by
  unfold aprod
  simp only [smul_dotProduct, dotProduct_smul, mulVec_smul, smul_eq_mul]
  ring

theorem Background.sorted (b : Background M μ ρ p1 p2 q0 qS) {σ : ℝ} (hσ : σ = 1 ∨ σ = -1) :
    ∀ᶠ x : X in 𝓝 (isoStiff M μ, ρ, p1, p2), x.1.IsSymm →
      ∀ m : Modes x.1 x.2.1 x.2.2.1 x.2.2.2, Sorted x.1 x.2.1 x.2.2.1 x.2.2.2 ((q0 + qS) / 2) σ m := by
  have hmid : 0 < (q0 + qS) / 2 := by have := b.hq; have := b.hqS; linarith
  filter_upwards [b.subcritical, b.P_aprod hσ, b.P_mid hσ, b.exists_low hσ, S_flux b hσ]
    with x h1 h2 h3 h4 h5 hs m
  have sub := h1 hs
  have shear : ∀ q u, IsWave x.1 x.2.1 ![x.2.2.1, x.2.2.2, q] u → (q0 + qS) / 2 < σ * q →
      IsS x.1 x.2.1 ![x.2.2.1, x.2.2.2, q] u ∧ 0 ≤ σ * downFlux x.1 ![x.2.2.1, x.2.2.2, q] u := by
    intro q u hw hq
    refine ⟨?_, sub.flux_sign hw (hmid.trans hq)⟩
    by_cases hu : u = 0
    · exact ⟨hw, by simp [hu]⟩
    rcases dichotomy hw hu with ⟨c, hc, hP⟩ | h
    · have := h3 _ (IsP.pset hP (sub.flux_sign hP.wave (hmid.trans hq)))
      exact absurd this (not_lt.mpr hq.le)
    · exact h
  refine ⟨?_, shear⟩
  have low : ∀ i, 0 < σ * m.q i → (∃ c : ℝ, c ≠ 0 ∧
      IsP x.1 x.2.1 ![x.2.2.1, x.2.2.2, m.q i] (c • m.u i)) ∨ (q0 + qS) / 2 < σ * m.q i := by
    intro i hi
    rcases dichotomy (m.wave i) (m.u_ne i) with h | h
    · exact Or.inl h
    · exact Or.inr ((h5 _ _ h (sub.flux_sign (m.wave i) hi)).2 (m.u_ne i))
  have uniq : ∀ i j, 0 < σ * m.q i → 0 < σ * m.q j →
      (∃ c : ℝ, c ≠ 0 ∧ IsP x.1 x.2.1 ![x.2.2.1, x.2.2.2, m.q i] (c • m.u i)) →
      (∃ c : ℝ, c ≠ 0 ∧ IsP x.1 x.2.1 ![x.2.2.1, x.2.2.2, m.q j] (c • m.u j)) → i = j := by
    rintro i j hi hj ⟨c, hc, hP⟩ ⟨c', hc', hP'⟩
    by_contra hn
    have := h2 _ _ (IsP.pset hP (sub.flux_sign hP.wave hi)) (IsP.pset hP' (sub.flux_sign hP'.wave hj))
    dsimp only at this
    rw [aprod_smul, m.ortho, if_neg hn, mul_zero] at this
    exact lt_irrefl _ this
  obtain ⟨i, hi, hil⟩ := h4 m
  have hP := (low i hi).resolve_right (not_lt.mpr hil.le)
  have card := m.card_eq σ hσ
  have card2 : (Finset.univ.erase (⟨i, hi⟩ : {i // 0 < σ * m.q i})).card = 2 := by
    rw [Finset.card_erase_of_mem (Finset.mem_univ _), Finset.card_univ, card]
  obtain ⟨j, k, hjk, he⟩ := Finset.card_eq_two.mp card2
  have hj : j ∈ Finset.univ.erase (⟨i, hi⟩ : {i // 0 < σ * m.q i}) := by rw [he]; simp
  have hk : k ∈ Finset.univ.erase (⟨i, hi⟩ : {i // 0 < σ * m.q i}) := by rw [he]; simp
  have nj := (Finset.mem_erase.mp hj).1
  have nk := (Finset.mem_erase.mp hk).1
  refine ⟨⟨i, hi⟩, j, k, nj.symm, nk.symm, hjk, hP, ?_, ?_⟩
  · exact (low j.1 j.2).resolve_left fun h => nj (Subtype.ext (uniq _ _ j.2 hi h hP))
  · exact (low k.1 k.2).resolve_left fun h => nk (Subtype.ext (uniq _ _ k.2 hi h hP))

/-- The two shear waves of a sum, counted as one if they have the same vertical slowness. -/
theorem Sorted.merge {C : Matrix (Fin 6) (Fin 6) ℝ} {r mid σ : ℝ} {m : Modes C r p1 p2}
    (s : Sorted C r p1 p2 mid σ m) (a : {i // 0 < σ * m.q i} → ℝ) (hσ : σ = 1 ∨ σ = -1) :
    ∃ (R q q' q'' : ℝ) (u u' u'' : Fin 3 → ℝ), IsP C r ![p1, p2, q] u ∧ 0 < σ * q ∧
      IsS C r ![p1, p2, q'] u' ∧ 0 ≤ σ * downFlux C ![p1, p2, q'] u' ∧
      IsS C r ![p1, p2, q''] u'' ∧ 0 ≤ σ * downFlux C ![p1, p2, q''] u'' ∧ q' ≠ q'' ∧
      ∑ i, a i • m.u i.1 = R • u + u' + u'' ∧
      ∑ i, a i • m.t i.1 = R • traction C ![p1, p2, q] u + traction C ![p1, p2, q'] u'
        + traction C ![p1, p2, q''] u'' := by
  classical
  obtain ⟨i, j, k, hij, hik, hjk, ⟨c, hc, hP⟩, hj, hk⟩ := s.sort
  have huniv : (Finset.univ : Finset {i // 0 < σ * m.q i}) = {i, j, k} := by
    symm
    rw [← Finset.card_eq_iff_eq_univ, m.card_eq σ hσ, Finset.card_eq_three]
    exact ⟨i, j, k, hij, hik, hjk, rfl⟩
  have sum3 : ∀ f : {i // 0 < σ * m.q i} → Fin 3 → ℝ, ∑ i, f i = f i + f j + f k := by
    intro f
    rw [huniv, Finset.sum_insert (by simp [hij, hik]), Finset.sum_insert (by simp [hjk]),
      Finset.sum_singleton, add_assoc]
  have wave : ∀ q u (c : ℝ), IsWave C r ![p1, p2, q] u → IsWave C r ![p1, p2, q] (c • u) := by
    intro q u c hw
    rw [IsWave, mulVec_smul, hw, smul_comm]
  have wadd : ∀ q u u', IsWave C r ![p1, p2, q] u → IsWave C r ![p1, p2, q] u' →
      IsWave C r ![p1, p2, q] (u + u') := by
    intro q u u' hw hw'
    rw [IsWave, mulVec_add, hw, hw', smul_add]
  have tadd : ∀ s u u', traction C s (u + u') = traction C s u + traction C s u' := by
    intro s u u'
    simp only [traction, waveStrain, mulVec_add]
  have first : a i • m.u i.1 = (a i / c) • (c • m.u i.1) := by
    rw [smul_smul, div_mul_cancel₀ _ hc]
  have first' : a i • m.t i.1 = (a i / c) • traction C ![p1, p2, m.q i.1] (c • m.u i.1) := by
    rw [traction_smul, smul_smul, div_mul_cancel₀ _ hc]; rfl
  by_cases he : m.q j.1 = m.q k.1
  · have hw : IsWave C r ![p1, p2, m.q j.1] (a j • m.u j.1 + a k • m.u k.1) :=
      wadd _ _ _ (wave _ _ _ (m.wave j.1)) (by rw [he]; exact wave _ _ _ (m.wave k.1))
    obtain ⟨s1, s2⟩ := s.shear _ _ hw hj
    refine ⟨a i / c, m.q i.1, m.q j.1, m.q j.1 - 1, c • m.u i.1, a j • m.u j.1 + a k • m.u k.1, 0, hP,
      i.2, s1, s2, ⟨by simp [IsWave], by simp⟩, by simp [downFlux], by linarith, ?_, ?_⟩
    · rw [sum3, first, add_zero, add_assoc]
    · rw [sum3, first', tadd]
      simp only [traction_smul]
      have : traction C ![p1, p2, m.q j.1] (m.u k.1) = m.t k.1 := by rw [he]; rfl
      rw [this]
      simp only [Modes.t, traction, waveStrain, mulVec_zero, add_zero, add_assoc]
  · obtain ⟨s1, s2⟩ := s.shear _ _ (wave _ _ (a j) (m.wave j.1)) hj
    obtain ⟨s3, s4⟩ := s.shear _ _ (wave _ _ (a k) (m.wave k.1)) hk
    refine ⟨a i / c, m.q i.1, m.q j.1, m.q k.1, c • m.u i.1, a j • m.u j.1, a k • m.u k.1, hP, i.2,
      s1, s2, s3, s4, he, ?_, ?_⟩
    · rw [sum3, first]
    · rw [sum3, first']; simp only [traction_smul]; rfl

/-- Near the background an exact reflection coefficient exists. -/
theorem Background.reflects (b : Background M μ ρ p1 p2 q0 qS) {C₁ C₂ : ℝ → Matrix (Fin 6) (Fin 6) ℝ}
    {r₁ r₂ P1 P2 : ℝ → ℝ}
    (h1 : Tendsto (fun t => ((C₁ t, r₁ t, P1 t, P2 t) : X)) (𝓝 0) (𝓝 (isoStiff M μ, ρ, p1, p2)))
    (h2 : Tendsto (fun t => ((C₂ t, r₂ t, P1 t, P2 t) : X)) (𝓝 0) (𝓝 (isoStiff M μ, ρ, p1, p2)))
    (s1 : ∀ᶠ t in 𝓝 0, (C₁ t).IsSymm) (s2 : ∀ᶠ t in 𝓝 0, (C₂ t).IsSymm) :
    ∀ᶠ t in 𝓝 0, ∃ R, ReflectsPP (C₁ t) (r₁ t) (C₂ t) (r₂ t) (P1 t) (P2 t) R := by
  filter_upwards [s1, s2, h1.eventually b.subcritical, h2.eventually b.subcritical,
    h1.eventually (b.sorted (Or.inl rfl)), h1.eventually (b.sorted (Or.inr rfl)),
    h2.eventually (b.sorted (Or.inl rfl))] with t y1 y2 c1 c2 d1 d2 d3
  have sub1 := c1 y1
  have sub2 := c2 y2
  obtain ⟨m⟩ := sub1.modes
  obtain ⟨m'⟩ := sub2.modes
  obtain ⟨i, -, -, -, -, -, ⟨c, hc, hP⟩, -, -⟩ := (d1 y1 m).sort
  obtain ⟨a, b, e1, e2⟩ := solve m m' (c • m.u i.1) (traction (C₁ t) ![P1 t, P2 t, m.q i.1] (c • m.u i.1))
  obtain ⟨R, qr, qs, qs', ur, us, us', w1, w2, w3, w4, w5, w6, w7, w8, w9⟩ :=
    (d2 y1 m).merge a (Or.inr rfl)
  obtain ⟨T, qt, qd, qd', ut, ud, ud', v1, v2, v3, v4, v5, v6, v7, v8, v9⟩ :=
    (d3 y2 m').merge b (Or.inl rfl)
  refine ⟨R, ⟨T, m.q i.1, qr, qs, qs', qt, qd, qd', c • m.u i.1, ur, us, us', ut, ud, ud'⟩, ?_⟩
  have f1 := sub1.flux_sign hP.wave i.2
  have f2 := sub1.flux_sign w1.wave w2
  have f3 := sub2.flux_sign v1.wave v2
  constructor <;> dsimp only at *
  all_goals first | assumption | linarith | skip
  · rw [w8, v8] at e1
    rw [← e1]; abel
  · rw [w9, v9] at e2
    rw [← e2]; abel

end RockPhy.Scat
