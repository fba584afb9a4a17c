import Verif.Lemmas.ModesSort

/-! # Lemmas: near an isotropic medium the exact reflection coefficient is unique -/

namespace RockPhy.Scat

open Spec Matrix Filter Topology

variable {M μ ρ p1 p2 q0 qS : ℝ}

section

variable {C : Matrix (Fin 6) (Fin 6) ℝ} {r : ℝ}

/-- A wave is made of the modes of its vertical slowness. -/
theorem Modes.expand (m : Modes C r p1 p2) (hC : C.IsSymm) {q : ℝ} {u : Fin 3 → ℝ}
    (hw : IsWave C r ![p1, p2, q] u) : ∃ c : Ix → ℝ, u = ∑ i, c i • m.u i ∧
      traction C ![p1, p2, q] u = ∑ i, c i • m.t i ∧ ∀ i, c i ≠ 0 → m.q i = q := by
  obtain ⟨c, hu, hv⟩ := m.span u (q • u)
  have ht : traction C ![p1, p2, q] u = ∑ i, c i • m.t i := by
    rw [traction_split, hv]
    conv_lhs => rw [hu]
    simp only [Modes.t, traction_split, mulVec_sum, mulVec_smul, smul_add, Finset.sum_add_distrib]
  refine ⟨c, hu, ht, fun i hi => ?_⟩
  by_contra hn
  have h0 := orthogonal hC hw (m.wave i) (Or.inr (Or.inr (Ne.symm hn)))
  rw [ht] at h0
  have e : u ⬝ᵥ traction C ![p1, p2, m.q i] (m.u i) = ∑ j, c j * (m.u j ⬝ᵥ m.t i) := by
    conv_lhs => rw [hu]
    rw [sum_dotProduct]
    simp only [smul_dotProduct, smul_eq_mul]
    rfl
  rw [e, dotProduct_sum, ← Finset.sum_add_distrib] at h0
  have h3 : ∀ j, c j * (m.u j ⬝ᵥ m.t i) + m.u i ⬝ᵥ c j • m.t j
      = if j = i then c j * (m.q j)⁻¹ else 0 := by
    intro j
    have := m.cross_eq j i
    rw [cross] at this
    rw [dotProduct_smul, smul_eq_mul, ← mul_add, t, t, this]
    split <;> simp
  simp only [h3, Finset.sum_ite_eq', Finset.mem_univ, if_true] at h0
  exact mul_ne_zero hi (inv_ne_zero (m.ne i)) h0

/-- A wave of one sense is made of the modes of that sense. -/
theorem Modes.expand_sense (m : Modes C r p1 p2) (hC : C.IsSymm) {q σ : ℝ} {u : Fin 3 → ℝ}
    (hw : IsWave C r ![p1, p2, q] u) (hq : u ≠ 0 → 0 < σ * q) :
    ∃ c : {i // 0 < σ * m.q i} → ℝ, u = ∑ i, c i • m.u i.1 ∧
      traction C ![p1, p2, q] u = ∑ i, c i • m.t i.1 ∧ ∀ i, c i ≠ 0 → u ≠ 0 ∧ m.q i.1 = q := by
  by_cases h0 : u = 0
  · refine ⟨0, ?_, ?_, ?_⟩ <;> simp [h0, traction, waveStrain]
  obtain ⟨c, h1, h2, h3⟩ := m.expand hC hw
  have k : ∀ f : Ix → Fin 3 → ℝ, ∑ i : {i // 0 < σ * m.q i}, c i.1 • f i.1 = ∑ i, c i • f i := by
    intro f
    rw [← Fintype.sum_subtype_add_sum_subtype (fun i => 0 < σ * m.q i) fun i => c i • f i]
    have : ∑ i : {i // ¬ 0 < σ * m.q i}, c i.1 • f i.1 = 0 := by
      refine Finset.sum_eq_zero fun i _ => ?_
      by_cases hc : c i.1 = 0
      · rw [hc, zero_smul]
      · exact absurd (by rw [h3 _ hc]; exact hq h0) i.2
    rw [this, add_zero]
  exact ⟨fun i => c i.1, h1.trans (k _).symm, h2.trans (k _).symm, fun i hi => ⟨h0, h3 _ hi⟩⟩

/-- The P mode of one sense, and the signs of all waves of that sense. -/
structure Sense (C : Matrix (Fin 6) (Fin 6) ℝ) (r p1 p2 mid σ : ℝ) (m : Modes C r p1 p2)
    (i : {i // 0 < σ * m.q i}) : Prop where
  low : σ * m.q i.1 < mid
  high : ∀ j, j ≠ i → mid < σ * m.q j.1
  P : ∀ q u, IsP C r ![p1, p2, q] u → 0 ≤ σ * downFlux C ![p1, p2, q] u → 0 < σ * q ∧ σ * q < mid
  S : ∀ q u, IsS C r ![p1, p2, q] u → 0 ≤ σ * downFlux C ![p1, p2, q] u → u ≠ 0 → mid < σ * q

theorem Sense.P_eq {mid σ : ℝ} {m : Modes C r p1 p2} {i : {i // 0 < σ * m.q i}}
    (s : Sense C r p1 p2 mid σ m i) (hC : C.IsSymm) {q : ℝ} {u : Fin 3 → ℝ}
    (h : IsP C r ![p1, p2, q] u) (hf : 0 ≤ σ * downFlux C ![p1, p2, q] u) :
    q = m.q i.1 ∧ ∃ c : ℝ, c ≠ 0 ∧ u = c • m.u i.1 := by
  obtain ⟨h1, h2⟩ := s.P _ _ h hf
  obtain ⟨c, e1, -, e3⟩ := m.expand_sense hC h.wave (fun _ => h1)
  have z : ∀ j, j ≠ i → c j = 0 := by
    intro j hj
    by_contra hc
    have := s.high j hj
    rw [(e3 j hc).2] at this
    linarith
  rw [Finset.sum_eq_single i (fun j _ hj => by rw [z j hj, zero_smul]) (by simp)] at e1
  have hc : c i ≠ 0 := by
    intro h0
    rw [h0, zero_smul] at e1
    have := h.unit
    rw [e1] at this
    simp at this
  exact ⟨(e3 i hc).2.symm, c i, hc, e1⟩

/-- There is one P wave of each sense. -/
theorem Sense.P_unique {mid σ : ℝ} {m : Modes C r p1 p2} {i : {i // 0 < σ * m.q i}}
    (s : Sense C r p1 p2 mid σ m i) (hC : C.IsSymm) {q q' : ℝ} {u u' : Fin 3 → ℝ}
    (h : IsP C r ![p1, p2, q] u) (hf : 0 ≤ σ * downFlux C ![p1, p2, q] u)
    (h' : IsP C r ![p1, p2, q'] u') (hf' : 0 ≤ σ * downFlux C ![p1, p2, q'] u') :
    q = q' ∧ u = u' := by
  obtain ⟨rfl, c, hc, e⟩ := s.P_eq hC h hf
  obtain ⟨rfl, c', hc', e'⟩ := s.P_eq hC h' hf'
  refine ⟨rfl, ?_⟩
  have n1 := h.unit
  have n2 := h'.unit
  have t1 := h.toward
  have t2 := h'.toward
  rw [e, smul_dotProduct, dotProduct_smul, smul_eq_mul, smul_eq_mul] at n1
  rw [e', smul_dotProduct, dotProduct_smul, smul_eq_mul, smul_eq_mul] at n2
  rw [e, dotProduct_smul, smul_eq_mul] at t1
  rw [e', dotProduct_smul, smul_eq_mul] at t2
  generalize m.u i.1 ⬝ᵥ m.u i.1 = n at n1 n2
  generalize ![p1, p2, m.q i.1] ⬝ᵥ m.u i.1 = d at t1 t2
  have hn : n ≠ 0 := by rintro rfl; simp at n1
  have hsq : c ^ 2 = c' ^ 2 := by
    have : c ^ 2 * n = c' ^ 2 * n := by linarith
    exact mul_right_cancel₀ hn this
  have : c = c' := by
    rcases sq_eq_sq_iff_eq_or_eq_neg.mp hsq with h | h
    · exact h
    · rw [h] at t1; linarith
  rw [e, e', this]

/-- The waves of one sense in terms of the modes: the amplitude of the P wave is that of its
mode. -/
theorem Sense.sum {mid σ : ℝ} {m : Modes C r p1 p2} {i : {i // 0 < σ * m.q i}}
    (s : Sense C r p1 p2 mid σ m i) (hC : C.IsSymm) {q q' q'' : ℝ} {u u' u'' : Fin 3 → ℝ} (R c : ℝ)
    (h : q = m.q i.1) (hu : u = c • m.u i.1)
    (h1 : IsS C r ![p1, p2, q'] u') (f1 : 0 ≤ σ * downFlux C ![p1, p2, q'] u')
    (h2 : IsS C r ![p1, p2, q''] u'') (f2 : 0 ≤ σ * downFlux C ![p1, p2, q''] u'') :
    ∃ a : {i // 0 < σ * m.q i} → ℝ, R • u + u' + u'' = ∑ i, a i • m.u i.1 ∧
      R • traction C ![p1, p2, q] u + traction C ![p1, p2, q'] u' + traction C ![p1, p2, q''] u''
        = ∑ i, a i • m.t i.1 ∧ a i = R * c := by
  classical
  have hmid : 0 < mid := i.2.trans s.low
  obtain ⟨a, a1, a2, a3⟩ := m.expand_sense hC h1.wave (fun h => hmid.trans (s.S _ _ h1 f1 h))
  obtain ⟨b, b1, b2, b3⟩ := m.expand_sense hC h2.wave (fun h => hmid.trans (s.S _ _ h2 f2 h))
  have za : a i = 0 := by
    by_contra hn
    obtain ⟨k1, k2⟩ := a3 i hn
    have := s.S _ _ h1 f1 k1
    rw [← k2] at this
    exact lt_asymm this s.low
  have zb : b i = 0 := by
    by_contra hn
    obtain ⟨k1, k2⟩ := b3 i hn
    have := s.S _ _ h2 f2 k1
    rw [← k2] at this
    exact lt_asymm this s.low
  have single : ∀ f : {i // 0 < σ * m.q i} → Fin 3 → ℝ,
      ∑ j, (Pi.single i (R * c) : {i // 0 < σ * m.q i} → ℝ) j • f j = (R * c) • f i := by
    intro f
    rw [Finset.sum_eq_single i (fun j _ hj => by rw [Pi.single_eq_of_ne hj, zero_smul]) (by simp),
      Pi.single_eq_same]
  refine ⟨Pi.single i (R * c) + a + b, ?_, ?_, ?_⟩
  · simp only [Pi.add_apply, add_smul, Finset.sum_add_distrib]
    rw [single fun j => m.u j.1, ← a1, ← b1, hu, smul_smul]
  · simp only [Pi.add_apply, add_smul, Finset.sum_add_distrib]
    rw [single fun j => m.t j.1, ← a2, ← b2, hu, traction_smul, smul_smul, h]
    rfl
  · rw [Pi.add_apply, Pi.add_apply, za, zb, Pi.single_eq_same, add_zero, add_zero]

end

theorem Background.sense (b : Background M μ ρ p1 p2 q0 qS) {σ : ℝ} (hσ : σ = 1 ∨ σ = -1) :
    ∀ᶠ x : X in 𝓝 (isoStiff M μ, ρ, p1, p2), x.1.IsSymm →
      ∀ m : Modes x.1 x.2.1 x.2.2.1 x.2.2.2,
        ∃ i, Sense x.1 x.2.1 x.2.2.1 x.2.2.2 ((q0 + qS) / 2) σ m i := by
  classical
  filter_upwards [b.subcritical, b.sorted hσ, b.P_mid hσ, S_flux b hσ] with x h1 h2 h3 h4 hs m
  have sub := h1 hs
  obtain ⟨i, j, k, hij, hik, hjk, ⟨c, hc, hP⟩, hj, hk⟩ := (h2 hs m).sort
  have huniv : (Finset.univ : Finset {i // 0 < σ * m.q i}) = {i, j, k} := by
    symm
    rw [← Finset.card_eq_iff_eq_univ, m.card_eq σ hσ, Finset.card_eq_three]
    exact ⟨i, j, k, hij, hik, hjk, rfl⟩
  refine ⟨i, h3 _ (IsP.pset hP (sub.flux_sign hP.wave i.2)), ?_, ?_, ?_⟩
  · intro l hl
    have := Finset.mem_univ l
    rw [huniv] at this
    simp only [Finset.mem_insert, Finset.mem_singleton] at this
    rcases this with rfl | rfl | rfl
    · exact absurd rfl hl
    · exact hj
    · exact hk
  · intro q u h hf
    refine ⟨?_, h3 _ (IsP.pset h hf)⟩
    have hu : u ≠ 0 := by
      rintro rfl
      have := h.unit
      simp at this
    have := sub.aprod_pos (v := q • u) hu
    rw [sub.wave_aprod h.wave] at this
    rcases hσ with rfl | rfl
    · by_contra hn
      nlinarith
    · by_contra hn
      nlinarith
  · intro q u h hf hu
    exact (h4 q u h hf).2 hu

/-- Near the background the exact reflection coefficient is unique. -/
theorem Background.reflects_unique (b : Background M μ ρ p1 p2 q0 qS)
    {C₁ C₂ : ℝ → Matrix (Fin 6) (Fin 6) ℝ} {r₁ r₂ P1 P2 : ℝ → ℝ}
    (h1 : Tendsto (fun t => ((C₁ t, r₁ t, P1 t, P2 t) : X)) (𝓝 0) (𝓝 (isoStiff M μ, ρ, p1, p2)))
    (h2 : Tendsto (fun t => ((C₂ t, r₂ t, P1 t, P2 t) : X)) (𝓝 0) (𝓝 (isoStiff M μ, ρ, p1, p2)))
    (s1 : ∀ᶠ t in 𝓝 0, (C₁ t).IsSymm) (s2 : ∀ᶠ t in 𝓝 0, (C₂ t).IsSymm) :
    ∀ᶠ t in 𝓝 0, ∀ R R', ReflectsPP (C₁ t) (r₁ t) (C₂ t) (r₂ t) (P1 t) (P2 t) R →
      ReflectsPP (C₁ t) (r₁ t) (C₂ t) (r₂ t) (P1 t) (P2 t) R' → R = R' := by
  filter_upwards [s1, s2, h1.eventually b.subcritical, h2.eventually b.subcritical,
    h1.eventually (b.sense (Or.inl rfl)), h1.eventually (b.sense (Or.inr rfl)),
    h2.eventually (b.sense (Or.inl rfl))] with t y1 y2 c1 c2 d1 d2 d3
  rintro R R' ⟨w, hw⟩ ⟨w', hw'⟩
  obtain ⟨m⟩ := (c1 y1).modes
  obtain ⟨m'⟩ := (c2 y2).modes
  obtain ⟨i, si⟩ := d1 y1 m
  obtain ⟨j, sj⟩ := d2 y1 m
  obtain ⟨k, sk⟩ := d3 y2 m'
  have pos : ∀ {z : ℝ}, 0 ≤ z → 0 ≤ 1 * z := fun h => by linarith
  have neg : ∀ {z : ℝ}, z ≤ 0 → 0 ≤ -1 * z := fun h => by linarith
  obtain ⟨eqi, eui⟩ := si.P_unique y1 hw.incident (pos hw.incident_down) hw'.incident
    (pos hw'.incident_down)
  obtain ⟨g1, c, hc, g2⟩ := sj.P_eq y1 hw.reflected (neg hw.reflected_up)
  obtain ⟨eqr, eur⟩ := sj.P_unique y1 hw.reflected (neg hw.reflected_up) hw'.reflected
    (neg hw'.reflected_up)
  obtain ⟨k1, e, he, k2⟩ := sk.P_eq y2 hw.transmitted (pos hw.transmitted_down)
  obtain ⟨k1', e', he', k2'⟩ := sk.P_eq y2 hw'.transmitted (pos hw'.transmitted_down)
  obtain ⟨a, a1, a2, a3⟩ := sj.sum y1 R c g1 g2 hw.shear_up (neg hw.shear_up_flux) hw.shear_up'
    (neg hw.shear_up_flux')
  obtain ⟨a', a1', a2', a3'⟩ := sj.sum y1 R' c (eqr ▸ g1) (eur ▸ g2) hw'.shear_up
    (neg hw'.shear_up_flux) hw'.shear_up' (neg hw'.shear_up_flux')
  obtain ⟨f, f1, f2, -⟩ := sk.sum y2 w.T e k1 k2 hw.shear_down (pos hw.shear_down_flux)
    hw.shear_down' (pos hw.shear_down_flux')
  obtain ⟨f', f1', f2', -⟩ := sk.sum y2 w'.T e' k1' k2' hw'.shear_down (pos hw'.shear_down_flux)
    hw'.shear_down' (pos hw'.shear_down_flux')
  have D := hw.displacement
  have D' := hw'.displacement
  have T := hw.tractions
  have T' := hw'.tractions
  rw [f1, add_assoc, add_assoc, ← add_assoc (R • _), a1] at D
  rw [f1', add_assoc, add_assoc, ← add_assoc (R' • _), a1'] at D'
  rw [f2, add_assoc, add_assoc, ← add_assoc (R • _), a2] at T
  rw [f2', add_assoc, add_assoc, ← add_assoc (R' • _), a2'] at T'
  rw [← eui] at D' T'
  rw [← eqi] at T'
  have z := (solve_inj m m' (a := a - a') (b := f - f') (by
    simp only [Pi.sub_apply, sub_smul, Finset.sum_sub_distrib]
    rw [← D, ← D']; abel) (by
    simp only [Pi.sub_apply, sub_smul, Finset.sum_sub_distrib]
    rw [← T, ← T']; abel)).1
  have := congrFun z j
  rw [Pi.sub_apply, a3, a3', Pi.zero_apply, ← sub_mul] at this
  exact sub_eq_zero.mp ((mul_eq_zero.mp this).resolve_right hc)

end RockPhy.Scat
