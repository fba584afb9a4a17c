import Verif.Lemmas.Reflection

/-! # Lemmas: derivative of the exact P reflection coefficient at a homogeneous isotropic medium -/

namespace RockPhy.Scat

open Spec Matrix Filter Topology

section

variable {M μ ρ p1 p2 q0 qS : ℝ}

/-- Product of the strains of the up- and down-going P waves of the background with a change of
stiffness, less that of their displacements with a change of density. -/
noncomputable def born (M ρ p1 p2 q0 : ℝ) (C' : Matrix (Fin 6) (Fin 6) ℝ) (r' : ℝ) : ℝ :=
  r' * ((√(M / ρ) • ![p1, p2, q0]) ⬝ᵥ (√(M / ρ) • ![p1, p2, -q0]))
    - waveStrain ![p1, p2, -q0] (√(M / ρ) • ![p1, p2, -q0])
      ⬝ᵥ (C' *ᵥ waveStrain ![p1, p2, q0] (√(M / ρ) • ![p1, p2, q0]))

instance : Inhabited Waves := ⟨⟨0, 0, 0, 0, 0, 0, 0, 0, 0, 0, 0, 0, 0, 0, 0⟩⟩

theorem Background.wave0 (b : Background M μ ρ p1 p2 q0 qS) {τ : ℝ} (hτ : τ = 1 ∨ τ = -1) :
    IsWave (isoStiff M μ) ρ ![p1, p2, τ * q0] (√(M / ρ) • ![p1, p2, τ * q0]) := by
  have h := (b.wave hτ).self_of_nhds
  rw [bgs, b.kz_eq] at h
  exact h

theorem Background.dot (b : Background M μ ρ p1 p2 q0 qS) {τ : ℝ} (hτ : τ = 1 ∨ τ = -1) :
    ![p1, p2, τ * q0] ⬝ᵥ ![p1, p2, τ * q0] = ρ / M := by
  rw [← b.eq]
  simp [dotProduct, Fin.sum_univ_three]
  rcases hτ with rfl | rfl <;> ring

/-- Energy flow of the background P waves. -/
theorem Background.flux (b : Background M μ ρ p1 p2 q0 qS) {τ : ℝ} (hτ : τ = 1 ∨ τ = -1) :
    downFlux (isoStiff M μ) ![p1, p2, τ * q0] (√(M / ρ) • ![p1, p2, τ * q0]) = τ * (M * q0) := by
  have hM := b.M_pos
  have hρ := b.hρ
  rw [flux_smul, iso_flux, b.dot hτ, Real.sq_sqrt (by positivity)]
  simp
  field

theorem Background.bgcross_same (b : Background M μ ρ p1 p2 q0 qS) {τ : ℝ} (hτ : τ = 1 ∨ τ = -1) :
    bgcross M μ ρ τ (isoStiff M μ, ρ, p1, p2) (τ * q0, √(M / ρ) • ![p1, p2, τ * q0])
      = 2 * (τ * (M * q0)) := by
  rw [← b.flux hτ, bgcross, cross, bgs, b.kz_eq, downFlux]
  simp only [slow]
  ring

theorem Background.bgcross_other (b : Background M μ ρ p1 p2 q0 qS) :
    bgcross M μ ρ 1 (isoStiff M μ, ρ, p1, p2) (-1 * q0, √(M / ρ) • ![p1, p2, -1 * q0]) = 0 := by
  have h := orthogonal (iso_symm M μ) (b.wave0 (Or.inr rfl)) (b.wave0 (Or.inl rfl))
    (Or.inr (Or.inr (by have := b.hq; linarith)))
  rw [bgcross, cross, bgs, b.kz_eq]
  exact h

theorem flux_tendsto (x : ℝ → X) (y : ℝ → Y) {x0 : X} {y0 : Y} (hx : Tendsto x (𝓝 0) (𝓝 x0))
    (hy : Tendsto y (𝓝 0) (𝓝 y0)) :
    Tendsto (fun t => downFlux (x t).1 (slow (x t) (y t)) (y t).2) (𝓝 0)
      (𝓝 (downFlux x0.1 (slow x0 y0) y0.2)) := by
  have h := (continuous_flux'.tendsto (x0, y0)).comp (hx.prodMk_nhds hy)
  simpa only [Function.comp_def] using h

theorem bgcross_tendsto (τ : ℝ) (x : ℝ → X) (y : ℝ → Y) {x0 : X} {y0 : Y}
    (hx : Tendsto x (𝓝 0) (𝓝 x0)) (hy : Tendsto y (𝓝 0) (𝓝 y0)) :
    Tendsto (fun t => bgcross M μ ρ τ (x t) (y t)) (𝓝 0) (𝓝 (bgcross M μ ρ τ x0 y0)) := by
  have h := ((continuous_bgcross M μ ρ τ).tendsto (x0, y0)).comp (hx.prodMk_nhds hy)
  simpa only [Function.comp_def] using h

/-- What is needed of the shear waves along a path. -/
theorem S_path (b : Background M μ ρ p1 p2 q0 qS) {C : ℝ → Matrix (Fin 6) (Fin 6) ℝ}
    {r P1 P2 : ℝ → ℝ} {C' : Matrix (Fin 6) (Fin 6) ℝ} {r' : ℝ}
    (h : Path M μ ρ p1 p2 C r P1 P2 C' r') {σ : ℝ} (hσ : σ = 1 ∨ σ = -1) :
    ∃ K, 0 ≤ K ∧ ∀ᶠ t in 𝓝 0, ∀ q u, IsS (C t) (r t) ![P1 t, P2 t, q] u →
      0 ≤ σ * downFlux (C t) ![P1 t, P2 t, q] u →
      (μ * qS / 2 * √(u ⬝ᵥ u) ^ 2 ≤ σ * downFlux (C t) ![P1 t, P2 t, q] u ∧
        |bgcross M μ ρ (-1) (C t, r t, P1 t, P2 t) (q, u)| ≤ K * |t| * √(u ⬝ᵥ u) ∧
        |bgcross M μ ρ 1 (C t, r t, P1 t, P2 t) (q, u)| ≤ K * |t| * √(u ⬝ᵥ u)) ∧
      (u ≠ 0 → (q0 + qS) / 2 < σ * q) := by
  obtain ⟨K0, hK0, g⟩ := h.gap_le
  obtain ⟨K1, hK1, k1⟩ := S_cross b hσ (Or.inr rfl)
  obtain ⟨K2, hK2, k2⟩ := S_cross b hσ (Or.inl rfl)
  refine ⟨(K1 + K2) * K0, by positivity, ?_⟩
  filter_upwards [g, h.tendsto.eventually k1, h.tendsto.eventually k2,
    h.tendsto.eventually (S_flux b hσ)] with t g k1 k2 k3 q u hs hf
  obtain ⟨f1, f2⟩ := k3 q u hs hf
  have n := Real.sqrt_nonneg (u ⬝ᵥ u)
  have gn : 0 ≤ K0 * |t| - gap M μ ρ (C t, r t, P1 t, P2 t) := by linarith
  have g0 : 0 ≤ K0 * |t| := by positivity
  refine ⟨⟨?_, (k1 q u hs hf).trans ?_, (k2 q u hs hf).trans ?_⟩, f2⟩
  · rw [Real.sq_sqrt (dot_self_nonneg u)]; exact f1
  · nlinarith [mul_nonneg (mul_nonneg hK1 n) gn, mul_nonneg (mul_nonneg hK2 n) g0]
  · nlinarith [mul_nonneg (mul_nonneg hK2 n) gn, mul_nonneg (mul_nonneg hK1 n) g0]

theorem P_mem {x : X} {q σ : ℝ} {u : Fin 3 → ℝ} (h : IsP x.1 x.2.1 ![x.2.2.1, x.2.2.2, q] u)
    (hf : 0 ≤ σ * downFlux x.1 ![x.2.2.1, x.2.2.2, q] u) : (x, (q, u)) ∈ Pset σ :=
  ⟨⟨h.wave, h.unit⟩, h.toward.le, h.along, hf⟩

/-- First order of the exact P reflection coefficient between two nearly equal, nearly isotropic
media of any symmetry. -/
theorem reflection_deriv (b : Background M μ ρ p1 p2 q0 qS)
    {C₁ C₂ : ℝ → Matrix (Fin 6) (Fin 6) ℝ} {r₁ r₂ P1 P2 R : ℝ → ℝ}
    {C₁' C₂' : Matrix (Fin 6) (Fin 6) ℝ} {r₁' r₂' : ℝ}
    (h1 : Path M μ ρ p1 p2 C₁ r₁ P1 P2 C₁' r₁') (h2 : Path M μ ρ p1 p2 C₂ r₂ P1 P2 C₂' r₂')
    (hR : ∀ᶠ t in 𝓝 0, ReflectsPP (C₁ t) (r₁ t) (C₂ t) (r₂ t) (P1 t) (P2 t) (R t)) :
    R 0 = 0 ∧ HasDerivAt R ((born M ρ p1 p2 q0 C₁' r₁' / (2 * q0)
      - born M ρ p1 p2 q0 C₂' r₂' / (2 * q0)) / (2 * (M * q0))) 0 := by
  obtain ⟨w, hw⟩ := hR.choice
  set x₁ : ℝ → X := fun t => (C₁ t, r₁ t, P1 t, P2 t) with hx₁
  set x₂ : ℝ → X := fun t => (C₂ t, r₂ t, P1 t, P2 t) with hx₂
  have mi : ∀ᶠ t in 𝓝 0, (x₁ t, ((w t).qi, (w t).ui)) ∈ Pset 1 := hw.mono fun t h =>
    P_mem h.incident (by rw [one_mul]; exact h.incident_down)
  have mr : ∀ᶠ t in 𝓝 0, (x₁ t, ((w t).qr, (w t).ur)) ∈ Pset (-1) := hw.mono fun t h =>
    P_mem h.reflected (by have := h.reflected_up; rw [neg_one_mul]; exact neg_nonneg.mpr this)
  have mt : ∀ᶠ t in 𝓝 0, (x₂ t, ((w t).qt, (w t).ut)) ∈ Pset 1 := hw.mono fun t h =>
    P_mem h.transmitted (by rw [one_mul]; exact h.transmitted_down)
  have t1 : Tendsto x₁ (𝓝 0) (𝓝 (isoStiff M μ, ρ, p1, p2)) := h1.tendsto
  have t2 : Tendsto x₂ (𝓝 0) (𝓝 (isoStiff M μ, ρ, p1, p2)) := h2.tendsto
  have yi := P_tendsto b (Or.inl rfl) t1 mi
  have yr := P_tendsto b (Or.inr rfl) t1 mr
  have yt := P_tendsto b (Or.inl rfl) t2 mt
  have qi : Tendsto (fun t => (w t).qi) (𝓝 0) (𝓝 (1 * q0)) := yi.fst_nhds
  have qr : Tendsto (fun t => (w t).qr) (𝓝 0) (𝓝 (-1 * q0)) := yr.fst_nhds
  have qt : Tendsto (fun t => (w t).qt) (𝓝 0) (𝓝 (1 * q0)) := yt.fst_nhds
  obtain ⟨Ku, hKu, su⟩ := S_path b h1 (σ := -1) (Or.inr rfl)
  obtain ⟨Kd, hKd, sd⟩ := S_path b h2 (σ := 1) (Or.inl rfl)
  have hq := b.hq
  have hlt := b.lt
  obtain ⟨zi, di⟩ := cross_deriv b h1 (fun _ => rfl) mi
  obtain ⟨zt, dt⟩ := cross_deriv b h2 (fun _ => rfl) mt
  have fi := flux_tendsto x₁ _ t1 yi
  have fr := flux_tendsto x₁ _ t1 yr
  have ft := flux_tendsto x₂ _ t2 yt
  have br := bgcross_tendsto (M := M) (μ := μ) (ρ := ρ) (-1) x₁ _ t1 yr
  have ci := bgcross_tendsto (M := M) (μ := μ) (ρ := ρ) 1 x₁ _ t1 yi
  have cr := bgcross_tendsto (M := M) (μ := μ) (ρ := ρ) 1 x₁ _ t1 yr
  have ct := bgcross_tendsto (M := M) (μ := μ) (ρ := ρ) 1 x₂ _ t2 yt
  rw [b.bgcross_same (Or.inr rfl)] at br
  rw [b.bgcross_same (Or.inl rfl)] at ci ct
  rw [b.bgcross_other] at cr
  simp only [slow] at fi fr ft
  rw [b.flux (Or.inl rfl)] at fi ft
  rw [b.flux (Or.inr rfl)] at fr
  rw [one_mul] at fi ft ci ct
  rw [show 2 * (-1 * (M * q0)) = -(2 * (M * q0)) by ring] at br
  rw [neg_one_mul] at fr
  have up : ∀ {t : ℝ} {q : ℝ} {u : Fin 3 → ℝ}, downFlux (C₁ t) ![P1 t, P2 t, q] u ≤ 0 →
      0 ≤ -1 * downFlux (C₁ t) ![P1 t, P2 t, q] u := fun h => by linarith
  have dn : ∀ {t : ℝ} {q : ℝ} {u : Fin 3 → ℝ}, 0 ≤ downFlux (C₂ t) ![P1 t, P2 t, q] u →
      0 ≤ 1 * downFlux (C₂ t) ![P1 t, P2 t, q] u := fun h => by linarith
  have mono : ∀ {K t n : ℝ}, 0 ≤ n → K ≤ Ku + Kd → K * |t| * n ≤ (Ku + Kd) * |t| * n := by
    intro K t n hn hK
    have := abs_nonneg t
    gcongr
  refine balance (e := M * q0) (c := μ * qS / 2) (K := Ku + Kd) (mul_pos b.M_pos b.hq)
    (half_pos (mul_pos b.hμ b.hqS)) (T := fun t => (w t).T)
    (f1 := fun t => downFlux (C₁ t) ![P1 t, P2 t, (w t).qs] (w t).us)
    (f2 := fun t => downFlux (C₁ t) ![P1 t, P2 t, (w t).qs'] (w t).us')
    (f3 := fun t => downFlux (C₂ t) ![P1 t, P2 t, (w t).qd] (w t).ud)
    (f4 := fun t => downFlux (C₂ t) ![P1 t, P2 t, (w t).qd'] (w t).ud')
    (n1 := fun t => √((w t).us ⬝ᵥ (w t).us)) (n2 := fun t => √((w t).us' ⬝ᵥ (w t).us'))
    (n3 := fun t => √((w t).ud ⬝ᵥ (w t).ud)) (n4 := fun t => √((w t).ud' ⬝ᵥ (w t).ud'))
    ?hE (hw.mono fun t h => cross_balance h (-1)) (hw.mono fun t h => cross_balance h 1)
    ?h1 ?h2 ?h3 ?h4 fi fr ft br di dt zi zt ci ct cr
  case hE =>
    filter_upwards [hw, h1.symm, h2.symm, su, sd,
      qi.eventually_const_lt (show 0 < 1 * q0 by linarith),
      qr.eventually_lt_const (show -1 * q0 < 0 by linarith),
      qr.eventually_const_lt (show -((q0 + qS) / 2) < -1 * q0 by linarith),
      qt.eventually_lt_const (show 1 * q0 < (q0 + qS) / 2 by linarith)]
      with t h s1 s2 su sd a1 a2 a3 a4
    have z1 := (su _ _ h.shear_up (up h.shear_up_flux)).2
    have z2 := (su _ _ h.shear_up' (up h.shear_up_flux')).2
    have z3 := (sd _ _ h.shear_down (dn h.shear_down_flux)).2
    have z4 := (sd _ _ h.shear_down' (dn h.shear_down_flux')).2
    have alt : ∀ {u : Fin 3 → ℝ} {A B : Prop}, (u ≠ 0 → A) → (A → B) → u = 0 ∨ B := by
      intro u A B h1 h2
      by_cases h : u = 0
      · exact Or.inl h
      · exact Or.inr (h2 (h1 h))
    exact energy_balance h s1 s2 (by linarith)
      (alt z1 fun k => by intro e; rw [← e] at k; linarith)
      (alt z2 fun k => by intro e; rw [← e] at k; linarith)
      (alt z1 fun k => by intro e; rw [← e] at k; linarith)
      (alt z2 fun k => by intro e; rw [← e] at k; linarith)
      (alt z3 fun k => by intro e; rw [← e] at k; linarith)
      (alt z4 fun k => by intro e; rw [← e] at k; linarith)
  case h1 =>
    filter_upwards [hw, su] with t h su
    obtain ⟨k1, k2, k3⟩ := (su _ _ h.shear_up (up h.shear_up_flux)).1
    exact ⟨by linarith, k2.trans (mono (Real.sqrt_nonneg _) (by linarith)),
      k3.trans (mono (Real.sqrt_nonneg _) (by linarith))⟩
  case h2 =>
    filter_upwards [hw, su] with t h su
    obtain ⟨k1, k2, k3⟩ := (su _ _ h.shear_up' (up h.shear_up_flux')).1
    exact ⟨by linarith, k2.trans (mono (Real.sqrt_nonneg _) (by linarith)),
      k3.trans (mono (Real.sqrt_nonneg _) (by linarith))⟩
  case h3 =>
    filter_upwards [hw, sd] with t h sd
    obtain ⟨k1, k2, k3⟩ := (sd _ _ h.shear_down (dn h.shear_down_flux)).1
    exact ⟨by linarith, k2.trans (mono (Real.sqrt_nonneg _) (by linarith)),
      k3.trans (mono (Real.sqrt_nonneg _) (by linarith))⟩
  case h4 =>
    filter_upwards [hw, sd] with t h sd
    obtain ⟨k1, k2, k3⟩ := (sd _ _ h.shear_down' (dn h.shear_down_flux')).1
    exact ⟨by linarith, k2.trans (mono (Real.sqrt_nonneg _) (by linarith)),
      k3.trans (mono (Real.sqrt_nonneg _) (by linarith))⟩

end

end RockPhy.Scat
