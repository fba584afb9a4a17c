import Verif.Props.PeriodicShear

/-! # Property C92: the Hashin-Shtrikman bounds hold for every periodic composite

The composite fills a unit cell that repeats in space.  The geometry is arbitrary: `phase` is any
measurable assignment of the points of the cell to the two constituents. -/

namespace RockPhy.Props

open Fl Spec EM MeasureTheory

theorem rotational_iso (k g : ℝ) : voigtBulk (isoStress k g) = k ∧ voigtShear (isoStress k g) = g := by
  constructor
  · simp [voigtBulk, isoStress, Matrix.trace]
    ring
  · have q : ∀ a, wt5 a * contract (isoStress k g (dev5 a)) (dev5 a) = 2 * g := by
      intro a
      have z : (dev5 a).trace = 0 := by
        rw [trace_entries]; exact dev5_trace a
      rw [contract_hooke, z]
      simp only [zero_div, zero_smul, sub_zero, ne_eq, OfNat.ofNat_ne_zero, not_false_eq_true,
        zero_pow, mul_zero, zero_add]
      linear_combination 2 * g * dev5_norm a
    simp only [voigtShear, q, Fin.sum_univ_five]
    ring

/-- The rotational means of an isotropic stiffness are its moduli. -/
example : voigtBulk (isoStress 36 45) = 36 ∧ voigtShear (isoStress 36 45) = 45 := rotational_iso 36 45

section

variable {phase : Cell → Fin 2} {K G : Fin 2 → ℝ}

theorem fraction_one (hp : Measurable phase) :
    fraction cellVolume phase 1 = 1 - fraction cellVolume phase 0 := by
  have := sum_fraction (μ := cellVolume) hp
  rw [Fin.sum_univ_two] at this
  linarith

theorem fraction_mem (hp : Measurable phase) :
    0 ≤ fraction cellVolume phase 0 ∧ fraction cellVolume phase 0 ≤ 1 :=
  ⟨measureReal_nonneg, by
    have h : 0 ≤ fraction cellVolume phase 1 := measureReal_nonneg
    rw [fraction_one hp] at h
    linarith⟩

theorem hsMean_fraction (hp : Measurable phase) (κ : Fin 2 → ℝ) (z : ℝ) :
    (∑ i, fraction cellVolume phase i * (1 / (κ i + z)))⁻¹ - z
      = hsMean (fraction cellVolume phase 0) (κ 0) (κ 1) z := by
  rw [Fin.sum_univ_two, fraction_one hp]
  simp only [hsMean, mul_one_div]

theorem hsBulk_eq (g : ℝ) : hsBulk g = 4 / 3 * g := by unfold hsBulk; ring

theorem HS_upper_bulk {f K1 K2 G1 G2 : ℝ} (hf0 : 0 ≤ f) (hf1 : f ≤ 1) (hK1 : 0 < K1) (hK2 : 0 < K2)
    (hG1 : 0 < G1) (hK : K1 ≠ K2) :
    (HS (fin f) (fin K1) (fin K2) (fin G1) (fin G2) "upper").1
      = fin (hsMean f K1 K2 (hsBulk G1)) := by
  have h : (HS (fin f) (fin K1) (fin K2) (fin G1) (fin G2) "upper").1
      = (HS (fin f) (fin K1) (fin K2) (fin G1) (fin (G1 + 1)) "upper").1 := rfl
  rw [h, HS_upper_eval hf0 hf1 hK1 hK2 hG1 (by linarith) hK (by linarith)]

theorem HS_lower_bulk {f K1 K2 G1 G2 : ℝ} {s : String} (hs : s ≠ "upper") (hf0 : 0 ≤ f) (hf1 : f ≤ 1)
    (hK1 : 0 < K1) (hK2 : 0 < K2) (hG2 : 0 < G2) (hK : K1 ≠ K2) :
    (HS (fin f) (fin K1) (fin K2) (fin G1) (fin G2) s).1
      = fin (hsMean f K1 K2 (hsBulk G2)) := by
  rw [HS_lower_eq_upper hs, HS_upper_bulk (by linarith) (by linarith) hK2 hK1 hG2 hK.symm,
    hsMean_swap]

/-- C92: whatever the geometry, the lower bound returned by the library is at most the rotational
mean of the stiffness of the composite.  No isotropy of the composite is assumed. -/
theorem C92_lower (hp : Measurable phase) (hK0 : 0 < K 1) (hG0 : 0 < G 1) (hK : K 1 < K 0)
    (hG : G 1 < G 0) {C : Tensor → Tensor} (h : Stiffness phase K G C) {bound : String}
    (hb : bound ≠ "upper") :
    ∃ k g : ℝ, HS (fin (fraction cellVolume phase 0)) (fin (K 0)) (fin (K 1)) (fin (G 0)) (fin (G 1))
        bound = (fin k, fin g) ∧ k ≤ voigtBulk C ∧ g ≤ voigtShear C := by
  obtain ⟨f0, f1⟩ := fraction_mem hp
  have mK : ∀ i, K 1 ≤ K i := by intro i; fin_cases i; exacts [hK.le, le_rfl]
  have mG : ∀ i, G 1 ≤ G i := by intro i; fin_cases i; exacts [hG.le, le_rfl]
  refine ⟨_, _, HS_lower_eval hb f0 f1 (hK0.trans hK) hK0 (hG0.trans hG) hG0 hK.ne' hG.ne', ?_, ?_⟩
  · have := bulk_lower hp mG hG0.le (fun i => hK0.trans_le (mK i))
      (h 1 fun i j => by simp [Matrix.one_apply, eq_comm])
    rw [hsMean_fraction hp K, ← hsBulk_eq] at this
    exact this
  · have := shear_lower hp mG mK hG0 hK0.le (fun a => h (dev5 a) (dev5_symm a))
    rw [hsMean_fraction hp G] at this
    unfold voigtShear
    linarith

/-- C92: whatever the geometry, the upper bound returned by the library is at least the rotational
mean of the compliance of the composite. -/
theorem C92_upper (hp : Measurable phase) (hK0 : 0 < K 1) (hG0 : 0 < G 1) (hK : K 1 < K 0)
    (hG : G 1 < G 0) {D : Tensor → Tensor} (h : Compliance phase K G D) :
    ∃ k g : ℝ, HS (fin (fraction cellVolume phase 0)) (fin (K 0)) (fin (K 1)) (fin (G 0)) (fin (G 1))
        "upper" = (fin k, fin g) ∧ reussBulk D ≤ k ∧ reussShear D ≤ g := by
  obtain ⟨f0, f1⟩ := fraction_mem hp
  have mK : ∀ i, K i ≤ K 0 := by intro i; fin_cases i; exacts [le_rfl, hK.le]
  have mG : ∀ i, G i ≤ G 0 := by intro i; fin_cases i; exacts [le_rfl, hG.le]
  have pK : ∀ i, 0 < K i := by intro i; fin_cases i; exacts [hK0.trans hK, hK0]
  have pG : ∀ i, 0 < G i := by intro i; fin_cases i; exacts [hG0.trans hG, hG0]
  refine ⟨_, _, HS_upper_eval f0 f1 (pK 0) hK0 (pG 0) hG0 hK.ne' hG.ne', ?_, ?_⟩
  · have := bulk_upper hp mG pG pK (h 1 fun i j => by simp [Matrix.one_apply, eq_comm])
    rw [hsMean_fraction hp K, ← hsBulk_eq] at this
    have z := hsBulk_pos (pG 0)
    have l := le_hsMean (z := hsBulk (G 0)) f0 f1 (add_pos (pK 0) z) (add_pos (pK 1) z) (pK 0).le (pK 1).le
    unfold reussBulk
    have t : 0 < (D 1).trace := by
      by_contra c
      have := mul_nonpos_of_nonpos_of_nonneg (not_lt.mp c) l
      linarith
    rw [div_le_iff₀ t]
    linarith
  · have := shear_upper hp mG mK pG pK (fun a => h (dev5 a) (dev5_symm a))
    rw [hsMean_fraction hp G] at this
    have z := hsShear_pos (pK 0) (pG 0)
    have l := le_hsMean (z := hsShear (K 0) (G 0)) f0 f1 (add_pos (pG 0) z) (add_pos (pG 1) z) (pG 0).le
      (pG 1).le
    unfold reussShear
    have t : 0 < 2 * ∑ a, wt5 a * contract (dev5 a) (D (dev5 a)) := by
      by_contra c
      have := mul_nonpos_of_nonpos_of_nonneg (not_lt.mp c) l
      linarith
    rw [div_le_iff₀ t]
    linarith

theorem hooke_inverse {k g : ℝ} (hk : k ≠ 0) (hg : g ≠ 0) (S : Tensor) :
    isoStress k g (isoStress (1 / (9 * k)) (1 / (4 * g)) S) = S := by
  funext i j
  rw [hooke_apply, hooke_apply, hooke_apply, hooke_apply, hooke_apply]
  simp only [Matrix.one_apply]
  simp only [if_true]
  field

theorem hooke_symm {k g : ℝ} {S : Tensor} (h : ∀ i j, S i j = S j i) (i j : Fin 3) :
    isoStress k g S i j = isoStress k g S j i := by
  rw [hooke_apply, hooke_apply, h i j]
  simp [Matrix.one_apply, eq_comm]

theorem isotropic_compliance {n : ℕ} {phase : Cell → Fin n} {K G : Fin n → ℝ} {Ke Ge : ℝ}
    (hk : Ke ≠ 0) (hg : Ge ≠ 0) (h : IsotropicComposite phase K G Ke Ge) :
    Compliance phase K G (isoStress (1 / (9 * Ke)) (1 / (4 * Ge))) := by
  intro S hS
  have := h (isoStress (1 / (9 * Ke)) (1 / (4 * Ge)) S) (hooke_symm hS)
  rwa [hooke_inverse hk hg] at this

theorem reuss_iso {k g : ℝ} (hk : k ≠ 0) (hg : g ≠ 0) :
    reussBulk (isoStress (1 / (9 * k)) (1 / (4 * g))) = k ∧
      reussShear (isoStress (1 / (9 * k)) (1 / (4 * g))) = g := by
  obtain ⟨h1, h2⟩ := rotational_iso (1 / (9 * k)) (1 / (4 * g))
  constructor
  · unfold voigtBulk at h1
    unfold reussBulk
    rw [div_eq_iff (by norm_num)] at h1
    rw [h1]
    field
  · unfold voigtShear at h2
    unfold reussShear
    rw [div_eq_iff (by norm_num)] at h2
    simp only [contract_comm (dev5 _)]
    rw [h2]
    field

/-- C92: an isotropic composite of any geometry has moduli between the two bounds returned by the
library, when one constituent is stiffer than the other in both moduli. -/
theorem C92_isotropic (hp : Measurable phase) (hK0 : 0 < K 1) (hG0 : 0 < G 1) (hK : K 1 < K 0)
    (hG : G 1 < G 0) {Ke Ge : ℝ} (h : IsotropicComposite phase K G Ke Ge) :
    ∃ kl gl ku gu : ℝ,
      HS (fin (fraction cellVolume phase 0)) (fin (K 0)) (fin (K 1)) (fin (G 0)) (fin (G 1)) "lower"
        = (fin kl, fin gl) ∧
      HS (fin (fraction cellVolume phase 0)) (fin (K 0)) (fin (K 1)) (fin (G 0)) (fin (G 1)) "upper"
        = (fin ku, fin gu) ∧
      kl ≤ Ke ∧ Ke ≤ ku ∧ gl ≤ Ge ∧ Ge ≤ gu := by
  obtain ⟨f0, f1⟩ := fraction_mem hp
  obtain ⟨kl, gl, e1, l1, l2⟩ := C92_lower hp hK0 hG0 hK hG h (bound := "lower") (by decide)
  obtain ⟨r1, r2⟩ := rotational_iso Ke Ge
  rw [r1] at l1
  rw [r2] at l2
  have e1' := HS_lower_eval (s := "lower") (by decide) f0 f1 (hK0.trans hK) hK0 (hG0.trans hG) hG0
    hK.ne' hG.ne'
  rw [e1] at e1'
  simp only [Prod.mk.injEq, fin_inj] at e1'
  have hk : 0 < Ke := by
    have z := hsBulk_pos hG0
    have := le_hsMean (z := hsBulk (G 1)) f0 f1 (add_pos (hK0.trans hK) z) (add_pos hK0 z) hK.le le_rfl
    rw [← e1'.1] at this
    linarith
  have hg : 0 < Ge := by
    have z := hsShear_pos hK0 hG0
    have := le_hsMean (z := hsShear (K 1) (G 1)) f0 f1 (add_pos (hG0.trans hG) z) (add_pos hG0 z) hG.le
      le_rfl
    rw [← e1'.2] at this
    linarith
  obtain ⟨ku, gu, e2, u1, u2⟩ := C92_upper hp hK0 hG0 hK hG (isotropic_compliance hk.ne' hg.ne' h)
  obtain ⟨r3, r4⟩ := reuss_iso hk.ne' hg.ne'
  rw [r3] at u1
  rw [r4] at u2
  exact ⟨kl, gl, ku, gu, e1, e2, l1, u1, l2, u2⟩

/-- C92: for the bulk modulus no order of the constituents is needed.  When the shear moduli are in
the opposite order, the bounds swap names. -/
theorem C92_bulk_any_order (hp : Measurable phase) (hK0 : ∀ i, 0 < K i) (hG0 : ∀ i, 0 < G i)
    (hK : K 0 ≠ K 1) {Ke Ge : ℝ} (h : IsotropicComposite phase K G Ke Ge) :
    ∃ kl ku : ℝ,
      (HS (fin (fraction cellVolume phase 0)) (fin (K 0)) (fin (K 1)) (fin (G 0)) (fin (G 1)) "lower").1
        = fin kl ∧
      (HS (fin (fraction cellVolume phase 0)) (fin (K 0)) (fin (K 1)) (fin (G 0)) (fin (G 1)) "upper").1
        = fin ku ∧
      (G 1 ≤ G 0 → kl ≤ Ke ∧ Ke ≤ ku) ∧ (G 0 ≤ G 1 → ku ≤ Ke ∧ Ke ≤ kl) := by
  obtain ⟨f0, f1⟩ := fraction_mem hp
  refine ⟨_, _, HS_lower_bulk (by decide) f0 f1 (hK0 0) (hK0 1) (hG0 1) hK,
    HS_upper_bulk f0 f1 (hK0 0) (hK0 1) (hG0 0) hK, ?_⟩
  have lo : ∀ g : ℝ, 0 < g → (∀ i, g ≤ G i) →
      hsMean (fraction cellVolume phase 0) (K 0) (K 1) (hsBulk g) ≤ Ke := by
    intro g g0 hg
    have := bulk_lower hp hg g0.le hK0 (h 1 fun i j => by simp [Matrix.one_apply, eq_comm])
    rw [hsMean_fraction hp K, ← hsBulk_eq] at this
    have r := (rotational_iso Ke Ge).1
    unfold voigtBulk at r
    rwa [r] at this
  have gp : 0 < Ge := by
    have mG : ∀ i, min (G 0) (G 1) ≤ G i := fun i => by
      fin_cases i; exacts [min_le_left _ _, min_le_right _ _]
    have mK : ∀ i, min (K 0) (K 1) ≤ K i := fun i => by
      fin_cases i; exacts [min_le_left _ _, min_le_right _ _]
    have k0 := lt_min (hK0 0) (hK0 1)
    have g0 := lt_min (hG0 0) (hG0 1)
    have := shear_lower hp mG mK g0 k0.le (fun a => h (dev5 a) (dev5_symm a))
    rw [hsMean_fraction hp G] at this
    have z := hsShear_pos k0 g0
    have m := le_hsMean (z := hsShear (min (K 0) (K 1)) (min (G 0) (G 1))) f0 f1 (add_pos (hG0 0) z)
      (add_pos (hG0 1) z) (mG 0) (mG 1)
    have r := (rotational_iso Ke Ge).2
    unfold voigtShear at r
    linarith
  have kp : 0 < Ke := by
    obtain ⟨g, g0, hg⟩ : ∃ g : ℝ, 0 < g ∧ ∀ i, g ≤ G i :=
      ⟨min (G 0) (G 1), lt_min (hG0 0) (hG0 1), fun i => by
        fin_cases i; exacts [min_le_left _ _, min_le_right _ _]⟩
    have z := hsBulk_pos g0
    have m := le_hsMean (z := hsBulk g) f0 f1 (add_pos (hK0 0) z) (add_pos (hK0 1) z)
      (min_le_left (K 0) (K 1)) (min_le_right _ _)
    exact (lt_min (hK0 0) (hK0 1)).trans_le (m.trans (lo g g0 hg))
  have up : ∀ g : ℝ, (∀ i, G i ≤ g) →
      Ke ≤ hsMean (fraction cellVolume phase 0) (K 0) (K 1) (hsBulk g) := by
    intro g hg'
    have := bulk_upper hp hg' hG0 hK0
      (isotropic_compliance kp.ne' gp.ne' h 1 fun i j => by simp [Matrix.one_apply, eq_comm])
    rw [hsMean_fraction hp K, ← hsBulk_eq] at this
    have r := (reuss_iso kp.ne' gp.ne').1
    unfold reussBulk at r
    have t : (isoStress (1 / (9 * Ke)) (1 / (4 * Ge)) 1).trace = 1 / Ke := by
      conv_rhs => rw [← r, one_div_one_div]
    rw [t, div_mul_eq_mul_div, one_mul, le_div_iff₀ kp] at this
    linarith
  refine ⟨fun o => ⟨lo _ (hG0 1) ?_, up _ ?_⟩, fun o => ⟨lo _ (hG0 0) ?_, up _ ?_⟩⟩ <;> intro i <;>
    fin_cases i
  exacts [o, le_rfl, le_rfl, o, le_rfl, o, o, le_rfl]

end

end RockPhy.Props
