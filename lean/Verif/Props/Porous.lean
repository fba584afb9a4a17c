import Verif.Lemmas.Porous
import Mathlib.Analysis.Calculus.Deriv.Add
import Mathlib.Analysis.Calculus.Deriv.Inv
import Mathlib.Analysis.Calculus.Deriv.Pow

/-! # Properties C20 to C24 (pores and cracks in `rockphypy/EM.py`) -/

namespace RockPhy.EM

open Fl

theorem Swiss_cheese_eval {Ks Gs φ : ℝ} (hK : 0 < Ks) (hG : 0 < Gs) (hφ : 0 ≤ φ) :
    Swiss_cheese (fin Ks) (fin Gs) (fin φ)
      = (fin (Ks / (1 + (1 + 3 * Ks / (4 * Gs)) * φ)),
         fin (Gs / (1 + (15 * Ks + 20 * Gs) / (9 * Ks + 8 * Gs) * φ))) := by
  have n1 : (0 : ℝ) < 1 / Ks * (1 + (1 + 3 * Ks / (4 * Gs)) * φ) := by positivity
  have n2 : (0 : ℝ) < 1 / Gs * (1 + (15 * Ks + 20 * Gs) * φ / (9 * Ks + 8 * Gs)) := by positivity
  unfold Swiss_cheese
  fl_eval []
  refine Prod.ext ?_ ?_ <;> rw [fin_inj, mul_inv, one_div, inv_inv, ← div_eq_mul_inv]
  rw [mul_div_right_comm]

end RockPhy.EM

namespace RockPhy.Props

open Fl EM Spec Filter Topology

/-! ## C20: the Swiss cheese model -/

/-- No pores, no change. -/
theorem C20_Swiss_cheese_mineral (Ks Gs : ℝ) (hK : 0 < Ks) (hG : 0 < Gs) :
    Swiss_cheese (fin Ks) (fin Gs) (fin 0) = (fin Ks, fin Gs) := by
  rw [Swiss_cheese_eval hK hG le_rfl]; simp

/-- Positive moduli, at most the mineral's. -/
theorem C20_Swiss_cheese_bounds (Ks Gs φ : ℝ) (hK : 0 < Ks) (hG : 0 < Gs) (hφ : 0 ≤ φ) :
    ∃ K G : ℝ, Swiss_cheese (fin Ks) (fin Gs) (fin φ) = (fin K, fin G) ∧
      0 < K ∧ K ≤ Ks ∧ 0 < G ∧ G ≤ Gs := by
  refine ⟨_, _, Swiss_cheese_eval hK hG hφ, by positivity, div_le_self hK.le ?_, by positivity,
    div_le_self hG.le ?_⟩
  · have : 0 ≤ (1 + 3 * Ks / (4 * Gs)) * φ := by positivity
    linarith
  · have : 0 ≤ (15 * Ks + 20 * Gs) / (9 * Ks + 8 * Gs) * φ := by positivity
    linarith

/-- More pores, softer rock. -/
theorem C20_Swiss_cheese_decreasing (Ks Gs φ ψ : ℝ) (hK : 0 < Ks) (hG : 0 < Gs) (hφ : 0 ≤ φ)
    (h : φ < ψ) :
    (Swiss_cheese (fin Ks) (fin Gs) (fin ψ)).1 < (Swiss_cheese (fin Ks) (fin Gs) (fin φ)).1 ∧
    (Swiss_cheese (fin Ks) (fin Gs) (fin ψ)).2 < (Swiss_cheese (fin Ks) (fin Gs) (fin φ)).2 := by
  rw [Swiss_cheese_eval hK hG hφ, Swiss_cheese_eval hK hG (hφ.trans h.le)]
  simp only [fin_lt]
  constructor <;> gcongr

/-- The slope at small porosity: `1/K` and `1/G` are affine in porosity, with the dilute
spherical pore compliances as slopes. -/
theorem C20_Swiss_cheese_slope (Ks Gs φ : ℝ) (hK : 0 < Ks) (hG : 0 < Gs) (hφ : 0 ≤ φ) :
    ∃ K G : ℝ, Swiss_cheese (fin Ks) (fin Gs) (fin φ) = (fin K, fin G) ∧
      1 / K = 1 / Ks + (1 / Ks + 3 / (4 * Gs)) * φ ∧
      1 / G = 1 / Gs + (15 * Ks + 20 * Gs) / (9 * Ks + 8 * Gs) * φ / Gs := by
  refine ⟨_, _, Swiss_cheese_eval hK hG hφ, ?_, ?_⟩
  · field_simp
  · rw [one_div_div]
    field

example : (0 : ℝ) < 37 ∧ (0 : ℝ) < 44 ∧ (0 : ℝ) ≤ 0.1 ∧ (0.1 : ℝ) < 0.3 := by norm_num

/-! ## C21: the self-consistent iteration -/

/-- Every iterate is positive, at most the mineral, and not above the previous iterate. -/
theorem C21_SC_monotone (φ Ks Gs : ℝ) (n : ℕ) (hφ : 0 ≤ φ) (hK : 0 < Ks) (hG : 0 < Gs) :
    ∃ K G K' G' : ℝ, SC (fin φ) (fin Ks) (fin Gs) n = (fin K, fin G) ∧
      SC (fin φ) (fin Ks) (fin Gs) (n + 1) = (fin K', fin G') ∧
      0 < K' ∧ K' ≤ K ∧ K ≤ Ks ∧ 0 < G' ∧ G' ≤ G ∧ G ≤ Gs := by
  refine ⟨_, _, _, _, SC_eval hφ hK hG n, SC_eval hφ hK hG (n + 1),
    (scSeq_pos hφ hK hG _).1, (scSeq_anti hφ hK hG n).1, ?_, (scSeq_pos hφ hK hG _).2,
    (scSeq_anti hφ hK hG n).2, ?_⟩
  · exact antitone_nat_of_succ_le (f := fun n => (scSeq φ Ks Gs n).1)
      (fun n => (scSeq_anti hφ hK hG n).1) (Nat.zero_le n)
  · exact antitone_nat_of_succ_le (f := fun n => (scSeq φ Ks Gs n).2)
      (fun n => (scSeq_anti hφ hK hG n).2) (Nat.zero_le n)

/-- With zero porosity the iteration returns the mineral whatever the iteration count. -/
theorem C21_SC_mineral (Ks Gs : ℝ) (n : ℕ) (hK : 0 < Ks) (hG : 0 < Gs) :
    SC (fin 0) (fin Ks) (fin Gs) n = (fin Ks, fin Gs) := by
  rw [SC_eval le_rfl hK hG]
  have : scSeq 0 Ks Gs n = (Ks, Gs) := by
    induction n with
    | zero => rfl
    | succ n ih => unfold scSeq; rw [ih]; simp [kStep, gStep]
  rw [this]

/-- One iteration gives the Swiss cheese bulk modulus. -/
theorem C21_SC_one_iteration (φ Ks Gs : ℝ) (hφ : 0 ≤ φ) (hK : 0 < Ks) (hG : 0 < Gs) :
    (SC (fin φ) (fin Ks) (fin Gs) 1).1 = (Swiss_cheese (fin Ks) (fin Gs) (fin φ)).1 := by
  rw [SC_eval hφ hK hG, Swiss_cheese_eval hK hG hφ]
  simp only [scSeq, kStep, fin_inj]
  rw [inv_eq_one_div, div_eq_div_iff (by positivity) (by positivity)]
  field

theorem scSeq_tendsto {φ Ks Gs : ℝ} (hφ : 0 ≤ φ) (hK : 0 < Ks) (hG : 0 < Gs) :
    ∃ K G : ℝ, 0 ≤ K ∧ 0 ≤ G ∧ Tendsto (fun n => (scSeq φ Ks Gs n).1) atTop (𝓝 K) ∧
      Tendsto (fun n => (scSeq φ Ks Gs n).2) atTop (𝓝 G) := by
  have a1 := antitone_nat_of_succ_le (f := fun n => (scSeq φ Ks Gs n).1)
      (fun n => (scSeq_anti hφ hK hG n).1)
  have a2 := antitone_nat_of_succ_le (f := fun n => (scSeq φ Ks Gs n).2)
      (fun n => (scSeq_anti hφ hK hG n).2)
  have b1 : BddBelow (Set.range fun n => (scSeq φ Ks Gs n).1) :=
    ⟨0, by rintro _ ⟨n, rfl⟩; exact (scSeq_pos hφ hK hG n).1.le⟩
  have b2 : BddBelow (Set.range fun n => (scSeq φ Ks Gs n).2) :=
    ⟨0, by rintro _ ⟨n, rfl⟩; exact (scSeq_pos hφ hK hG n).2.le⟩
  exact ⟨_, _, le_ciInf fun n => (scSeq_pos hφ hK hG n).1.le,
    le_ciInf fun n => (scSeq_pos hφ hK hG n).2.le, tendsto_atTop_ciInf a1 b1,
    tendsto_atTop_ciInf a2 b2⟩

/-- A positive limit solves the self-consistent equations. -/
theorem scSeq_limit {φ Ks Gs K G : ℝ} (hK : 0 < Ks) (hG : 0 < Gs) (pK : 0 < K) (pG : 0 < G)
    (hφ : 0 ≤ φ)
    (t1 : Tendsto (fun n => (scSeq φ Ks Gs n).1) atTop (𝓝 K))
    (t2 : Tendsto (fun n => (scSeq φ Ks Gs n).2) atTop (𝓝 G)) :
    SelfConsistent φ Ks Gs K G := by
  have s1 := (tendsto_add_atTop_iff_nat 1).mpr t1
  have s2 := (tendsto_add_atTop_iff_nat 1).mpr t2
  have c1 : Tendsto (fun n => kStep φ Ks (scSeq φ Ks Gs n).1 (scSeq φ Ks Gs n).2) atTop
      (𝓝 (kStep φ Ks K G)) := by
    unfold kStep
    refine Tendsto.inv₀ (tendsto_const_nhds.add (Tendsto.mul_const _ (Tendsto.add
      (tendsto_const_nhds.div t1 pK.ne')
      (tendsto_const_nhds.div (t2.const_mul 4) (by positivity))))) (by positivity)
  have c2 : Tendsto (fun n => gStep φ Gs (scSeq φ Ks Gs (n + 1)).1 (scSeq φ Ks Gs n).2) atTop
      (𝓝 (gStep φ Gs K G)) := by
    unfold gStep
    refine Tendsto.inv₀ (tendsto_const_nhds.add (Tendsto.div (Tendsto.mul_const _ (Tendsto.div
      ((s1.const_mul 15).add (t2.const_mul 20)) ((s1.const_mul 9).add (t2.const_mul 8)) ?_)) t2
      pG.ne')) (by positivity)
    positivity
  have e1 : K = kStep φ Ks K G := tendsto_nhds_unique s1 c1
  have e2 : G = gStep φ Gs K G := tendsto_nhds_unique s2 c2
  constructor
  · conv_lhs => rw [e1]
    rw [kStep, one_div, inv_inv]
  · conv_lhs => rw [e2]
    rw [gStep, one_div, inv_inv]

/-- From porosity one half on, the self-consistent equations have no positive solution. -/
theorem C21_SelfConsistent_none (φ Ks Gs K G : ℝ) (hφ : 1 / 2 ≤ φ) (hKs : 0 < Ks) (hGs : 0 < Gs)
    (hK : 0 < K) (hG : 0 < G) : ¬ SelfConsistent φ Ks Gs K G := by
  rintro ⟨e1, e2⟩
  have h1 : 3 * φ * K < 4 * G * (1 - φ) := by
    have : 0 < 1 / Ks := by positivity
    have e : (1 / K) * (1 - φ) - 3 / (4 * G) * φ = 1 / Ks := by linear_combination e1
    have : 0 < (4 * G * K) * ((1 / K) * (1 - φ) - 3 / (4 * G) * φ) := by rw [e]; positivity
    have e' : (4 * G * K) * ((1 / K) * (1 - φ) - 3 / (4 * G) * φ)
      = 4 * G * (1 - φ) - 3 * φ * K := by field
    linarith
  have h2 : (15 * K + 20 * G) * φ < 9 * K + 8 * G := by
    have : 0 < 1 / Gs := by positivity
    have e : 1 / G - (15 * K + 20 * G) / (9 * K + 8 * G) * φ / G = 1 / Gs := by linear_combination e2
    have : 0 < (9 * K + 8 * G) * G * (1 / G - (15 * K + 20 * G) / (9 * K + 8 * G) * φ / G) := by
      rw [e]; positivity
    have e' : (9 * K + 8 * G) * G * (1 / G - (15 * K + 20 * G) / (9 * K + 8 * G) * φ / G)
      = 9 * K + 8 * G - (15 * K + 20 * G) * φ := by field
    linarith
  nlinarith [mul_nonneg hK.le (sub_nonneg.mpr hφ), mul_nonneg hG.le (sub_nonneg.mpr hφ)]

/-- Lower bound of all iterates below porosity one half. -/
theorem scSeq_lower {φ Ks Gs g : ℝ} (hφ : 0 ≤ φ) (hK : 0 < Ks) (hG : 0 < Gs) (hg : 0 < g)
    (h1 : g ≤ (1 - 2 * φ) * Gs) (h2 : 4 / 3 * g ≤ (1 - 2 * φ) * Ks) (n : ℕ) :
    4 / 3 * g ≤ (scSeq φ Ks Gs n).1 ∧ g ≤ (scSeq φ Ks Gs n).2 := by
  have k : 4 / 3 * g ≤ kStep φ Ks (4 / 3 * g) g := by
    unfold kStep
    rw [le_inv_comm₀ (by positivity) (by positivity), inv_eq_one_div]
    have : 1 / Ks ≤ (1 - 2 * φ) / (4 / 3 * g) := by
      rw [div_le_div_iff₀ hK (by positivity)]; linarith
    have e : 1 / (4 / 3 * g) = (1 - 2 * φ) / (4 / 3 * g) + (1 / (4 / 3 * g) + 3 / (4 * g)) * φ := by
      field
    linarith
  have gg : g ≤ gStep φ Gs (4 / 3 * g) g := by
    unfold gStep
    rw [le_inv_comm₀ hg (by positivity), inv_eq_one_div]
    have : 1 / Gs ≤ (1 - 2 * φ) / g := by
      rw [div_le_div_iff₀ hG hg]; linarith
    have e : 1 / g = (1 - 2 * φ) / g
        + (15 * (4 / 3 * g) + 20 * g) / (9 * (4 / 3 * g) + 8 * g) * φ / g := by
      field
    linarith
  induction n with
  | zero =>
    constructor
    · exact k.trans (kStep_le hφ hK (by positivity) hg)
    · exact gg.trans (gStep_le hφ hG (by positivity) hg)
  | succ n ih =>
    have k' := k.trans (kStep_mono (φ := φ) (Ks := Ks) hφ hK (by positivity) hg ih.1 ih.2)
    exact ⟨k', gg.trans (gStep_mono hφ hG (by positivity) hg k' ih.2)⟩

/-- The iteration converges for every porosity.  Below one half the limit is a positive solution
of the self-consistent equations; from one half on both moduli tend to zero. -/
theorem C21_SC_limit (φ Ks Gs : ℝ) (hφ : 0 ≤ φ) (hK : 0 < Ks) (hG : 0 < Gs) :
    ∃ (k g : ℕ → ℝ) (K G : ℝ),
      (∀ n, SC (fin φ) (fin Ks) (fin Gs) n = (fin (k n), fin (g n))) ∧
      Tendsto k atTop (𝓝 K) ∧ Tendsto g atTop (𝓝 G) ∧
      (φ < 1 / 2 → 0 < K ∧ 0 < G ∧ SelfConsistent φ Ks Gs K G) ∧
      (1 / 2 ≤ φ → K = 0 ∧ G = 0) := by
  obtain ⟨K, G, hK0, hG0, t1, t2⟩ := scSeq_tendsto hφ hK hG
  refine ⟨fun n => (scSeq φ Ks Gs n).1, fun n => (scSeq φ Ks Gs n).2, K, G,
    fun n => SC_eval hφ hK hG n, t1, t2, fun h => ?_, fun h => ?_⟩
  · have q : 0 < 1 - 2 * φ := by linarith
    have m : 0 < min Gs (3 / 4 * Ks) := lt_min hG (by positivity)
    have low := scSeq_lower (g := (1 - 2 * φ) * min Gs (3 / 4 * Ks)) hφ hK hG (by positivity)
      (by gcongr; exact min_le_left _ _)
      (by nlinarith [min_le_right Gs (3 / 4 * Ks)])
    have pK : 0 < K := lt_of_lt_of_le (by positivity) (ge_of_tendsto' t1 fun n => (low n).1)
    have pG : 0 < G := lt_of_lt_of_le (by positivity) (ge_of_tendsto' t2 fun n => (low n).2)
    exact ⟨pK, pG, scSeq_limit hK hG pK pG hφ t1 t2⟩
  · have s1 := (tendsto_add_atTop_iff_nat 1).mpr t1
    have s2 := (tendsto_add_atTop_iff_nat 1).mpr t2
    -- bulk: K' ≤ 4 G / (3 φ)
    have b1 : 3 * φ * K ≤ 4 * G := by
      refine le_of_tendsto_of_tendsto' (s1.const_mul (3 * φ)) (t2.const_mul 4) fun n => ?_
      obtain ⟨p1, p2⟩ := scSeq_pos hφ hK hG n
      show 3 * φ * kStep φ Ks _ _ ≤ _
      unfold kStep
      rw [← div_eq_mul_inv, div_le_iff₀ (by positivity)]
      have : 4 * (scSeq φ Ks Gs n).2 * (1 / Ks + (1 / (scSeq φ Ks Gs n).1
        + 3 / (4 * (scSeq φ Ks Gs n).2)) * φ) = 4 * (scSeq φ Ks Gs n).2 * (1 / Ks
        + 1 / (scSeq φ Ks Gs n).1 * φ) + 3 * φ := by field
      rw [this]
      have : 0 ≤ 4 * (scSeq φ Ks Gs n).2 * (1 / Ks + 1 / (scSeq φ Ks Gs n).1 * φ) := by positivity
      linarith
    have b2 : G * (15 * K + 20 * G) * φ ≤ G * (9 * K + 8 * G) := by
      refine le_of_tendsto_of_tendsto' ((s2.mul ((s1.const_mul 15).add (t2.const_mul 20))).mul_const φ)
        (t2.mul ((s1.const_mul 9).add (t2.const_mul 8))) fun n => ?_
      obtain ⟨p1, p2⟩ := scSeq_pos hφ hK hG n
      obtain ⟨q1, -⟩ := scSeq_pos hφ hK hG (n + 1)
      have e : (scSeq φ Ks Gs (n + 1)).2
        = gStep φ Gs (scSeq φ Ks Gs (n + 1)).1 (scSeq φ Ks Gs n).2 := rfl
      rw [e]
      generalize (scSeq φ Ks Gs (n + 1)).1 = k at *
      generalize (scSeq φ Ks Gs n).2 = g at *
      unfold gStep
      have hd : 0 < 1 / Gs + (15 * k + 20 * g) / (9 * k + 8 * g) * φ / g := by positivity
      rw [mul_assoc, inv_mul_eq_div, div_le_iff₀ hd]
      have e2 : g * (9 * k + 8 * g) * (1 / Gs + (15 * k + 20 * g) / (9 * k + 8 * g) * φ / g)
        = g * (9 * k + 8 * g) * (1 / Gs) + (15 * k + 20 * g) * φ := by field
      rw [e2]
      have : 0 ≤ g * (9 * k + 8 * g) * (1 / Gs) := by positivity
      linarith
    by_cases pG : 0 < G
    · exfalso
      by_cases pK : 0 < K
      · exact C21_SelfConsistent_none φ Ks Gs K G h hK hG pK pG
          (scSeq_limit hK hG pK pG hφ t1 t2)
      · have z : K = 0 := le_antisymm (not_lt.mp pK) hK0
        rw [z] at b2
        nlinarith [mul_pos pG pG]
    · have z : G = 0 := le_antisymm (not_lt.mp pG) hG0
      rw [z] at b1
      exact ⟨by nlinarith, z⟩

example : (0 : ℝ) ≤ 0.3 ∧ (0.3 : ℝ) < 1 / 2 ∧ (1 / 2 : ℝ) ≤ 0.6 := by norm_num

/-! ## C22: dry cracks -/

/-- Poisson's ratio from the bulk and shear modulus. -/
noncomputable def nuOf (K G : ℝ) : ℝ := (3 * K - 2 * G) / (2 * (3 * K + G))

theorem nuOf_facts {K G : ℝ} (hK : 0 < K) (hG : 0 < G) : -1 < nuOf K G ∧ nuOf K G < 1 / 2 := by
  unfold nuOf
  constructor
  · rw [lt_div_iff₀ (by positivity)]; linarith
  · rw [div_lt_iff₀ (by positivity)]; linarith

theorem Dilute_crack_eval {K G c : ℝ} (hK : 0 < K) (hG : 0 < G)
    (h1 : 1 + 16 / 9 * (1 - nuOf K G ^ 2) / (1 - 2 * nuOf K G) * c ≠ 0)
    (h2 : 1 + 32 * (1 - nuOf K G) * (5 - nuOf K G) / (45 * (2 - nuOf K G)) * c ≠ 0) :
    Dilute_crack (fin K) (fin G) (fin c)
      = (fin (K / (1 + 16 / 9 * (1 - nuOf K G ^ 2) / (1 - 2 * nuOf K G) * c)),
         fin (G / (1 + 32 * (1 - nuOf K G) * (5 - nuOf K G) / (45 * (2 - nuOf K G)) * c))) := by
  obtain ⟨b1, b2⟩ := nuOf_facts hK hG
  have e : (3 * fin K - 2 * fin G) / (2 * (3 * fin K + fin G)) = fin (nuOf K G) := by
    fl_eval [nuOf]
  unfold Dilute_crack
  rw [e]
  generalize nuOf K G = ν at *
  have p1 : (1 - 2 * ν) ≠ 0 := by linarith
  have p2 : (45 * (2 - ν)) ≠ 0 := by linarith
  have n1 : 1 / K * (1 + 16 / 9 * (1 - ν ^ 2) / (1 - 2 * ν) * c) ≠ 0 := mul_ne_zero (by positivity) h1
  have n2 : 1 / G * (1 + 32 * (1 - ν) * (5 - ν) / (45 * (2 - ν)) * c) ≠ 0 :=
    mul_ne_zero (by positivity) h2
  fl_eval []
  refine Prod.ext ?_ ?_ <;> rw [fin_inj, mul_inv, one_div, inv_inv, ← div_eq_mul_inv]

/-- Poisson's ratio of the cracked rock in O'Connell and Budiansky's approximation. -/
noncomputable def nuEff (K G c : ℝ) : ℝ := nuOf K G * (1 - 16 * c / 9)

theorem OConnell_Budiansky_eval {K G c : ℝ} (hK : 0 < K) (hG : 0 < G)
    (h1 : 1 - 2 * nuEff K G c ≠ 0) (h2 : 2 - nuEff K G c ≠ 0) :
    OConnell_Budiansky (fin K) (fin G) (fin c)
      = (fin (K * (1 - 16 * (1 - nuEff K G c ^ 2) * c / (9 * (1 - 2 * nuEff K G c)))),
         fin (G * (1 - 32 * (1 - nuEff K G c) * (5 - nuEff K G c) * c
           / (45 * (2 - nuEff K G c))))) := by
  have e : (3 * fin K - 2 * fin G) / (6 * fin K + 2 * fin G) * (1 - 16 * fin c / 9)
      = fin (nuEff K G c) := by
    fl_eval [nuEff, nuOf]
    congr 2; ring
  unfold OConnell_Budiansky
  dsimp only
  rw [e]
  generalize nuEff K G c = ν at *
  have p1 : (9 * (1 - 2 * ν)) ≠ 0 := mul_ne_zero (by norm_num) h1
  have p2 : (45 * (2 - ν)) ≠ 0 := mul_ne_zero (by norm_num) h2
  fl_eval []

theorem nuEff_facts {K G c : ℝ} (hK : 0 < K) (hG : 0 < G) (h0 : 0 ≤ c) (h1 : c ≤ 9 / 16) :
    0 < 1 - 2 * nuEff K G c ∧ 0 < 2 - nuEff K G c := by
  obtain ⟨b1, b2⟩ := nuOf_facts hK hG
  unfold nuEff
  have s0 : 0 ≤ 1 - 16 * c / 9 := by linarith
  have s1 : 1 - 16 * c / 9 ≤ 1 := by linarith
  constructor <;> nlinarith

/-- Without cracks both models return the background. -/
theorem C22_uncracked (K G : ℝ) (hK : 0 < K) (hG : 0 < G) :
    Dilute_crack (fin K) (fin G) (fin 0) = (fin K, fin G) ∧
    OConnell_Budiansky (fin K) (fin G) (fin 0) = (fin K, fin G) := by
  obtain ⟨f1, f2⟩ := nuEff_facts (c := 0) hK hG le_rfl (by norm_num)
  rw [Dilute_crack_eval hK hG (by simp) (by simp), OConnell_Budiansky_eval hK hG f1.ne' f2.ne']
  simp

/-- At crack density 9/16 the self-consistent dry rock loses all stiffness. -/
theorem C22_OConnell_Budiansky_threshold (K G : ℝ) (hK : 0 < K) (hG : 0 < G) :
    OConnell_Budiansky (fin K) (fin G) (fin (9 / 16)) = (fin 0, fin 0) := by
  obtain ⟨f1, f2⟩ := nuEff_facts (c := 9 / 16) hK hG (by norm_num) le_rfl
  rw [OConnell_Budiansky_eval hK hG f1.ne' f2.ne']
  have : nuEff K G (9 / 16) = 0 := by unfold nuEff; norm_num
  rw [this]; norm_num

/-- Before that density both moduli are positive and at most those of the background. -/
theorem C22_OConnell_Budiansky_bounds (K0 G0 c : ℝ) (hK : 0 < K0) (hG : 0 < G0) (h0 : 0 ≤ c)
    (h1 : c < 9 / 16) :
    ∃ K G : ℝ, OConnell_Budiansky (fin K0) (fin G0) (fin c) = (fin K, fin G) ∧
      0 < K ∧ K ≤ K0 ∧ 0 < G ∧ G ≤ G0 := by
  obtain ⟨f1, f2⟩ := nuEff_facts hK hG h0 h1.le
  obtain ⟨b1, b2⟩ := nuOf_facts hK hG
  refine ⟨_, _, OConnell_Budiansky_eval hK hG f1.ne' f2.ne', ?_⟩
  unfold nuEff at *
  generalize nuOf K0 G0 = ν at *
  obtain ⟨s, rfl⟩ : ∃ s, c = 9 / 16 * (1 - s) := ⟨1 - 16 * c / 9, by ring⟩
  have hs : 1 - 16 * (9 / 16 * (1 - s)) / 9 = s := by ring
  rw [hs] at f1 f2 ⊢
  have s0 : 0 < s := by linarith
  have s1 : s ≤ 1 := by linarith
  have q1 : 0 < 1 - ν * s := by nlinarith
  have q2 : 0 < 1 + ν * s := by nlinarith
  have q3 : 0 < 5 - ν * s := by nlinarith
  have d1 : 0 ≤ 16 * (1 - (ν * s) ^ 2) * (9 / 16 * (1 - s)) / (9 * (1 - 2 * (ν * s))) := by
    have : 1 - (ν * s) ^ 2 = (1 - ν * s) * (1 + ν * s) := by ring
    rw [this]
    have : 0 ≤ 1 - s := by linarith
    positivity
  have d2 : 0 ≤ 32 * (1 - ν * s) * (5 - ν * s) * (9 / 16 * (1 - s)) / (45 * (2 - ν * s)) := by
    have : 0 ≤ 1 - s := by linarith
    positivity
  have l1 : 16 * (1 - (ν * s) ^ 2) * (9 / 16 * (1 - s)) / (9 * (1 - 2 * (ν * s))) < 1 := by
    rw [div_lt_one (by positivity)]
    have : 0 < 9 * s * (1 - 2 * ν + ν ^ 2 * s * (1 - s)) := by
      have : 0 ≤ ν ^ 2 * s * (1 - s) := mul_nonneg (by positivity) (by linarith)
      have : 0 < 1 - 2 * ν + ν ^ 2 * s * (1 - s) := by linarith
      positivity
    linarith
  have l2 : 32 * (1 - ν * s) * (5 - ν * s) * (9 / 16 * (1 - s)) / (45 * (2 - ν * s)) < 1 := by
    rw [div_lt_one (by positivity)]
    have t : 2 * ((1 - ν * s) * (5 - ν * s)) * (1 - s) < 5 * (2 - ν * s) := by
      rcases le_total 0 ν with h | h
      · have : 0 ≤ ν * s := by positivity
        have a : 2 * ((1 - ν * s) * (5 - ν * s)) ≤ 5 * (2 - ν * s) := by nlinarith
        have p : 0 < 5 * (2 - ν * s) := by linarith
        nlinarith
      · obtain ⟨m, rfl⟩ : ∃ m, ν = -m := ⟨-ν, by ring⟩
        have m0 : 0 ≤ m := by linarith
        have m1 : m < 1 := by linarith
        have : 0 < s * (10 - 7 * m + s * m * (12 - 2 * m) + 2 * m ^ 2 * s ^ 2) := by
          have : 0 ≤ s * m * (12 - 2 * m) := mul_nonneg (by positivity) (by linarith)
          have : 0 < 10 - 7 * m + s * m * (12 - 2 * m) + 2 * m ^ 2 * s ^ 2 := by
            have : 0 ≤ 2 * m ^ 2 * s ^ 2 := by positivity
            linarith
          positivity
        linarith
    linarith
  refine ⟨mul_pos hK (by linarith), mul_le_of_le_one_right hK.le (by linarith),
    mul_pos hG (by linarith), mul_le_of_le_one_right hG.le (by linarith)⟩

/-- The dilute model stays positive and decreases with crack density. -/
theorem C22_Dilute_crack_decreasing (K0 G0 c d : ℝ) (hK : 0 < K0) (hG : 0 < G0) (h0 : 0 ≤ c)
    (h : c < d) :
    ∃ K G K' G' : ℝ, Dilute_crack (fin K0) (fin G0) (fin c) = (fin K, fin G) ∧
      Dilute_crack (fin K0) (fin G0) (fin d) = (fin K', fin G') ∧
      0 < K' ∧ K' < K ∧ K ≤ K0 ∧ 0 < G' ∧ G' < G ∧ G ≤ G0 := by
  obtain ⟨b1, b2⟩ := nuOf_facts hK hG
  have q1 : 0 < 16 / 9 * (1 - nuOf K0 G0 ^ 2) / (1 - 2 * nuOf K0 G0) := by
    have : 0 < 1 - nuOf K0 G0 ^ 2 := by nlinarith
    have : 0 < 1 - 2 * nuOf K0 G0 := by linarith
    positivity
  have q2 : 0 < 32 * (1 - nuOf K0 G0) * (5 - nuOf K0 G0) / (45 * (2 - nuOf K0 G0)) := by
    have : 0 < 1 - nuOf K0 G0 := by linarith
    have : 0 < 5 - nuOf K0 G0 := by linarith
    have : 0 < 2 - nuOf K0 G0 := by linarith
    positivity
  have hd : 0 < d := by linarith
  refine ⟨_, _, _, _, Dilute_crack_eval hK hG (by positivity) (by positivity),
    Dilute_crack_eval hK hG (by positivity) (by positivity), ?_⟩
  generalize 16 / 9 * (1 - nuOf K0 G0 ^ 2) / (1 - 2 * nuOf K0 G0) = u at *
  generalize 32 * (1 - nuOf K0 G0) * (5 - nuOf K0 G0) / (45 * (2 - nuOf K0 G0)) = v at *
  refine ⟨by positivity, by gcongr, div_le_self hK.le (by nlinarith), by positivity, by gcongr,
    div_le_self hG.le (by nlinarith)⟩

/-- Both models have the same first derivative at zero crack density. -/
theorem C22_same_slope (K0 G0 : ℝ) (hK : 0 < K0) (hG : 0 < G0) :
    ∃ (kD gD kO gO : ℝ → ℝ) (k' g' : ℝ),
      (∀ᶠ c in 𝓝 0, Dilute_crack (fin K0) (fin G0) (fin c) = (fin (kD c), fin (gD c))) ∧
      (∀ᶠ c in 𝓝 0, OConnell_Budiansky (fin K0) (fin G0) (fin c) = (fin (kO c), fin (gO c))) ∧
      HasDerivAt kD k' 0 ∧ HasDerivAt kO k' 0 ∧ HasDerivAt gD g' 0 ∧ HasDerivAt gO g' 0 ∧
      k' < 0 ∧ g' < 0 := by
  obtain ⟨b1, b2⟩ := nuOf_facts hK hG
  have n1 : 0 < 1 - nuOf K0 G0 := by linarith
  have n2 : 0 < 1 - 2 * nuOf K0 G0 := by linarith
  have n3 : 0 < 2 - nuOf K0 G0 := by linarith
  have n4 : 0 < 5 - nuOf K0 G0 := by linarith
  have n5 : 0 < 1 - nuOf K0 G0 ^ 2 := by nlinarith
  have e0 : nuEff K0 G0 0 = nuOf K0 G0 := by simp [nuEff]
  have dn : HasDerivAt (fun c => nuEff K0 G0 c) (nuOf K0 G0 * (-(16 / 9))) 0 := by
    unfold nuEff
    have := ((((hasDerivAt_id (0 : ℝ)).const_mul 16).div_const 9).const_sub 1).const_mul (nuOf K0 G0)
    exact this.congr_deriv (by ring)
  have cn : ContinuousAt (fun c => nuEff K0 G0 c) 0 := dn.continuousAt
  refine ⟨fun c => K0 / (1 + 16 / 9 * (1 - nuOf K0 G0 ^ 2) / (1 - 2 * nuOf K0 G0) * c),
    fun c => G0 / (1 + 32 * (1 - nuOf K0 G0) * (5 - nuOf K0 G0) / (45 * (2 - nuOf K0 G0)) * c),
    fun c => K0 * (1 - 16 * (1 - nuEff K0 G0 c ^ 2) * c / (9 * (1 - 2 * nuEff K0 G0 c))),
    fun c => G0 * (1 - 32 * (1 - nuEff K0 G0 c) * (5 - nuEff K0 G0 c) * c
           / (45 * (2 - nuEff K0 G0 c))),
    -(K0 * (16 / 9 * (1 - nuOf K0 G0 ^ 2) / (1 - 2 * nuOf K0 G0))),
    -(G0 * (32 * (1 - nuOf K0 G0) * (5 - nuOf K0 G0) / (45 * (2 - nuOf K0 G0)))),
    ?_, ?_, ?_, ?_, ?_, ?_, ?_, ?_⟩
  · generalize hu : 16 / 9 * (1 - nuOf K0 G0 ^ 2) / (1 - 2 * nuOf K0 G0) = u
    generalize hv : 32 * (1 - nuOf K0 G0) * (5 - nuOf K0 G0) / (45 * (2 - nuOf K0 G0)) = v
    have a1 : ∀ᶠ c : ℝ in 𝓝 0, 1 + u * c ≠ 0 :=
      ContinuousAt.eventually_ne (g := fun c => 1 + u * c) (by fun_prop) (by simp)
    have a2 : ∀ᶠ c : ℝ in 𝓝 0, 1 + v * c ≠ 0 :=
      ContinuousAt.eventually_ne (g := fun c => 1 + v * c) (by fun_prop) (by simp)
    filter_upwards [a1, a2] with c h1 h2
    rw [Dilute_crack_eval hK hG (by rw [hu]; exact h1) (by rw [hv]; exact h2), hu, hv]
  · have a1 : ∀ᶠ c : ℝ in 𝓝 0, 1 - 2 * nuEff K0 G0 c ≠ 0 :=
      ContinuousAt.eventually_ne (g := fun c => 1 - 2 * nuEff K0 G0 c) (by fun_prop)
        (by rw [e0]; exact n2.ne')
    have a2 : ∀ᶠ c : ℝ in 𝓝 0, 2 - nuEff K0 G0 c ≠ 0 :=
      ContinuousAt.eventually_ne (g := fun c => 2 - nuEff K0 G0 c) (by fun_prop)
        (by rw [e0]; exact n3.ne')
    filter_upwards [a1, a2] with c h1 h2
    exact OConnell_Budiansky_eval hK hG h1 h2
  · generalize 16 / 9 * (1 - nuOf K0 G0 ^ 2) / (1 - 2 * nuOf K0 G0) = u
    have := (hasDerivAt_const (0 : ℝ) K0).div (((hasDerivAt_id (0 : ℝ)).const_mul u).const_add 1)
      (by simp)
    exact this.congr_deriv (by simp)
  · have h1 := ((dn.pow 2).const_sub 1).const_mul 16
    have h2 := h1.mul (hasDerivAt_id (0 : ℝ))
    have h3 := h2.div ((dn.const_mul 2).const_sub 1 |>.const_mul 9) (by rw [e0]; positivity)
    refine ((h3.const_sub 1).const_mul K0).congr_deriv ?_
    simp only [e0, Pi.mul_apply, id, mul_zero, zero_mul, Pi.pow_apply, zero_add, sub_zero]
    have n2' : 1 - nuOf K0 G0 * 2 ≠ 0 := by linarith
    field
  · generalize 32 * (1 - nuOf K0 G0) * (5 - nuOf K0 G0) / (45 * (2 - nuOf K0 G0)) = u
    have := (hasDerivAt_const (0 : ℝ) G0).div (((hasDerivAt_id (0 : ℝ)).const_mul u).const_add 1)
      (by simp)
    exact this.congr_deriv (by simp)
  · have h1 := ((dn.const_sub 1).const_mul 32).mul (dn.const_sub 5)
    have h2 := h1.mul (hasDerivAt_id (0 : ℝ))
    have h3 := h2.div ((dn.const_sub 2).const_mul 45) (by rw [e0]; positivity)
    refine ((h3.const_sub 1).const_mul G0).congr_deriv ?_
    simp only [e0, Pi.mul_apply, id, mul_zero, zero_mul]
    field
  · have : 0 < K0 * (16 / 9 * (1 - nuOf K0 G0 ^ 2) / (1 - 2 * nuOf K0 G0)) := by positivity
    linarith
  · have : 0 < G0 * (32 * (1 - nuOf K0 G0) * (5 - nuOf K0 G0) / (45 * (2 - nuOf K0 G0))) := by
      positivity
    linarith

example : (0 : ℝ) < 37 ∧ (0 : ℝ) ≤ 0.1 ∧ (0.1 : ℝ) < 9 / 16 ∧ (0.1 : ℝ) < 0.2 := by norm_num

/-! ## C23: dilute spherical inclusions -/

/-- `EM.SC_dilute` returns ratios to the matrix moduli. -/
theorem SC_dilute_S {K G : ℝ} (hK : 0 < K) (hG : 0 < G) :
    (1 : Fl) / 3 * (1 + 0.5 * (3 * fin K - 2 * fin G) / (3 * fin K + fin G))
        / (1 - 0.5 * (3 * fin K - 2 * fin G) / (3 * fin K + fin G))
      = fin (3 * K / (3 * K + 4 * G)) ∧
    (2 : Fl) / 15 * (4 - 5 * (0.5 * (3 * fin K - 2 * fin G) / (3 * fin K + fin G)))
        / (1 - 0.5 * (3 * fin K - 2 * fin G) / (3 * fin K + fin G))
      = fin (6 * (K + 2 * G) / (5 * (3 * K + 4 * G))) := by
  have n : (1 : ℝ) - 0.5 * (3 * K - 2 * G) / (3 * K + G) = (3 * K + 4 * G) / (2 * (3 * K + G)) := by
    have : (0.5 : ℝ) = 1 / 2 := by norm_num
    rw [this]; field
  have n0 : (1 : ℝ) - 0.5 * (3 * K - 2 * G) / (3 * K + G) ≠ 0 := by rw [n]; positivity
  have c : (0.5 : ℝ) = 1 / 2 := by norm_num
  constructor
  · fl_eval []
    rw [n, c, fin_inj]
    field
  · fl_eval []
    rw [n, c, fin_inj]
    field

/-- Denominator of the polarisation term. -/
theorem SC_dilute_den {M Mi S : ℝ} (h : M ≠ Mi) :
    M / (M - Mi) - S = (M * (1 - S) + Mi * S) / (M - Mi) := by
  have : M - Mi ≠ 0 := sub_ne_zero.mpr h
  field

/-- The two ratios, written with the stress (or strain) concentration `x` of each modulus. -/
theorem SC_dilute_eval {Km Gm Ki Gi f : ℝ} (hK : 0 < Km) (hG : 0 < Gm) (hKi : 0 ≤ Ki)
    (hGi : 0 ≤ Gi) (h1 : Ki < Km) (h2 : Gi < Gm) (hf : 0 ≤ f) :
    ∃ x y : ℝ, 0 < x ∧ 0 < y ∧
      x = (Km - Ki) * (3 * Km + 4 * Gm) / (4 * Km * Gm + 3 * Km * Ki) ∧
      y = (Gm - Gi) * (5 * (3 * Km + 4 * Gm)) / (Gm * (9 * Km + 8 * Gm) + Gi * (6 * (Km + 2 * Gm))) ∧
      SC_dilute (fin Km) (fin Gm) (fin Ki) (fin Gi) (fin f) "stress"
        = .ok (fin (1 + f * x)⁻¹, fin (1 + f * y)⁻¹) ∧
      SC_dilute (fin Km) (fin Gm) (fin Ki) (fin Gi) (fin f) "strain"
        = .ok (fin (1 - f * x), fin (1 - f * y)) := by
  have d1 : 0 < Km - Ki := by linarith
  have d2 : 0 < Gm - Gi := by linarith
  have e1 : Km / (Km - Ki) - 3 * Km / (3 * Km + 4 * Gm)
      = (4 * Km * Gm + 3 * Km * Ki) / ((Km - Ki) * (3 * Km + 4 * Gm)) := by field
  have e2 : Gm / (Gm - Gi) - 6 * (Km + 2 * Gm) / (5 * (3 * Km + 4 * Gm))
      = (Gm * (9 * Km + 8 * Gm) + Gi * (6 * (Km + 2 * Gm)))
        / ((Gm - Gi) * (5 * (3 * Km + 4 * Gm))) := by field
  have p1 : (0 : ℝ) < (4 * Km * Gm + 3 * Km * Ki) / ((Km - Ki) * (3 * Km + 4 * Gm)) := by positivity
  have p2 : (0 : ℝ) < (Gm * (9 * Km + 8 * Gm) + Gi * (6 * (Km + 2 * Gm)))
        / ((Gm - Gi) * (5 * (3 * Km + 4 * Gm))) := by positivity
  have k1 : inv (fin Km / (fin Km - fin Ki) - fin (3 * Km / (3 * Km + 4 * Gm)))
      = fin ((Km - Ki) * (3 * Km + 4 * Gm) / (4 * Km * Gm + 3 * Km * Ki)) := by
    have : Km / (Km - Ki) - 3 * Km / (3 * Km + 4 * Gm) ≠ 0 := by rw [e1]; positivity
    fl_eval []
    rw [e1, inv_div]
  have k2 : inv (fin Gm / (fin Gm - fin Gi) - fin (6 * (Km + 2 * Gm) / (5 * (3 * Km + 4 * Gm))))
      = fin ((Gm - Gi) * (5 * (3 * Km + 4 * Gm))
        / (Gm * (9 * Km + 8 * Gm) + Gi * (6 * (Km + 2 * Gm)))) := by
    have : Gm / (Gm - Gi) - 6 * (Km + 2 * Gm) / (5 * (3 * Km + 4 * Gm)) ≠ 0 := by
      rw [e2]; positivity
    fl_eval []
    rw [e2, inv_div]
  have q1 : 0 < (Km - Ki) * (3 * Km + 4 * Gm) / (4 * Km * Gm + 3 * Km * Ki) := by positivity
  have q2 : 0 < (Gm - Gi) * (5 * (3 * Km + 4 * Gm))
        / (Gm * (9 * Km + 8 * Gm) + Gi * (6 * (Km + 2 * Gm))) := by positivity
  obtain ⟨s1, s2⟩ := SC_dilute_S hK hG
  refine ⟨_, _, q1, q2, rfl, rfl, ?_, ?_⟩
  · unfold SC_dilute
    dsimp only
    rw [s1, s2, k1, k2]
    generalize (Km - Ki) * (3 * Km + 4 * Gm) / (4 * Km * Gm + 3 * Km * Ki) = x at *
    generalize (Gm - Gi) * (5 * (3 * Km + 4 * Gm))
        / (Gm * (9 * Km + 8 * Gm) + Gi * (6 * (Km + 2 * Gm))) = y at *
    rw [if_pos rfl]
    fl_eval []
  · unfold SC_dilute
    dsimp only
    rw [s1, s2, k1, k2]
    generalize (Km - Ki) * (3 * Km + 4 * Gm) / (4 * Km * Gm + 3 * Km * Ki) = x at *
    generalize (Gm - Gi) * (5 * (3 * Km + 4 * Gm))
        / (Gm * (9 * Km + 8 * Gm) + Gi * (6 * (Km + 2 * Gm))) = y at *
    rw [if_neg (by decide), if_pos rfl]
    fl_eval []

/-- With empty pores, the stress form times the matrix moduli is the Swiss cheese model. -/
theorem C23_stress_Swiss_cheese (Km Gm f : ℝ) (hK : 0 < Km) (hG : 0 < Gm) (hf : 0 ≤ f) :
    ∃ k g : ℝ, SC_dilute (fin Km) (fin Gm) (fin 0) (fin 0) (fin f) "stress" = .ok (fin k, fin g) ∧
      Swiss_cheese (fin Km) (fin Gm) (fin f) = (fin (Km * k), fin (Gm * g)) := by
  obtain ⟨x, y, hx, hy, ex, ey, h, -⟩ := SC_dilute_eval hK hG le_rfl le_rfl hK hG hf
  refine ⟨_, _, h, ?_⟩
  have ex' : x = 1 + 3 * Km / (4 * Gm) := by rw [ex]; field
  have ey' : y = (15 * Km + 20 * Gm) / (9 * Km + 8 * Gm) := by rw [ey]; field
  rw [Swiss_cheese_eval hK hG hf, ← ex', ← ey']
  simp only [div_eq_mul_inv, mul_comm f]

/-- For inclusions softer than the matrix, the strain form is at most the stress form, both at
most one: they bound ratios to the matrix moduli. -/
theorem C23_strain_le_stress (Km Gm Ki Gi f : ℝ) (hK : 0 < Km) (hG : 0 < Gm) (hKi : 0 ≤ Ki)
    (hGi : 0 ≤ Gi) (h1 : Ki < Km) (h2 : Gi < Gm) (hf : 0 ≤ f) :
    ∃ k g k' g' : ℝ,
      SC_dilute (fin Km) (fin Gm) (fin Ki) (fin Gi) (fin f) "strain" = .ok (fin k, fin g) ∧
      SC_dilute (fin Km) (fin Gm) (fin Ki) (fin Gi) (fin f) "stress" = .ok (fin k', fin g') ∧
      k ≤ k' ∧ g ≤ g' ∧ k' ≤ 1 ∧ g' ≤ 1 := by
  obtain ⟨x, y, hx, hy, -, -, h, h'⟩ := SC_dilute_eval hK hG hKi hGi h1 h2 hf
  refine ⟨_, _, _, _, h', h, ?_, ?_, ?_, ?_⟩
  · rw [← one_div, le_div_iff₀ (by positivity)]; nlinarith [sq_nonneg (f * x)]
  · rw [← one_div, le_div_iff₀ (by positivity)]; nlinarith [sq_nonneg (f * y)]
  · exact inv_le_one_of_one_le₀ (by nlinarith [mul_nonneg hf hx.le])
  · exact inv_le_one_of_one_le₀ (by nlinarith [mul_nonneg hf hy.le])

/-- At zero concentration the returned pair is `(1, 1)` whatever the matrix: the documented
"effective moduli" are ratios to the matrix moduli. -/
theorem C23_returns_ratios (Km Gm Ki Gi : ℝ) (hK : 0 < Km) (hG : 0 < Gm) (hKi : 0 ≤ Ki)
    (hGi : 0 ≤ Gi) (h1 : Ki < Km) (h2 : Gi < Gm) (mode : String)
    (hm : mode = "stress" ∨ mode = "strain") :
    SC_dilute (fin Km) (fin Gm) (fin Ki) (fin Gi) (fin 0) mode = .ok (fin 1, fin 1) := by
  obtain ⟨x, y, -, -, -, -, h, h'⟩ := SC_dilute_eval (f := 0) hK hG hKi hGi h1 h2 le_rfl
  rcases hm with rfl | rfl
  · rw [h]; simp
  · rw [h']; simp

/-- Any other mode raises. -/
theorem C23_unknown_mode (Km Gm Ki Gi f : Fl) (mode : String) (h1 : mode ≠ "stress")
    (h2 : mode ≠ "strain") : SC_dilute Km Gm Ki Gi f mode = .error .UnboundLocalError := by
  unfold SC_dilute
  rw [if_neg h1, if_neg h2]

example : (0 : ℝ) < 37 ∧ (0 : ℝ) ≤ 2.25 ∧ (2.25 : ℝ) < 37 ∧ (0 : ℝ) < 44 ∧ (0 : ℝ) ≤ 0.2 := by
  norm_num

/-! ## C24: the self-consistent iteration with inclusions -/

theorem SC_flex_step_eval {f Km Ki Gm Gi K G : ℝ} (hKm : 0 < Km) (hGm : 0 < Gm) (hK : 0 < K)
    (hG : 0 < G) (hKi : 0 ≤ Ki) (hGi : 0 ≤ Gi) (h1 : K ≠ Ki) (h2 : G ≠ Gi) :
    SC_flex_step (fin f) (fin Km) (fin Ki) (fin Gm) (fin Gi) (fin K, fin G)
      = (fin ((1 - f * ((Km - Ki) / Km * ((K * (3 * K + 4 * G)) / (4 * K * G + 3 * K * Ki)))) * Km),
         fin ((1 - f * ((Gm - Gi) / Gm * ((G * (5 * (3 * K + 4 * G)))
           / (G * (9 * K + 8 * G) + Gi * (6 * (K + 2 * G)))))) * Gm)) := by
  have d1 : K - Ki ≠ 0 := sub_ne_zero.mpr h1
  have d2 : G - Gi ≠ 0 := sub_ne_zero.mpr h2
  have e1 : K / (K - Ki) - 3 * K / (3 * K + 4 * G)
      = (4 * K * G + 3 * K * Ki) / ((K - Ki) * (3 * K + 4 * G)) := by field
  have e2 : G / (G - Gi) - 6 * (K + 2 * G) / (5 * (3 * K + 4 * G))
      = (G * (9 * K + 8 * G) + Gi * (6 * (K + 2 * G))) / ((G - Gi) * (5 * (3 * K + 4 * G))) := by
    field
  have k1 : K / (K - Ki) - 3 * K / (3 * K + 4 * G) ≠ 0 := by
    rw [e1]; exact div_ne_zero (by positivity) (mul_ne_zero d1 (by positivity))
  have k2 : G / (G - Gi) - 6 * (K + 2 * G) / (5 * (3 * K + 4 * G)) ≠ 0 := by
    rw [e2]; exact div_ne_zero (by positivity) (mul_ne_zero d2 (by positivity))
  obtain ⟨s1, s2⟩ := SC_dilute_S hK hG
  have n1 : Km * (K - Ki) ≠ 0 := mul_ne_zero hKm.ne' d1
  have n2 : Gm * (G - Gi) ≠ 0 := mul_ne_zero hGm.ne' d2
  unfold SC_flex_step
  dsimp only
  rw [s1, s2]
  fl_eval []
  rw [e1, e2, inv_div, inv_div]
  have p1 : 0 < 4 * K * G + 3 * K * Ki := by positivity
  have p2 : 0 < G * (9 * K + 8 * G) + Gi * (6 * (K + 2 * G)) := by positivity
  refine Prod.ext ?_ ?_ <;> rw [fin_inj] <;> congr 2
  · generalize 4 * K * G + 3 * K * Ki = D at *
    generalize 3 * K + 4 * G = E at *
    field
  · generalize G * (9 * K + 8 * G) + Gi * (6 * (K + 2 * G)) = D at *
    generalize 5 * (3 * K + 4 * G) = E at *
    field

/-- Zero concentration returns the matrix after one or more iterations. -/
theorem C24_SC_flex_matrix (Km Ki Gm Gi : ℝ) (n : ℕ) (hK : 0 < Km) (hG : 0 < Gm) (hKi : 0 ≤ Ki)
    (hGi : 0 ≤ Gi) (h1 : Km ≠ Ki) (h2 : Gm ≠ Gi) (h3 : Km ≠ Gi) :
    SC_flex (fin 0) (n + 1) (fin Km) (fin Ki) (fin Gm) (fin Gi) = (fin Km, fin Gm) := by
  induction n with
  | zero =>
    show SC_flex_step _ _ _ _ _ (fin Km, fin Km) = _
    rw [SC_flex_step_eval hK hG hK hK hKi hGi h1 h3]; simp
  | succ n ih =>
    unfold SC_flex
    rw [ih, SC_flex_step_eval hK hG hK hG hKi hGi h1 h2]; simp

/-- With no iteration the shear modulus returned is the bulk modulus of the matrix. -/
theorem C24_SC_flex_start (f Km Ki Gm Gi : Fl) : SC_flex f 0 Km Ki Gm Gi = (Km, Km) := rfl

/-- Hence "zero concentration gives the matrix for any iteration count" fails. -/
theorem C24_SC_flex_start_violated : ¬ ∀ (Km Ki Gm Gi : ℝ) (n : ℕ), 0 < Km → 0 < Gm →
    0 ≤ Ki → 0 ≤ Gi → Ki < Km → Gi < Gm →
    SC_flex (fin 0) n (fin Km) (fin Ki) (fin Gm) (fin Gi) = (fin Km, fin Gm) := by
  intro h
  have := h 37 0 44 0 0 (by norm_num) (by norm_num) (by norm_num) (by norm_num) (by norm_num)
    (by norm_num)
  rw [C24_SC_flex_start] at this
  simp only [Prod.mk.injEq, fin_inj] at this
  norm_num at this

/-- If the shear modulus of the inclusion equals the bulk modulus of the matrix, the wrong start
makes the first iteration divide by zero. -/
theorem C24_SC_flex_start_division (f Km Ki Gm : ℝ) (n : ℕ) :
    (SC_flex (fin f) (n + 1) (fin Km) (fin Ki) (fin Gm) (fin Km)).2 = bad := by
  have step : ∀ s : Fl × Fl, s.2 = fin Km ∨ s.2 = bad →
      (SC_flex_step (fin f) (fin Km) (fin Ki) (fin Gm) (fin Km) s).2 = bad := by
    rintro ⟨a, b⟩ (h | h)
    · have h : b = fin Km := h
      subst h
      unfold SC_flex_step
      simp only [fl, sub_self, mul_zero, fl_div_zero]
    · have h : b = bad := h
      subst h
      unfold SC_flex_step
      simp only [fl]
  induction n with
  | zero => exact step _ (Or.inl rfl)
  | succ n ih => exact step _ (Or.inr ih)

/-- With empty inclusions, its positive fixed points are the solutions of the self-consistent
equations, which are the fixed points of `EM.SC`. -/
theorem C24_SC_flex_fixed_points (φ Km Gm K G : ℝ) (hφ : 0 ≤ φ) (hKm : 0 < Km) (hGm : 0 < Gm)
    (hK : 0 < K) (hG : 0 < G) :
    (SC_flex_step (fin φ) (fin Km) (fin 0) (fin Gm) (fin 0) (fin K, fin G) = (fin K, fin G)
      ↔ SelfConsistent φ Km Gm K G) ∧
    (SC_step (fin φ) (fin Km) (fin Gm) (fin K, fin G) = (fin K, fin G)
      ↔ SelfConsistent φ Km Gm K G) := by
  constructor
  · rw [SC_flex_step_eval hKm hGm hK hG le_rfl le_rfl hK.ne' hG.ne']
    simp only [Prod.mk.injEq, fin_inj, SelfConsistent, zero_mul, mul_zero, add_zero, sub_zero]
    refine and_congr ?_ ?_
    · have e : (1 - φ * (Km / Km * (K * (3 * K + 4 * G) / (4 * K * G)))) * Km
        = Km - φ * Km * ((3 * K + 4 * G) / (4 * G)) := by field
      have e' : 1 / K - (1 / Km + (1 / K + 3 / (4 * G)) * φ)
        = (Km - φ * Km * ((3 * K + 4 * G) / (4 * G)) - K) / (K * Km) := by field
      rw [e, ← sub_eq_zero, ← sub_eq_zero (a := 1 / K), e', div_eq_zero_iff]
      simp [hK.ne', hKm.ne']
    · have p : 0 < 9 * K + 8 * G := by positivity
      have e : (1 - φ * (Gm / Gm * (G * (5 * (3 * K + 4 * G)) / (G * (9 * K + 8 * G))))) * Gm
        = Gm - φ * Gm * ((15 * K + 20 * G) / (9 * K + 8 * G)) := by field
      have e' : 1 / G - (1 / Gm + (15 * K + 20 * G) / (9 * K + 8 * G) * φ / G)
        = (Gm - φ * Gm * ((15 * K + 20 * G) / (9 * K + 8 * G)) - G) / (G * Gm) := by field
      rw [e, ← sub_eq_zero, ← sub_eq_zero (a := 1 / G), e', div_eq_zero_iff]
      simp [hG.ne', hGm.ne']
  · have n1 : (0 : ℝ) < 1 / Km + (1 / K + 3 / (4 * G)) * φ := by positivity
    have ek : inv (1 / fin Km + (1 / fin K + 3 / (4 * fin G)) * fin φ)
        = fin (kStep φ Km K G) := by
      fl_eval [kStep]
    have q := kStep_pos hφ hKm hK hG
    have ev : SC_step (fin φ) (fin Km) (fin Gm) (fin K, fin G)
        = (fin (kStep φ Km K G), fin (gStep φ Gm (kStep φ Km K G) G)) := by
      unfold SC_step
      dsimp only
      rw [ek]
      generalize kStep φ Km K G = K2 at *
      have n2 : (0 : ℝ) < 1 / Gm + (15 * K2 + 20 * G) / (9 * K2 + 8 * G) * φ / G := by positivity
      fl_eval [gStep]
    rw [ev, Prod.mk.injEq, fin_inj, fin_inj]
    have iv : ∀ a b : ℝ, a⁻¹ = b ↔ 1 / b = a := fun a b => by
      rw [one_div]; constructor
      · rintro rfl; exact inv_inv a
      · rintro rfl; exact inv_inv b
    constructor
    · rintro ⟨e1, e2⟩
      rw [e1] at e2
      exact ⟨(iv _ _).mp e1, (iv _ _).mp e2⟩
    · rintro ⟨e1, e2⟩
      have e1' : kStep φ Km K G = K := (iv _ _).mpr e1
      rw [e1']
      exact ⟨rfl, (iv _ _).mpr e2⟩

example : (37 : ℝ) ≠ 0 ∧ (44 : ℝ) ≠ 0 ∧ (0 : ℝ) ≤ 0.2 := by norm_num

end RockPhy.Props
