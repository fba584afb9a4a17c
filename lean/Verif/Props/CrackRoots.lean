import Verif.Props.CrackLimit
import Verif.Lemmas.Miranda

/-! # Property C84: the equations for fluid filled cracks have a solution -/

namespace RockPhy.Props

open Fl RockPhy.EM RockPhy.Spec Set

/-- The two equations cleared of the denominator of the first one. -/
theorem OC_R_cleared {crd ν0 w : ℝ} (hc : 0 ≤ crd) (hc' : crd < 45 / 32) (h0 : -(1 / 3) ≤ ν0)
    (h1 : ν0 < 1 / 2) (hw : 0 ≤ w) :
    ∃ ν D : ℝ, -1 < ν ∧ ν < 1 / 2 ∧ 0 < D ∧ D ≤ 1 ∧
      45 / 16 * (ν0 - ν) * (2 - ν)
        = crd * (1 - ν ^ 2) * (D * (1 + 3 * ν0) * (2 - ν) - 2 * (1 - 2 * ν0)) ∧
      crd * D ^ 2 - (crd + 9 / 16 * (1 - 2 * ν) / (1 - ν0 ^ 2) + 3 * w / (4 * Real.pi)) * D
        + 9 / 16 * (1 - 2 * ν) / (1 - ν0 ^ 2) = 0 := by
  have pp := Real.pi_pos
  have s0 : 0 < 1 - ν0 ^ 2 := by nlinarith
  obtain ⟨δ, d0, d1, d2⟩ : ∃ δ : ℝ, 0 < δ ∧ δ < 1 / 4 ∧
      ∀ D ∈ Icc (0 : ℝ) 1, 45 / 16 * (ν0 - (1 / 2 - δ)) * (2 - (1 / 2 - δ))
        - crd * (1 - (1 / 2 - δ) ^ 2) * (D * (1 + 3 * ν0) * (2 - (1 / 2 - δ)) - 2 * (1 - 2 * ν0))
        < 0 := by
    refine ⟨min (1 / 8) ((1 / 2 - ν0) * (45 / 32 - crd) / 100), ?_, ?_, ?_⟩
    · exact lt_min (by norm_num) (by
        have : 0 < 1 / 2 - ν0 := by linarith
        have : 0 < 45 / 32 - crd := by linarith
        positivity)
    · exact (min_le_left _ _).trans_lt (by norm_num)
    · have hm : 0 < 1 / 2 - ν0 := by linarith
      have hk : 0 < 45 / 32 - crd := by linarith
      have l0 : 0 < min (1 / 8) ((1 / 2 - ν0) * (45 / 32 - crd) / 100) :=
        lt_min (by norm_num) (by positivity)
      have l1 := min_le_left (1 / 8) ((1 / 2 - ν0) * (45 / 32 - crd) / 100)
      have l2 := min_le_right (1 / 8) ((1 / 2 - ν0) * (45 / 32 - crd) / 100)
      generalize min (1 / 8) ((1 / 2 - ν0) * (45 / 32 - crd) / 100) = δ at *
      obtain ⟨m, rfl⟩ : ∃ m, ν0 = 1 / 2 - m := ⟨1 / 2 - ν0, by ring⟩
      have hm' : 0 < m := by linarith
      have hm5 : m ≤ 5 / 6 := by linarith
      have l2' : δ ≤ m * (45 / 32 - crd) / 100 := by
        have : 1 / 2 - (1 / 2 - m) = m := by ring
        rwa [this] at l2
      have dm : δ < m := by nlinarith
      intro D hD
      have t1 : 0 ≤ crd * (1 - (1 / 2 - δ) ^ 2) := mul_nonneg hc (by nlinarith)
      have t2 : 0 ≤ D * (1 + 3 * (1 / 2 - m)) * (2 - (1 / 2 - δ)) :=
        mul_nonneg (mul_nonneg hD.1 (by linarith)) (by linarith)
      have t3 := mul_nonneg t1 t2
      have t4 : (m - δ) * (3 / 2) ≤ (m - δ) * (3 / 2 + δ) :=
        mul_le_mul_of_nonneg_left (by linarith) (by linarith)
      have t5 : crd * m * (3 / 4 + δ - δ ^ 2) ≤ crd * m * (3 / 4 + δ) :=
        mul_le_mul_of_nonneg_left (by nlinarith) (by positivity)
      have t6 : crd * m * δ ≤ 45 / 32 * (5 / 6) * δ := by
        refine mul_le_mul_of_nonneg_right ?_ l0.le
        exact mul_le_mul hc'.le hm5 hm'.le (by norm_num)
      have e : 45 / 16 * (1 / 2 - m - (1 / 2 - δ)) * (2 - (1 / 2 - δ))
          - crd * (1 - (1 / 2 - δ) ^ 2)
            * (D * (1 + 3 * (1 / 2 - m)) * (2 - (1 / 2 - δ)) - 2 * (1 - 2 * (1 / 2 - m)))
          = -(45 / 16 * ((m - δ) * (3 / 2 + δ))) + 4 * (crd * m * (3 / 4 + δ - δ ^ 2))
            - crd * (1 - (1 / 2 - δ) ^ 2) * (D * (1 + 3 * (1 / 2 - m)) * (2 - (1 / 2 - δ))) := by
        ring
      rw [e]
      have f : -(45 / 16 * ((m - δ) * (3 / 2))) + 4 * (crd * m * (3 / 4 + δ))
          = -(3 * (m * (45 / 32 - crd))) + 135 / 32 * δ + 4 * (crd * m * δ) := by ring
      have g : 0 < m * (45 / 32 - crd) := mul_pos hm' hk
      linarith
  have uneg : ∀ D : ℝ, 0 < 45 / 16 * (ν0 - (-1)) * (2 - (-1))
      - crd * (1 - (-1 : ℝ) ^ 2) * (D * (1 + 3 * ν0) * (2 - (-1)) - 2 * (1 - 2 * ν0)) := by
    intro D
    have : (1 : ℝ) - (-1) ^ 2 = 0 := by norm_num
    rw [this]
    linarith
  have le : (-1 : ℝ) ≤ 1 / 2 - δ := by linarith
  have inner : ∀ ν D : ℝ, -1 ≤ ν → 45 / 16 * (ν0 - ν) * (2 - ν)
      - crd * (1 - ν ^ 2) * (D * (1 + 3 * ν0) * (2 - ν) - 2 * (1 - 2 * ν0)) = 0 → -1 < ν := by
    intro ν D h e
    rcases h.eq_or_lt with rfl | h
    · have := uneg D
      linarith
    · exact h
  rcases hw.eq_or_lt with rfl | hw
  · have cont : ContinuousOn (fun ν : ℝ => 45 / 16 * (ν0 - ν) * (2 - ν)
        - crd * (1 - ν ^ 2) * (1 * (1 + 3 * ν0) * (2 - ν) - 2 * (1 - 2 * ν0)))
        (Icc (-1) (1 / 2 - δ)) := by fun_prop
    obtain ⟨ν, hν, e⟩ := intermediate_value_Icc' le cont
      ⟨(d2 1 ⟨zero_le_one, le_rfl⟩).le, (uneg 1).le⟩
    dsimp only at e
    refine ⟨ν, 1, inner ν 1 hν.1 e, by linarith [hν.2], one_pos, le_rfl, by linarith, ?_⟩
    ring
  · obtain ⟨⟨ν, D⟩, ⟨hν, hD⟩, e1, e2⟩ := poincare_miranda (a := -1) (b := 1 / 2 - δ) (c := 0) (d := 1)
      (u := fun p => 45 / 16 * (ν0 - p.1) * (2 - p.1)
        - crd * (1 - p.1 ^ 2) * (p.2 * (1 + 3 * ν0) * (2 - p.1) - 2 * (1 - 2 * ν0)))
      (v := fun p => crd * p.2 ^ 2 - (crd + 9 / 16 * (1 - 2 * p.1) / (1 - ν0 ^ 2)
        + 3 * w / (4 * Real.pi)) * p.2 + 9 / 16 * (1 - 2 * p.1) / (1 - ν0 ^ 2))
      le zero_le_one (by fun_prop) (by fun_prop) (fun D _ => uneg D) d2
      (fun ν hν => by
        have : 0 < 1 - 2 * ν := by linarith [hν.2]
        dsimp only
        rw [mul_zero, zero_pow two_ne_zero, mul_zero]
        have : 0 < 9 / 16 * (1 - 2 * ν) / (1 - ν0 ^ 2) := by positivity
        linarith)
      (fun ν hν => by
        dsimp only
        have : 0 < 3 * w / (4 * Real.pi) := by positivity
        linarith)
    dsimp only at e1 e2 hν hD
    refine ⟨ν, D, inner ν D hν.1 e1, by linarith [hν.2], ?_, hD.2, by linarith, e2⟩
    rcases hD.1.eq_or_lt with rfl | h
    · exfalso
      have : 0 < 1 - 2 * ν := by linarith [hν.2]
      have : 0 < 9 / 16 * (1 - 2 * ν) / (1 - ν0 ^ 2) := by positivity
      rw [mul_zero, zero_pow two_ne_zero, mul_zero] at e2
      linarith
    · exact h

/-- The equations solved by `OConnell_Budiansky_fl` have a root with a Poisson ratio between -1 and
1/2 and a saturation parameter between 0 and 1, for every solid with a Poisson ratio of at least -1/3,
every crack density below 45/32 and every filling, except where the first equation is 0/0 in the
solution: there the Poisson ratio is that of the solid. -/
theorem C84_root_exists (K0 G0 Kfl crd a : ℝ) (hK0 : 0 < K0) (hG0 : 0 < G0)
    (hν : -(1 / 3) ≤ poisson K0 G0) (hKfl : 0 ≤ Kfl) (ha : 0 < a) (hc : 0 ≤ crd)
    (hc' : crd < 45 / 32) :
    ∃ ν D : ℝ, -1 < ν ∧ ν < 1 / 2 ∧ 0 < D ∧ D ≤ 1 ∧
      (OC_R_funcs (fin ν) (fin D) (fin crd) (fin (poisson K0 G0)) (fin (Kfl / a / K0))
          = (fin 0, fin 0) ∨
        ν = poisson K0 G0 ∧
          D * (1 + 3 * poisson K0 G0) * (2 - poisson K0 G0) = 2 * (1 - 2 * poisson K0 G0) ∧
          (OC_R_funcs (fin ν) (fin D) (fin crd) (fin (poisson K0 G0)) (fin (Kfl / a / K0))).2
            = fin 0) := by
  have h1 : poisson K0 G0 < 1 / 2 := by
    unfold poisson
    rw [div_lt_iff₀ (by positivity)]
    linarith
  generalize poisson K0 G0 = ν0 at *
  obtain ⟨ν, D, n1, n2, D0, D1, e1, e2⟩ := OC_R_cleared (w := Kfl / a / K0) hc hc' hν h1
    (by positivity)
  refine ⟨ν, D, n1, n2, D0, D1, ?_⟩
  have pp := Real.pi_pos
  have s0 : 1 - ν ^ 2 ≠ 0 := by nlinarith
  have s1 : 1 - ν0 ^ 2 ≠ 0 := by nlinarith
  by_cases c : D * (1 + 3 * ν0) * (2 - ν) - 2 * (1 - 2 * ν0) = 0
  · right
    rw [c, mul_zero] at e1
    have : ν0 - ν = 0 := by
      rcases mul_eq_zero.mp e1 with h | h
      · linarith
      · linarith
    have e : ν = ν0 := by linarith
    refine ⟨e, ?_, ?_⟩
    · rw [e] at c
      linarith
    · unfold OC_R_funcs
      simp (disch := first | assumption | positivity) only [fl]
      exact congrArg fin e2
  · left
    unfold OC_R_funcs
    simp (disch := first | assumption | positivity) only [fl]
    refine Prod.ext (congrArg fin ?_) (congrArg fin e2)
    have : 45 / 16 * (ν0 - ν) / (1 - ν ^ 2) * (2 - ν)
        = crd * (D * (1 + 3 * ν0) * (2 - ν) - 2 * (1 - 2 * ν0)) := by
      rw [div_mul_eq_mul_div, div_eq_iff s0, e1]
      ring
    rw [this, mul_div_assoc, div_self c]
    ring

/-- Brine in thin cracks of quartz: the exceptional case does not occur. -/
example : ∃ ν D : ℝ, -1 < ν ∧ ν < 1 / 2 ∧ 0 < D ∧ D ≤ 1 ∧
    OC_R_funcs (fin ν) (fin D) (fin 0.2) (fin (poisson 37 44)) (fin (2.25 / 0.01 / 37))
      = (fin 0, fin 0) := by
  have p1 := Real.pi_pos
  have p2 := Real.pi_le_four
  have hp : poisson 37 44 = 23 / 310 := by
    unfold poisson
    norm_num
  obtain ⟨ν, D, n1, n2, D0, D1, h | ⟨e, eD, e2⟩⟩ := C84_root_exists 37 44 2.25 0.2 0.01 (by norm_num)
    (by norm_num) (by rw [hp]; norm_num) (by norm_num) (by norm_num) (by norm_num) (by norm_num)
  · exact ⟨ν, D, n1, n2, D0, D1, h⟩
  · exfalso
    rw [hp] at e eD e2
    subst e
    have s1 : (1 : ℝ) - (23 / 310) ^ 2 ≠ 0 := by norm_num
    unfold OC_R_funcs at e2
    have eD' : D = 2 * (1 - 2 * (23 / 310)) / ((1 + 3 * (23 / 310)) * (2 - 23 / 310)) := by
      rw [eq_div_iff (by norm_num)]
      linarith
    have c : D * (1 + 3 * (23 / 310)) * (2 - 23 / 310) - 2 * (1 - 2 * (23 / 310)) = 0 := by linarith
    simp (disch := first | assumption | positivity) only [fl] at e2
    rw [fin_inj] at e2
    have w : (3 : ℝ) / 4 < 3 * (2.25 / 0.01 / 37) / (4 * Real.pi) := by
      rw [lt_div_iff₀ (by positivity)]
      norm_num
      linarith
    generalize 3 * (2.25 / 0.01 / 37) / (4 * Real.pi) = W at *
    norm_num at eD'
    rw [eD'] at e2
    norm_num at e2
    linarith

end RockPhy.Props
