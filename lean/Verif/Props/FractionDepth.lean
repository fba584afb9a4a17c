import Verif.Model.Emp
import Verif.Spec.Fraction
import Verif.Spec.Trends

/-!
# C114: depths of the compaction curves

The porosities for which Sclater's depth is one, and the unit of depth of Hjelstuen's velocities.
-/

namespace RockPhy.Props

open Spec Fl

/-- Sclater's curve gives a depth below the sea floor exactly for porosities up to 0.49, and more than
ten kilometres exactly below `0.49 exp (-10/3.7)`, about 0.033. -/
theorem C114_Sclater (phi : ℝ) (h : 0 < phi) :
    ∃ z : ℝ, Empirical.Sclater (fin phi) = fin z ∧ (0 ≤ z ↔ phi ≤ 0.49)
      ∧ (10 < z ↔ phi < 0.49 * Real.exp (-10 / 3.7)) := by
  have q : 0 < 0.49 / phi := by positivity
  refine ⟨3.7 * Real.log (0.49 / phi), ?_, ?_, ?_⟩
  · have := h.ne'
    fl_eval [Empirical.Sclater]
  · rw [mul_nonneg_iff_of_pos_left (by norm_num), Real.log_nonneg_iff q, one_le_div h]
  · have e : 10 < 3.7 * Real.log (0.49 / phi) ↔ 10 / 3.7 < Real.log (0.49 / phi) := by
      rw [div_lt_iff₀ (by norm_num), mul_comm]
    rw [e, Real.lt_log_iff_exp_lt q, lt_div_iff₀ h, neg_div, Real.exp_neg, ← div_eq_mul_inv,
      lt_div_iff₀ (Real.exp_pos _), mul_comm]

/-- Hjelstuen's velocities are documented for depths below 3.8 km.  In metres the velocities are
between 1870 and 3960 m/s exactly there, in kilometres they are all within 2.1 m/s of 1870. -/
theorem C114_hjelstuen (z : ℝ) :
    ∃ v : ℝ, Empirical.hjelstuen (fin z) = fin v
      ∧ (1870 ≤ v ∧ v ≤ 3960 ↔ 0 ≤ z ∧ z ≤ 3800)
      ∧ (0 ≤ z → z ≤ 3.8 → 1870 ≤ v ∧ v < 1872.1) := by
  refine ⟨(1.87 + 0.55 * (z / 1000)) * 1000, ?_, ?_, ?_⟩
  · fl_eval [Empirical.hjelstuen]
  · constructor <;> rintro ⟨a, b⟩ <;> constructor <;> norm_num at a b ⊢ <;> linarith
  · intro a b
    constructor <;> norm_num at a b ⊢ <;> linarith

/-- A porosity of 0.2 lies below the sea floor. -/
example : ∃ z : ℝ, Empirical.Sclater (fin 0.2) = fin z ∧ 0 ≤ z := by
  obtain ⟨z, e, h, _⟩ := C114_Sclater 0.2 (by norm_num)
  exact ⟨z, e, h.mpr (by norm_num)⟩

/-- Two kilometres. -/
example : ∃ v : ℝ, Empirical.hjelstuen (fin 2000) = fin v ∧ v ≤ 3960 := by
  obtain ⟨v, e, h, _⟩ := C114_hjelstuen 2000
  exact ⟨v, e, (h.mpr ⟨by norm_num, by norm_num⟩).2⟩

end RockPhy.Props
