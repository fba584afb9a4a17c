import Verif.Model.Perm
import Verif.Spec.Darcy

/-!
# C114: the unit of Bernabe's permeability

The docstring promises millidarcy for an aperture and a radius in micrometres.
-/

namespace RockPhy.Props

open Spec Fl

/-- Bernabe's permeability is that of flow through slits and tubes in square micrometres, over a
thousand times below the promised value in millidarcy, for every mixture of cracks and tubes. -/
theorem C114_Bernabe_violated (phi c w r : ℝ) (h : 0 < phi) (c0 : 0 ≤ c) (c1 : c ≤ 1) (hw : 0 < w)
    (hr : 0 < r) :
    ∃ k : ℝ, Permeability.Bernabe (fin phi) (fin c) (fin w) (fin r) = fin k ∧ 0 < k
      ∧ k * micrometre ^ 2
        = slits (w * micrometre) (c * phi) 2.5 + tubes (r * micrometre) ((1 - c) * phi) 2.5
      ∧ 1013 * (k * millidarcy)
        < slits (w * micrometre) (c * phi) 2.5 + tubes (r * micrometre) ((1 - c) * phi) 2.5 := by
  have p : 0 < w ^ 2 * (phi * c) / 30 + r ^ 2 * (phi - phi * c) / 20 := by
    have e : w ^ 2 * (phi * c) / 30 + r ^ 2 * (phi - phi * c) / 20
        = phi * (c * (w ^ 2 / 30) + (1 - c) * (r ^ 2 / 20)) := by ring
    rw [e]
    refine mul_pos h ?_
    rcases c0.lt_or_eq with g | g
    · exact add_pos_of_pos_of_nonneg (by positivity)
        (mul_nonneg (sub_nonneg.mpr c1) (by positivity))
    · rw [← g]
      have : 0 < r ^ 2 / 20 := by positivity
      linarith
  have q : (w ^ 2 * (phi * c) / 30 + r ^ 2 * (phi - phi * c) / 20) * micrometre ^ 2
      = slits (w * micrometre) (c * phi) 2.5 + tubes (r * micrometre) ((1 - c) * phi) 2.5 := by
    unfold slits tubes
    ring
  refine ⟨_, ?_, p, q, ?_⟩
  · fl_eval [Permeability.Bernabe]
  · rw [← q, mul_left_comm]
    refine mul_lt_mul_of_pos_left ?_ p
    unfold millidarcy micrometre
    norm_num

/-- A fifth of the pores are cracks. -/
example : ∃ k : ℝ, Permeability.Bernabe (fin 0.1) (fin 0.2) (fin 1) (fin 10) = fin k ∧ 0 < k := by
  obtain ⟨k, e, p, _⟩ := C114_Bernabe_violated 0.1 0.2 1 10 (by norm_num) (by norm_num) (by norm_num)
    (by norm_num) (by norm_num)
  exact ⟨k, e, p⟩

end RockPhy.Props
