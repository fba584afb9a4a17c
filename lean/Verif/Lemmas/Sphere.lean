import Verif.Spec.Contact
import Mathlib.Analysis.SpecialFunctions.Integrals.Basic

/-! Second and fourth moments of the uniform distribution of directions. -/

namespace RockPhy

open Spec Real intervalIntegral

theorem continuous_direction : Continuous fun p : ℝ × ℝ => direction p.1 p.2 := by
  unfold direction
  refine continuous_pi fun i => ?_
  fin_cases i
  · show Continuous fun p : ℝ × ℝ => √(1 - p.1 ^ 2) * cos p.2
    fun_prop
  · show Continuous fun p : ℝ × ℝ => √(1 - p.1 ^ 2) * sin p.2
    fun_prop
  · show Continuous fun p : ℝ × ℝ => p.1
    fun_prop

theorem inner_continuous {f : (Fin 3 → ℝ) → ℝ} (hf : Continuous f) :
    Continuous fun z : ℝ => ∫ t in (0 : ℝ)..(2 * π), f (direction z t) := by
  apply intervalIntegral.continuous_parametric_intervalIntegral_of_continuous'
  exact hf.comp continuous_direction

theorem row_continuous {f : (Fin 3 → ℝ) → ℝ} (hf : Continuous f) (z : ℝ) :
    Continuous fun t : ℝ => f (direction z t) :=
  (hf.comp continuous_direction).comp (by fun_prop : Continuous fun t : ℝ => (z, t))

theorem sphereAvg_add {f g : (Fin 3 → ℝ) → ℝ} (hf : Continuous f) (hg : Continuous g) :
    sphereAvg (fun n => f n + g n) = sphereAvg f + sphereAvg g := by
  unfold sphereAvg
  rw [← mul_add, ← intervalIntegral.integral_add ((inner_continuous hf).intervalIntegrable _ _)
    ((inner_continuous hg).intervalIntegrable _ _)]
  congr 2
  ext z
  exact intervalIntegral.integral_add ((row_continuous hf z).intervalIntegrable _ _)
    ((row_continuous hg z).intervalIntegrable _ _)

theorem sphereAvg_smul (c : ℝ) (f : (Fin 3 → ℝ) → ℝ) :
    sphereAvg (fun n => c * f n) = c * sphereAvg f := by
  unfold sphereAvg
  simp only [intervalIntegral.integral_const_mul]
  ring

theorem sphereAvg_sum {ι : Type} (s : Finset ι) (f : ι → (Fin 3 → ℝ) → ℝ)
    (hf : ∀ i, Continuous (f i)) :
    sphereAvg (fun n => ∑ i ∈ s, f i n) = ∑ i ∈ s, sphereAvg (f i) := by
  classical
  induction s using Finset.induction_on with
  | empty =>
    simp only [Finset.sum_empty]
    simpa using sphereAvg_smul 0 fun _ => 0
  | insert a s ha ih =>
    simp only [Finset.sum_insert ha]
    rw [sphereAvg_add (hf a) (continuous_finsetSum _ fun i _ => hf i), ih]

/-- A monomial separates into an integral over height and one over longitude. -/
theorem sphereAvg_mono (a b c : ℕ) :
    sphereAvg (fun n => n 0 ^ a * n 1 ^ b * n 2 ^ c)
      = 1 / (4 * π) * (∫ z in (-1 : ℝ)..1, √(1 - z ^ 2) ^ (a + b) * z ^ c)
        * ∫ t in (0 : ℝ)..(2 * π), sin t ^ b * cos t ^ a := by
  unfold sphereAvg
  rw [mul_assoc, ← intervalIntegral.integral_mul_const]
  congr 2
  ext z
  rw [← intervalIntegral.integral_const_mul]
  congr 1
  ext t
  simp only [direction, Matrix.cons_val_zero, Matrix.cons_val_one, Matrix.cons_val]
  ring

theorem mono_odd_cos (a b c : ℕ) : sphereAvg (fun n => n 0 ^ (2 * a + 1) * n 1 ^ b * n 2 ^ c) = 0 := by
  rw [sphereAvg_mono, integral_sin_pow_mul_cos_pow_odd]
  simp

theorem mono_odd_sin (a b c : ℕ) : sphereAvg (fun n => n 0 ^ a * n 1 ^ (2 * b + 1) * n 2 ^ c) = 0 := by
  rw [sphereAvg_mono, integral_sin_pow_odd_mul_cos_pow]
  simp

theorem height_even (m : ℕ) (c : ℕ) :
    (∫ z in (-1 : ℝ)..1, √(1 - z ^ 2) ^ (2 * m) * z ^ c)
      = ∫ z in (-1 : ℝ)..1, (1 - z ^ 2) ^ m * z ^ c := by
  apply intervalIntegral.integral_congr
  intro z hz
  rw [Set.uIcc_of_le (by norm_num)] at hz
  have : 0 ≤ 1 - z ^ 2 := by nlinarith [hz.1, hz.2]
  simp only [pow_mul, sq_sqrt this]

theorem z0 : (∫ z in (-1 : ℝ)..1, (1 - z ^ 2) ^ 0 * z ^ 2) = 2 / 3 := by norm_num
theorem z0' : (∫ z in (-1 : ℝ)..1, (1 - z ^ 2) ^ 0 * z ^ 4) = 2 / 5 := by norm_num
theorem z1 : (∫ z in (-1 : ℝ)..1, (1 - z ^ 2) ^ 1 * z ^ 0) = 4 / 3 := by
  simp only [pow_zero, pow_one, mul_one]
  rw [intervalIntegral.integral_sub (by simp) (by simp)]
  norm_num
theorem z1' : (∫ z in (-1 : ℝ)..1, (1 - z ^ 2) ^ 1 * z ^ 2) = 4 / 15 := by
  have : ∀ z : ℝ, (1 - z ^ 2) ^ 1 * z ^ 2 = z ^ 2 - z ^ 4 := fun z => by ring
  simp only [this]
  rw [intervalIntegral.integral_sub (by simp) (by simp)]
  norm_num
theorem z2 : (∫ z in (-1 : ℝ)..1, (1 - z ^ 2) ^ 2 * z ^ 0) = 16 / 15 := by
  have : ∀ z : ℝ, (1 - z ^ 2) ^ 2 * z ^ 0 = 1 - 2 * z ^ 2 + z ^ 4 := fun z => by ring
  simp only [this]
  rw [intervalIntegral.integral_add (Continuous.intervalIntegrable (by fun_prop) _ _) (by simp),
    intervalIntegral.integral_sub (by simp) (Continuous.intervalIntegrable (by fun_prop) _ _)]
  norm_num

theorem t22 : (∫ t in (0 : ℝ)..(2 * π), sin t ^ 2 * cos t ^ 2) = π / 4 := by
  rw [integral_sin_sq_mul_cos_sq]
  have : sin (4 * (2 * π)) = 0 := by
    have := Real.sin_nat_mul_pi 8
    push_cast at this
    rw [← this]; congr 1; ring
  rw [this]; simp; ring

theorem t00 : (∫ t in (0 : ℝ)..(2 * π), sin t ^ 0 * cos t ^ 0) = 2 * π := by simp
theorem t20 : (∫ t in (0 : ℝ)..(2 * π), sin t ^ 2 * cos t ^ 0) = π := by simp
theorem t02 : (∫ t in (0 : ℝ)..(2 * π), sin t ^ 0 * cos t ^ 2) = π := by simp
theorem t40 : (∫ t in (0 : ℝ)..(2 * π), sin t ^ 4 * cos t ^ 0) = 3 / 4 * π := by
  simp only [pow_zero, mul_one]
  rw [integral_sin_pow 2]; simp; ring
theorem t04 : (∫ t in (0 : ℝ)..(2 * π), sin t ^ 0 * cos t ^ 4) = 3 / 4 * π := by
  simp only [pow_zero, one_mul]
  rw [integral_cos_pow 2]; simp; ring

/-- The value of a monomial of degree 2 or 4. -/
theorem mono_even (m m' c : ℕ) {x y v : ℝ}
    (hz : (∫ z in (-1 : ℝ)..1, (1 - z ^ 2) ^ (m + m') * z ^ c) = x)
    (ht : (∫ t in (0 : ℝ)..(2 * π), sin t ^ (2 * m') * cos t ^ (2 * m)) = y * π)
    (hv : x * y / 4 = v) :
    sphereAvg (fun n => n 0 ^ (2 * m) * n 1 ^ (2 * m') * n 2 ^ c) = v := by
  have hp := pi_ne_zero
  rw [sphereAvg_mono, ← mul_add, height_even, hz, ht, ← hv]
  field

/-- How often a coordinate occurs. -/
def occ (k : Fin 3) (l : List (Fin 3)) : ℕ := l.count k

theorem prod_mono (l : List (Fin 3)) (n : Fin 3 → ℝ) :
    (l.map n).prod = n 0 ^ occ 0 l * n 1 ^ occ 1 l * n 2 ^ occ 2 l := by
  induction l with
  | nil => simp [occ]
  | cons k l ih =>
    rw [List.map_cons, List.prod_cons, ih]
    unfold occ
    fin_cases k <;> simp <;> ring

theorem moment2 (i j : Fin 3) : sphereAvg (fun n => n i * n j) = if i = j then 1 / 3 else 0 := by
  have e : (fun n : Fin 3 → ℝ => n i * n j)
      = fun n => n 0 ^ occ 0 [i, j] * n 1 ^ occ 1 [i, j] * n 2 ^ occ 2 [i, j] := by
    funext n
    rw [← prod_mono]
    simp
  rw [e]
  fin_cases i <;> fin_cases j
  · exact mono_even 1 0 0 (y := 1) z1 (by simp) (by norm_num)
  · exact mono_odd_cos 0 1 0
  · exact mono_odd_cos 0 0 1
  · exact mono_odd_cos 0 1 0
  · exact mono_even 0 1 0 (y := 1) z1 (by simp) (by norm_num)
  · exact mono_odd_sin 0 0 1
  · exact mono_odd_cos 0 0 1
  · exact mono_odd_sin 0 0 1
  · exact mono_even 0 0 2 (y := 2) z0 (by simp) (by norm_num)

/-- All monomials of degree four. -/
theorem mono_four (a b c : ℕ) (h : a + b + c = 4) :
    sphereAvg (fun n => n 0 ^ a * n 1 ^ b * n 2 ^ c)
      = if a = 4 ∨ b = 4 ∨ c = 4 then 1 / 5
        else if a % 2 = 0 ∧ b % 2 = 0 ∧ c % 2 = 0 then 1 / 15 else 0 := by
  have ha : a ≤ 4 := by omega
  have hb : b ≤ 4 := by omega
  obtain rfl : c = 4 - a - b := by omega
  interval_cases a <;> interval_cases b <;> (try omega)
  · exact mono_even 0 0 4 (y := 2) z0' (by simp) (by norm_num)
  · exact mono_odd_sin 0 0 3
  · exact mono_even 0 1 2 (y := 1) z1' (by simp) (by norm_num)
  · exact mono_odd_sin 0 1 1
  · exact mono_even 0 2 0 (y := 3 / 4) z2 t40 (by norm_num)
  · exact mono_odd_cos 0 0 3
  · exact mono_odd_cos 0 1 2
  · exact mono_odd_cos 0 2 1
  · exact mono_odd_cos 0 3 0
  · exact mono_even 1 0 2 (y := 1) z1' (by simp) (by norm_num)
  · exact mono_odd_sin 2 0 1
  · exact mono_even 1 1 0 (y := 1 / 4) z2 (by rw [t22]; ring) (by norm_num)
  · exact mono_odd_cos 1 0 1
  · exact mono_odd_cos 1 1 0
  · exact mono_even 2 0 0 (y := 3 / 4) z2 t04 (by norm_num)

theorem moment4 (i j k l : Fin 3) : sphereAvg (fun n => n i * n j * n k * n l)
    = ((if i = j then 1 else 0) * (if k = l then 1 else 0)
      + (if i = k then 1 else 0) * (if j = l then 1 else 0)
      + (if i = l then 1 else 0) * (if j = k then 1 else 0)) / 15 := by
  have e : (fun n : Fin 3 → ℝ => n i * n j * n k * n l)
      = fun n => n 0 ^ occ 0 [i, j, k, l] * n 1 ^ occ 1 [i, j, k, l] * n 2 ^ occ 2 [i, j, k, l] := by
    funext n
    rw [← prod_mono]
    simp [mul_assoc]
  rw [e, mono_four _ _ _ (by clear e; revert i j k l; decide)]
  revert i j k l
  simp only [occ]
  intro i j k l
  fin_cases i <;> fin_cases j <;> fin_cases k <;> fin_cases l <;>
    simp (config := { decide := true }) <;> norm_num

end RockPhy
