import Verif.Lemmas.Sphere

/-! Moments of directions weighted by an even function of the height. -/

namespace RockPhy

open Spec Real intervalIntegral

/-- Averages agree if the quantities agree in every direction. -/
theorem sphereAvg_congr {f g : (Fin 3 → ℝ) → ℝ}
    (h : ∀ n : Fin 3 → ℝ, n 0 ^ 2 + n 1 ^ 2 + n 2 ^ 2 = 1 → f n = g n) : sphereAvg f = sphereAvg g := by
  unfold sphereAvg
  congr 1
  apply intervalIntegral.integral_congr
  intro z hz
  rw [Set.uIcc_of_le (by norm_num)] at hz
  have hz' : 0 ≤ 1 - z ^ 2 := by nlinarith [hz.1, hz.2]
  apply intervalIntegral.integral_congr
  intro t _
  apply h
  simp only [direction, Matrix.cons_val_zero, Matrix.cons_val_one, Matrix.cons_val]
  rw [mul_pow, mul_pow, sq_sqrt hz']
  linear_combination (1 - z ^ 2) * Real.sin_sq_add_cos_sq t

/-- `∫₀¹ zᵏ w(z) dz`. -/
noncomputable def heightI (w : ℝ → ℝ) (k : ℕ) : ℝ := ∫ z in (0 : ℝ)..1, z ^ k * w z

theorem heightI_add {w w' : ℝ → ℝ} (h : Continuous w) (h' : Continuous w') (k : ℕ) :
    heightI (fun z => w z + w' z) k = heightI w k + heightI w' k := by
  unfold heightI
  simp only [mul_add]
  exact intervalIntegral.integral_add (Continuous.intervalIntegrable (by fun_prop) _ _)
    (Continuous.intervalIntegrable (by fun_prop) _ _)

theorem heightI_smul (c : ℝ) (w : ℝ → ℝ) (k : ℕ) : heightI (fun z => c * w z) k = c * heightI w k := by
  unfold heightI
  rw [← intervalIntegral.integral_const_mul]
  congr 1; ext z; ring

theorem heightI_shift (w : ℝ → ℝ) (k m : ℕ) : heightI (fun z => z ^ m * w z) k = heightI w (k + m) := by
  unfold heightI
  congr 1; ext z; ring

theorem heightI_congr {w w' : ℝ → ℝ} (h : ∀ z, 0 ≤ z → z ≤ 1 → w z = w' z) (k : ℕ) :
    heightI w k = heightI w' k := by
  unfold heightI
  apply intervalIntegral.integral_congr
  intro z hz
  rw [Set.uIcc_of_le (by norm_num)] at hz
  simp only [h z hz.1 hz.2]

section

variable {w : ℝ → ℝ} (hw : Continuous w) (he : ∀ z, w (-z) = w z)

include hw he in
theorem int_even (k : ℕ) : (∫ z in (-1 : ℝ)..1, z ^ (2 * k) * w z) = 2 * heightI w (2 * k) := by
  have hc : Continuous fun z : ℝ => z ^ (2 * k) * w z := by fun_prop
  have h1 : (∫ z in (-1 : ℝ)..0, z ^ (2 * k) * w z) = ∫ z in (0 : ℝ)..1, z ^ (2 * k) * w z := by
    have := intervalIntegral.integral_comp_neg (a := (0 : ℝ)) (b := 1) fun z => z ^ (2 * k) * w z
    rw [neg_zero] at this
    rw [← this]
    congr 1; ext z
    rw [he, neg_pow, pow_mul]; norm_num
  rw [← intervalIntegral.integral_add_adjacent_intervals (hc.intervalIntegrable (-1) 0)
    (hc.intervalIntegrable 0 1), h1]
  unfold heightI
  ring

theorem wAvg_mono (w : ℝ → ℝ) (a b c : ℕ) :
    sphereAvg (fun n => w (n 2) * (n 0 ^ a * n 1 ^ b * n 2 ^ c))
      = 1 / (4 * π) * (∫ z in (-1 : ℝ)..1, w z * (√(1 - z ^ 2) ^ (a + b) * z ^ c))
        * ∫ t in (0 : ℝ)..(2 * π), sin t ^ b * cos t ^ a := by
  unfold sphereAvg
  rw [mul_assoc, ← intervalIntegral.integral_mul_const]
  congr 2
  ext z
  rw [← intervalIntegral.integral_const_mul]
  congr 1
  ext t
  simp only [direction, Matrix.cons_val_zero, Matrix.cons_val_one, Matrix.cons_val]
  ring

theorem wmono_odd_cos (a b c : ℕ) :
    sphereAvg (fun n => w (n 2) * (n 0 ^ (2 * a + 1) * n 1 ^ b * n 2 ^ c)) = 0 := by
  rw [wAvg_mono, integral_sin_pow_mul_cos_pow_odd]
  simp

theorem wmono_odd_sin (a b c : ℕ) :
    sphereAvg (fun n => w (n 2) * (n 0 ^ a * n 1 ^ (2 * b + 1) * n 2 ^ c)) = 0 := by
  rw [wAvg_mono, integral_sin_pow_odd_mul_cos_pow]
  simp

theorem wheight_even (w : ℝ → ℝ) (m : ℕ) (c : ℕ) :
    (∫ z in (-1 : ℝ)..1, w z * (√(1 - z ^ 2) ^ (2 * m) * z ^ c))
      = ∫ z in (-1 : ℝ)..1, w z * ((1 - z ^ 2) ^ m * z ^ c) := by
  apply intervalIntegral.integral_congr
  intro z hz
  rw [Set.uIcc_of_le (by norm_num)] at hz
  have : 0 ≤ 1 - z ^ 2 := by nlinarith [hz.1, hz.2]
  simp only [pow_mul, sq_sqrt this]

include hw he

theorem wz0 : (∫ z in (-1 : ℝ)..1, w z * ((1 - z ^ 2) ^ 0 * z ^ 2)) = 2 * heightI w 2 := by
  rw [← int_even hw he 1]
  congr 1; ext z; ring
theorem wz0' : (∫ z in (-1 : ℝ)..1, w z * ((1 - z ^ 2) ^ 0 * z ^ 4)) = 2 * heightI w 4 := by
  rw [← int_even hw he 2]
  congr 1; ext z; ring
theorem wz1 : (∫ z in (-1 : ℝ)..1, w z * ((1 - z ^ 2) ^ 1 * z ^ 0)) = 2 * (heightI w 0 - heightI w 2) := by
  have h0 := int_even hw he 0
  have h1 := int_even hw he 1
  have : ∀ z : ℝ, w z * ((1 - z ^ 2) ^ 1 * z ^ 0) = z ^ (2 * 0) * w z - z ^ (2 * 1) * w z :=
    fun z => by ring
  simp only [this]
  rw [intervalIntegral.integral_sub (Continuous.intervalIntegrable (by fun_prop) _ _)
    (Continuous.intervalIntegrable (by fun_prop) _ _), h0, h1]
  ring
theorem wz1' : (∫ z in (-1 : ℝ)..1, w z * ((1 - z ^ 2) ^ 1 * z ^ 2)) = 2 * (heightI w 2 - heightI w 4) := by
  have h0 := int_even hw he 1
  have h1 := int_even hw he 2
  have : ∀ z : ℝ, w z * ((1 - z ^ 2) ^ 1 * z ^ 2) = z ^ (2 * 1) * w z - z ^ (2 * 2) * w z :=
    fun z => by ring
  simp only [this]
  rw [intervalIntegral.integral_sub (Continuous.intervalIntegrable (by fun_prop) _ _)
    (Continuous.intervalIntegrable (by fun_prop) _ _), h0, h1]
  ring
theorem wz2 : (∫ z in (-1 : ℝ)..1, w z * ((1 - z ^ 2) ^ 2 * z ^ 0))
    = 2 * (heightI w 0 - 2 * heightI w 2 + heightI w 4) := by
  have h0 := int_even hw he 0
  have h1 := int_even hw he 1
  have h2 := int_even hw he 2
  have : ∀ z : ℝ, w z * ((1 - z ^ 2) ^ 2 * z ^ 0)
      = z ^ (2 * 0) * w z - 2 * (z ^ (2 * 1) * w z) + z ^ (2 * 2) * w z := fun z => by ring
  simp only [this]
  rw [intervalIntegral.integral_add (Continuous.intervalIntegrable (by fun_prop) _ _)
    (Continuous.intervalIntegrable (by fun_prop) _ _),
    intervalIntegral.integral_sub (Continuous.intervalIntegrable (by fun_prop) _ _)
    (Continuous.intervalIntegrable (by fun_prop) _ _), intervalIntegral.integral_const_mul, h0, h1, h2]
  ring

omit hw he in
theorem wmono_even (m m' c : ℕ) {x y v : ℝ}
    (hz : (∫ z in (-1 : ℝ)..1, w z * ((1 - z ^ 2) ^ (m + m') * z ^ c)) = x)
    (ht : (∫ t in (0 : ℝ)..(2 * π), sin t ^ (2 * m') * cos t ^ (2 * m)) = y * π)
    (hv : x * y / 4 = v) :
    sphereAvg (fun n => w (n 2) * (n 0 ^ (2 * m) * n 1 ^ (2 * m') * n 2 ^ c)) = v := by
  have hp := pi_ne_zero
  rw [wAvg_mono, ← mul_add, wheight_even, hz, ht, ← hv]
  field

/-- Second moments. -/
theorem wmoment2 (i j : Fin 3) : sphereAvg (fun n => w (n 2) * (n i * n j))
    = if i = j then (if i = 2 then heightI w 2 else (heightI w 0 - heightI w 2) / 2) else 0 := by
  have e : (fun n : Fin 3 → ℝ => w (n 2) * (n i * n j))
      = fun n => w (n 2) * (n 0 ^ occ 0 [i, j] * n 1 ^ occ 1 [i, j] * n 2 ^ occ 2 [i, j]) := by
    funext n
    rw [← prod_mono]
    simp
  rw [e]
  fin_cases i <;> fin_cases j
  · exact wmono_even 1 0 0 (y := 1) (wz1 hw he) (by simp) (by simp; ring)
  · exact wmono_odd_cos 0 1 0
  · exact wmono_odd_cos 0 0 1
  · exact wmono_odd_cos 0 1 0
  · exact wmono_even 0 1 0 (y := 1) (wz1 hw he) (by simp) (by simp; ring)
  · exact wmono_odd_sin 0 0 1
  · exact wmono_odd_cos 0 0 1
  · exact wmono_odd_sin 0 0 1
  · exact wmono_even 0 0 2 (y := 2) (wz0 hw he) (by simp) (by simp; ring)

/-- Monomials of degree four. -/
theorem wmono_four (a b c : ℕ) (h : a + b + c = 4) :
    sphereAvg (fun n => w (n 2) * (n 0 ^ a * n 1 ^ b * n 2 ^ c))
      = if a = 4 ∨ b = 4 then 3 / 8 * (heightI w 0 - 2 * heightI w 2 + heightI w 4)
        else if c = 4 then heightI w 4
        else if a % 2 = 0 ∧ b % 2 = 0 then
          (if c = 2 then (heightI w 2 - heightI w 4) / 2
            else 1 / 8 * (heightI w 0 - 2 * heightI w 2 + heightI w 4))
        else 0 := by
  have ha : a ≤ 4 := by omega
  have hb : b ≤ 4 := by omega
  obtain rfl : c = 4 - a - b := by omega
  interval_cases a <;> interval_cases b <;> (try omega)
  · exact wmono_even 0 0 4 (y := 2) (wz0' hw he) (by simp) (by simp; ring)
  · exact wmono_odd_sin 0 0 3
  · exact wmono_even 0 1 2 (y := 1) (wz1' hw he) (by simp) (by simp; ring)
  · exact wmono_odd_sin 0 1 1
  · exact wmono_even 0 2 0 (y := 3 / 4) (wz2 hw he) t40 (by simp; ring)
  · exact wmono_odd_cos 0 0 3
  · exact wmono_odd_cos 0 1 2
  · exact wmono_odd_cos 0 2 1
  · exact wmono_odd_cos 0 3 0
  · exact wmono_even 1 0 2 (y := 1) (wz1' hw he) (by simp) (by simp; ring)
  · exact wmono_odd_sin 2 0 1
  · exact wmono_even 1 1 0 (y := 1 / 4) (wz2 hw he) (by rw [t22]; ring) (by simp; ring)
  · exact wmono_odd_cos 1 0 1
  · exact wmono_odd_cos 1 1 0
  · exact wmono_even 2 0 0 (y := 3 / 4) (wz2 hw he) t04 (by simp; ring)

/-- Fourth moments. -/
theorem wmoment4 (i j k l : Fin 3) : sphereAvg (fun n => w (n 2) * (n i * n j * n k * n l))
    = if occ 0 [i, j, k, l] = 4 ∨ occ 1 [i, j, k, l] = 4 then
          3 / 8 * (heightI w 0 - 2 * heightI w 2 + heightI w 4)
        else if occ 2 [i, j, k, l] = 4 then heightI w 4
        else if occ 0 [i, j, k, l] % 2 = 0 ∧ occ 1 [i, j, k, l] % 2 = 0 then
          (if occ 2 [i, j, k, l] = 2 then (heightI w 2 - heightI w 4) / 2
            else 1 / 8 * (heightI w 0 - 2 * heightI w 2 + heightI w 4))
        else 0 := by
  have e : (fun n : Fin 3 → ℝ => w (n 2) * (n i * n j * n k * n l))
      = fun n => w (n 2) * (n 0 ^ occ 0 [i, j, k, l] * n 1 ^ occ 1 [i, j, k, l]
        * n 2 ^ occ 2 [i, j, k, l]) := by
    funext n
    rw [← prod_mono]
    simp [mul_assoc]
  rw [e, wmono_four hw he _ _ _ (by clear e; revert i j k l; decide)]

end

end RockPhy
