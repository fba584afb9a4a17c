import Verif.Lemmas.Spheroid

/-! # Berryman's formulas solve Eshelby's problem -/

namespace RockPhy.Spec

open Matrix

section

variable (A B R t f : ℝ)

noncomputable def bF1 : ℝ := 1 + A * (3 / 2 * (f + t) - R * (3 / 2 * f + 5 / 2 * t - 4 / 3))

noncomputable def bF2 : ℝ :=
  1 + A * (1 + 3 / 2 * (f + t) - R * (3 / 2 * f + 5 / 2 * t)) + B * (3 - 4 * R)
    + A * (A + 3 * B) * (3 / 2 - 2 * R) * (f + t - R * (f - t + 2 * t ^ 2))

noncomputable def bF3 : ℝ := 1 + A * (1 - f - 3 / 2 * t + R * (f + t))

noncomputable def bF4 : ℝ := 1 + A / 4 * (f + 3 * t - R * (f - t))

noncomputable def bF5 : ℝ := A * (-f + R * (f + t - 4 / 3)) + B * t * (3 - 4 * R)

noncomputable def bF6 : ℝ := 1 + A * (1 + f - R * (f + t)) + B * (1 - t) * (3 - 4 * R)

noncomputable def bF7 : ℝ :=
  2 + A / 4 * (3 * f + 9 * t - R * (3 * f + 5 * t)) + B * t * (3 - 4 * R)

noncomputable def bF8 : ℝ :=
  A * (1 - 2 * R + f / 2 * (R - 1) + t / 2 * (5 * R - 3)) + B * (1 - t) * (3 - 4 * R)

noncomputable def bF9 : ℝ := A * ((R - 1) * f - R * t) + B * t * (3 - 4 * R)

/-- `P = T_iijj / 3`. -/
noncomputable def bP : ℝ := bF1 A R t f / bF2 A B R t f

/-- `Q = (T_ijij - T_iijj / 3) / 5`. -/
noncomputable def bQ : ℝ :=
  (2 / bF3 A R t f + 1 / bF4 A R t f
    + (bF4 A R t f * bF5 A B R t f + bF6 A B R t f * bF7 A B R t f - bF8 A B R t f * bF9 A B R t f)
      / (bF2 A B R t f * bF4 A R t f)) / 5

end

section

variable {A B R t f : ℝ}

/-- Positivity of the denominators for shape numbers of oblate spheroids and inclusions with
non-negative moduli. -/
theorem bF2_pos (hA : -1 ≤ A) (hB : -1 ≤ A + 3 * B) (hR : 0 < R) (hR' : R < 3 / 4) (ht : 0 < t)
    (ht' : t ≤ 2 / 3) (hf : f < 0) (hf' : 0 < t + f) : 0 < bF2 A B R t f := by
  obtain ⟨a, rfl⟩ : ∃ a, A = a - 1 := ⟨A + 1, by ring⟩
  obtain ⟨k, rfl⟩ : ∃ k, B = (k - a) / 3 := ⟨3 * B + a, by ring⟩
  have ha : 0 ≤ a := by linarith
  have hk : 0 ≤ k := by linarith
  have hY : 0 < 3 / 2 - 2 * R := by linarith
  have z1 : 0 ≤ f + t - R * (f - t + 2 * t ^ 2) := by
    have : f + t - R * (f - t + 2 * t ^ 2) = (1 - R) * (t + f) + 2 * R * (t * (1 - t)) := by ring
    rw [this]
    have : 0 ≤ t * (1 - t) := mul_nonneg ht.le (by linarith)
    have : 0 ≤ (1 - R) * (t + f) := mul_nonneg (by linarith) hf'.le
    positivity
  have z2 : 0 ≤ 2 / 3 - (f + t - R * (f - t + 2 * t ^ 2)) := by
    have e : 2 / 3 - (f + t - R * (f - t + 2 * t ^ 2))
        = (1 - R) * (-f) + (2 / 3 - t - R * (t - 2 * t ^ 2)) := by ring
    have : 0 ≤ (1 - R) * (-f) := mul_nonneg (by linarith) (by linarith)
    have : 0 ≤ 2 / 3 - t - R * (t - 2 * t ^ 2) := by
      by_cases c : t ≤ 1 / 2
      · have : R * (t * (1 - 2 * t)) ≤ 3 / 4 * (t * (1 - 2 * t)) :=
          mul_le_mul_of_nonneg_right hR'.le (mul_nonneg ht.le (by linarith))
        nlinarith [sq_nonneg (t - 7 / 12)]
      · have : R * (t * (1 - 2 * t)) ≤ 0 :=
          mul_nonpos_of_nonneg_of_nonpos hR.le
            (mul_nonpos_of_nonneg_of_nonpos ht.le (by linarith))
        nlinarith
    linarith
  have z3 : 0 < (3 / 2 - 2 * R) * (t - 2 * t ^ 2) + t / 2 - f * (2 - 2 * R) := by
    have h1 : 0 < -f * (2 - 2 * R) := mul_pos (by linarith) (by linarith)
    have h2 : 0 ≤ (3 / 2 - 2 * R) * (t - 2 * t ^ 2) + t / 2 := by
      by_cases c : t ≤ 1 / 2
      · have : 0 ≤ t - 2 * t ^ 2 := by nlinarith
        positivity
      · have : 0 ≤ 2 * R * (2 * t ^ 2 - t) := mul_nonneg (by linarith) (by nlinarith)
        nlinarith
    linarith
  have z4 : 0 ≤ (3 / 2 - 2 * R) * (f - t + 2 * t ^ 2) + f / 2 - t / 2 + 4 / 3 := by
    have e : (3 / 2 - 2 * R) * (f - t + 2 * t ^ 2) + f / 2 - t / 2 + 4 / 3
        = (2 - 2 * R) * (t + f) + 3 * (t - 2 / 3) ^ 2 + 4 * R * (t * (1 - t)) := by ring
    rw [e]
    have : 0 ≤ t * (1 - t) := mul_nonneg ht.le (by linarith)
    have : 0 ≤ (2 - 2 * R) * (t + f) := mul_nonneg (by linarith) hf'.le
    positivity
  have e : bF2 (a - 1) ((k - a) / 3) R t f
      = a * k * ((3 / 2 - 2 * R) * (f + t - R * (f - t + 2 * t ^ 2)))
        + a * (R * ((3 / 2 - 2 * R) * (f - t + 2 * t ^ 2) + f / 2 - t / 2 + 4 / 3))
        + k * ((3 / 2 - 2 * R) * (2 / 3 - (f + t - R * (f - t + 2 * t ^ 2))))
        + R * ((3 / 2 - 2 * R) * (t - 2 * t ^ 2) + t / 2 - f * (2 - 2 * R)) := by
    unfold bF2
    ring
  rw [e]
  have := mul_pos hR z3
  have := mul_nonneg hk (mul_nonneg hY.le z2)
  have := mul_nonneg ha (mul_nonneg hR.le z4)
  have := mul_nonneg (mul_nonneg ha hk) (mul_nonneg hY.le z1)
  linarith

theorem bF3_pos (hA : -1 ≤ A) (hR : 0 < R) (hR' : R < 3 / 4)
    (ht' : t ≤ 2 / 3) (hf : f < 0) (hf' : 0 < t + f) : 0 < bF3 A R t f := by
  unfold bF3
  have h1 : 0 < R * (f + t) := mul_pos hR (by linarith)
  have h2 : 1 - f - 3 / 2 * t + R * (f + t) < 1 := by
    have : R * (f + t) ≤ 3 / 4 * (f + t) := mul_le_mul_of_nonneg_right hR'.le (by linarith)
    linarith
  nlinarith

theorem bF4_pos (hA : -1 ≤ A) (hR : 0 < R) (hR' : R < 3 / 4) (ht : 0 < t)
    (ht' : t ≤ 2 / 3) (hf : f < 0) (hf' : 0 < t + f) : 0 < bF4 A R t f := by
  unfold bF4
  have h1 : 0 < (f + 3 * t - R * (f - t)) / 4 := by nlinarith
  have h2 : (f + 3 * t - R * (f - t)) / 4 < 1 := by nlinarith
  nlinarith

theorem bF1_pos (hA : -1 ≤ A) (hR : 0 < R) (hR' : R < 3 / 4)
    (ht' : t ≤ 2 / 3) (hf : f < 0) (hf' : 0 < t + f) : 0 < bF1 A R t f := by
  unfold bF1
  have h1 : 0 < 3 / 2 * (f + t) - R * (3 / 2 * f + 5 / 2 * t - 4 / 3) := by nlinarith
  have h2 : 3 / 2 * (f + t) - R * (3 / 2 * f + 5 / 2 * t - 4 / 3) < 1 := by nlinarith
  nlinarith

end

/-- The determinant of the 2x2 system is Berryman's `F2`. -/
theorem det_eq (A B R t f : ℝ) :
    let h := 2 - 3 * t - f
    let N1 := (1 - R) * (1 - h / 2)
    let N2 := -((1 - R) * f / 2) - R * t / 2
    let N3 := (1 - R) * h / 2 - R * (1 - t)
    let N4 := (1 - R) * (1 + f) + R * (1 - t)
    (1 + N1 * A + 2 * (N1 + N2) * B) * (1 + N4 * A + (2 * N3 + N4) * B)
      - 2 * (N1 * B + N2 * (A + B)) * (N3 * A + (2 * N3 + N4) * B) = bF2 A B R t f := by
  intro h N1 N2 N3 N4
  simp only [bF2, h, N1, N2, N3, N4]
  ring

/-- Berryman's last term is the second diagonal shear plus the axial response. -/
theorem axial_eq (A B R t f : ℝ) :
    bF4 A R t f * bF5 A B R t f + bF6 A B R t f * bF7 A B R t f - bF8 A B R t f * bF9 A B R t f
      = bF2 A B R t f + bF4 A R t f * ((3 + (3 - 4 * R) * (A + 3 * B)) / 3) := by
  unfold bF2 bF4 bF5 bF6 bF7 bF8 bF9
  ring

theorem bQ_eq {A B R t f : ℝ} (h2 : bF2 A B R t f ≠ 0) (h4 : bF4 A R t f ≠ 0) :
    bQ A B R t f = (2 / bF3 A R t f + 2 / bF4 A R t f
      + (3 + (3 - 4 * R) * (A + 3 * B)) / 3 / bF2 A B R t f) / 5 := by
  unfold bQ
  rw [axial_eq]
  generalize bF2 A B R t f = x at *
  generalize bF4 A R t f = y at *
  congr 1
  field

/-- Solution of a 2x2 system. -/
theorem cramer {a b c d D x y u v : ℝ} (hD : a * d - b * c = D) (h0 : D ≠ 0) :
    (a * x + b * y = u ∧ c * x + d * y = v) ↔ (x = (d * u - b * v) / D ∧ y = (a * v - c * u) / D) := by
  subst hD
  constructor
  · rintro ⟨h1, h2⟩
    rw [eq_div_iff h0, eq_div_iff h0]
    constructor
    · linear_combination d * h1 - b * h2
    · linear_combination a * h2 - c * h1
  · rintro ⟨rfl, rfl⟩
    constructor
    · rw [mul_div_assoc', mul_div_assoc', ← add_div, div_eq_iff h0]
      ring
    · rw [mul_div_assoc', mul_div_assoc', ← add_div, div_eq_iff h0]
      ring

theorem shears_symm (m : Fin 5) : (shears m).IsSymm := by
  refine Matrix.IsSymm.ext fun i j => ?_
  fin_cases m <;> fin_cases i <;> fin_cases j <;> simp [shears]

/-- The five shears are orthonormal and have no trace. -/
theorem shears_orthonormal (m n : Fin 5) :
    (shears m).trace = 0 ∧ strainProduct (shears m) (shears n) = if m = n then 1 else 0 := by
  have h2 : √2 * √2 = 2 := Real.mul_self_sqrt (by norm_num)
  have h6 : √6 * √6 = 6 := Real.mul_self_sqrt (by norm_num)
  have p2 : 0 < √2 := by positivity
  have p6 : 0 < √6 := by positivity
  constructor
  · fin_cases m <;> simp [shears, trace_fin_three]
    all_goals ring
  · fin_cases m <;> fin_cases n <;>
      simp [shears, strainProduct, Fin.sum_univ_three]
    all_goals (field_simp; try nlinarith)

theorem half_half (F : ℝ) : 1 / √2 * (1 / √2 / F + 1 / √2 / F) = 1 / F := by
  have h2 : √2 * √2 = 2 := Real.mul_self_sqrt (by norm_num)
  have p2 : 0 < √2 := by positivity
  have : 1 / √2 * (1 / √2 / F + 1 / √2 / F) = 2 / (√2 * √2) / F := by
    rw [← add_div, div_eq_mul_inv _ F, div_eq_mul_inv _ F]
    field
  rw [this, h2]
  norm_num

theorem half_half' (F : ℝ) : 1 / √2 * ((1 / √2 - -1 / √2) / F) = 1 / F := by
  rw [← half_half F]
  ring

/-- The 2x2 system and its neighbours, abstracted from the elastic constants. -/
theorem solve_abstract {F2 F3 F4 m11 m12 m21 m22 : ℝ} (h2 : F2 ≠ 0) (h3 : F3 ≠ 0) (h4 : F4 ≠ 0)
    (det : m11 * m22 - m12 * m21 = F2) (I : Strain → Strain → Prop)
    (key : ∀ e0 : Strain, e0.IsSymm → ∀ e, I e0 e ↔
      e.IsSymm ∧ F4 * e 0 1 = e0 0 1 ∧ F3 * e 0 2 = e0 0 2 ∧ F3 * e 1 2 = e0 1 2 ∧
      F4 * (e 0 0 - e 1 1) = e0 0 0 - e0 1 1 ∧
      m11 * (e 0 0 + e 1 1) + m12 * e 2 2 = e0 0 0 + e0 1 1 ∧
      m21 * (e 0 0 + e 1 1) + m22 * e 2 2 = e0 2 2) (e0 : Strain) (h0 : e0.IsSymm) :
    (∃ e, I e0 e) ∧ ∀ e, I e0 e →
      e.IsSymm ∧ e 0 1 = e0 0 1 / F4 ∧ e 0 2 = e0 0 2 / F3 ∧ e 1 2 = e0 1 2 / F3 ∧
      e 0 0 - e 1 1 = (e0 0 0 - e0 1 1) / F4 ∧
      e 0 0 + e 1 1 = (m22 * (e0 0 0 + e0 1 1) - m12 * e0 2 2) / F2 ∧
      e 2 2 = (m11 * e0 2 2 - m21 * (e0 0 0 + e0 1 1)) / F2 := by
  constructor
  · refine ⟨!![((m22 * (e0 0 0 + e0 1 1) - m12 * e0 2 2) / F2 + (e0 0 0 - e0 1 1) / F4) / 2,
        e0 0 1 / F4, e0 0 2 / F3;
        e0 0 1 / F4, ((m22 * (e0 0 0 + e0 1 1) - m12 * e0 2 2) / F2 - (e0 0 0 - e0 1 1) / F4) / 2,
        e0 1 2 / F3;
        e0 0 2 / F3, e0 1 2 / F3, (m11 * e0 2 2 - m21 * (e0 0 0 + e0 1 1)) / F2],
      (key e0 h0 _).mpr ⟨?_, ?_, ?_, ?_, ?_, ?_⟩⟩
    · refine Matrix.IsSymm.ext fun i j => ?_
      fin_cases i <;> fin_cases j <;> rfl
    · simp only [of_apply, cons_val', cons_val_zero, cons_val_one]
      field
    · simp only [of_apply, cons_val', cons_val_zero, cons_val]
      field
    · simp only [of_apply, cons_val', cons_val_zero, cons_val_one, cons_val]
      field
    · simp only [of_apply, cons_val', cons_val_zero, cons_val_one]
      field
    · simp only [of_apply, cons_val', cons_val_zero, cons_val_one, cons_val]
      refine (cramer det h2).mpr ⟨?_, ?_⟩
      · ring
      · ring
  · intro e he
    obtain ⟨s, e01, e02, e12, ed, eu, ew⟩ := (key e0 h0 e).mp he
    obtain ⟨c1, c2⟩ := (cramer det h2).mp ⟨eu, ew⟩
    refine ⟨s, ?_, ?_, ?_, ?_, c1, c2⟩
    · rw [← e01]; field
    · rw [← e02]; field
    · rw [← e12]; field
    · rw [← ed]; field

section

variable {K G Ki Gi a : ℝ}

/-- The numbers entering Berryman's formulas. -/
theorem berryman_ranges (hK : 0 < K) (hG : 0 < G) (hKi : 0 ≤ Ki) (hGi : 0 ≤ Gi) :
    -1 ≤ Gi / G - 1 ∧ -1 ≤ Gi / G - 1 + 3 * ((Ki / K - Gi / G) / 3) ∧
      0 < G / (K + 4 / 3 * G) ∧ G / (K + 4 / 3 * G) < 3 / 4 := by
  have h1 : 0 ≤ Gi / G := by positivity
  have h2 : 0 ≤ Ki / K := by positivity
  refine ⟨by linarith, by linarith, by positivity, ?_⟩
  rw [div_lt_iff₀ (by positivity)]
  linarith

/-- Berryman's `P` and `Q`, as rational functions of the shape numbers, are the concentration
factors of a spheroid. -/
theorem berryman_concentration (hK : 0 < K) (hG : 0 < G) (ha : 0 < a)
    (h2 : bF2 (Gi / G - 1) ((Ki / K - Gi / G) / 3) (G / (K + 4 / 3 * G)) (shapeT a) (shapeF a) ≠ 0)
    (h3 : bF3 (Gi / G - 1) (G / (K + 4 / 3 * G)) (shapeT a) (shapeF a) ≠ 0)
    (h4 : bF4 (Gi / G - 1) (G / (K + 4 / 3 * G)) (shapeT a) (shapeF a) ≠ 0) :
    IsConcentration K G Ki Gi (spheroid a)
      (bP (Gi / G - 1) ((Ki / K - Gi / G) / 3) (G / (K + 4 / 3 * G)) (shapeT a) (shapeF a))
      (bQ (Gi / G - 1) ((Ki / K - Gi / G) / 3) (G / (K + 4 / 3 * G)) (shapeT a) (shapeF a)) := by
  have key := fun (e0 : Strain) (h0 : e0.IsSymm) (e : Strain) =>
    spheroid_solve (Ki := Ki) (Gi := Gi) (e := e) hK hG ha h0
  simp only at key
  have det := det_eq (Gi / G - 1) ((Ki / K - Gi / G) / 3) (G / (K + 4 / 3 * G)) (shapeT a)
    (shapeF a)
  simp only at det
  have ax := axial_eq (Gi / G - 1) ((Ki / K - Gi / G) / 3) (G / (K + 4 / 3 * G)) (shapeT a)
    (shapeF a)
  have d3 : 1 + (Gi / G - 1) * (1 - shapeF a - 3 / 2 * shapeT a
      + G / (K + 4 / 3 * G) * (shapeF a + shapeT a))
      = bF3 (Gi / G - 1) (G / (K + 4 / 3 * G)) (shapeT a) (shapeF a) := rfl
  have d4 : 1 + (Gi / G - 1) / 4 * (shapeF a + 3 * shapeT a
      - G / (K + 4 / 3 * G) * (shapeF a - shapeT a))
      = bF4 (Gi / G - 1) (G / (K + 4 / 3 * G)) (shapeT a) (shapeF a) := rfl
  unfold bP bQ
  rw [ax]
  have e1 : bF1 (Gi / G - 1) (G / (K + 4 / 3 * G)) (shapeT a) (shapeF a)
      = 1 + (Gi / G - 1) * (3 / 2 * (shapeF a + shapeT a)
        - G / (K + 4 / 3 * G) * (3 / 2 * shapeF a + 5 / 2 * shapeT a - 4 / 3)) := rfl
  rw [e1]
  simp only [d3, d4] at key
  clear e1 d3 d4 ax
  generalize bF2 (Gi / G - 1) ((Ki / K - Gi / G) / 3) (G / (K + 4 / 3 * G)) (shapeT a) (shapeF a)
    = F2 at *
  generalize bF3 (Gi / G - 1) (G / (K + 4 / 3 * G)) (shapeT a) (shapeF a) = F3 at *
  generalize bF4 (Gi / G - 1) (G / (K + 4 / 3 * G)) (shapeT a) (shapeF a) = F4 at *
  generalize Gi / G - 1 = A at *
  generalize (Ki / K - Gi / G) / 3 = B at *
  generalize G / (K + 4 / 3 * G) = R at *
  generalize shapeT a = t at *
  generalize shapeF a = f at *
  have sol := solve_abstract h2 h3 h4 det _ key
  refine ⟨(sol 1 Matrix.isSymm_one).1, fun m => (sol _ (shears_symm m)).1, ?_, ?_⟩
  · intro e he
    obtain ⟨-, -, -, -, -, eu, ew⟩ := (sol 1 Matrix.isSymm_one).2 e he
    rw [trace_fin_three, eu, ew]
    simp only [Matrix.one_apply_eq]
    field
  · intro e he
    have s := fun m => (sol _ (shears_symm m)).2 (e m) (he m)
    obtain ⟨-, -, -, -, d0, -, -⟩ := s 0
    obtain ⟨-, -, -, -, -, u1, w1⟩ := s 1
    obtain ⟨y2, x2, -, -, -, -, -⟩ := s 2
    obtain ⟨y3, -, x3, -, -, -, -⟩ := s 3
    obtain ⟨y4, -, -, x4, -, -, -⟩ := s 4
    have h6' : √6 * √6 = 6 := Real.mul_self_sqrt (by norm_num)
    have p6 : 0 < √6 := by positivity
    have y2' := y2.apply 0 1
    have y3' := y3.apply 0 2
    have y4' := y4.apply 1 2
    have c0 : strainProduct (shears 0) (e 0) = 1 / F4 := by
      have : strainProduct (shears 0) (e 0) = 1 / √2 * (e 0 0 0 - e 0 1 1) := by
        simp [strainProduct, shears, Fin.sum_univ_three]
        ring
      have k0 : shears 0 0 0 = 1 / √2 := rfl
      have k1 : shears 0 1 1 = -1 / √2 := rfl
      rw [this, d0, k0, k1, half_half']
    have c2 : strainProduct (shears 2) (e 2) = 1 / F4 := by
      have : strainProduct (shears 2) (e 2) = 1 / √2 * (e 2 0 1 + e 2 1 0) := by
        simp [strainProduct, shears, Fin.sum_univ_three]
        ring
      have k : shears 2 0 1 = 1 / √2 := rfl
      rw [this, y2', x2, k, half_half]
    have c3 : strainProduct (shears 3) (e 3) = 1 / F3 := by
      have : strainProduct (shears 3) (e 3) = 1 / √2 * (e 3 0 2 + e 3 2 0) := by
        simp [strainProduct, shears, Fin.sum_univ_three]
        ring
      have k : shears 3 0 2 = 1 / √2 := rfl
      rw [this, y3', x3, k, half_half]
    have c4 : strainProduct (shears 4) (e 4) = 1 / F3 := by
      have : strainProduct (shears 4) (e 4) = 1 / √2 * (e 4 1 2 + e 4 2 1) := by
        simp [strainProduct, shears, Fin.sum_univ_three]
        ring
      have k : shears 4 1 2 = 1 / √2 := rfl
      rw [this, y4', x4, k, half_half]
    have c1 : strainProduct (shears 1) (e 1) = (3 + (3 - 4 * R) * (A + 3 * B)) / 3 / F2 := by
      have : strainProduct (shears 1) (e 1) = 1 / √6 * (2 * e 1 2 2 - (e 1 0 0 + e 1 1 1)) := by
        simp [strainProduct, shears, Fin.sum_univ_three]
        ring
      rw [this, u1, w1]
      have k0 : shears 1 0 0 = -1 / √6 := rfl
      have k1 : shears 1 1 1 = -1 / √6 := rfl
      have k2 : shears 1 2 2 = 2 / √6 := rfl
      rw [k0, k1, k2]
      have : ∀ X Y Z W : ℝ, 1 / √6 * (2 * ((X * (2 / √6) - Y * (-1 / √6 + -1 / √6)) / F2)
          - (Z * (-1 / √6 + -1 / √6) - W * (2 / √6)) / F2)
          = (2 * X + 2 * Y + Z + W) / 3 / F2 := by
        intro X Y Z W
        have : 1 / √6 * (2 * ((X * (2 / √6) - Y * (-1 / √6 + -1 / √6)) / F2)
          - (Z * (-1 / √6 + -1 / √6) - W * (2 / √6)) / F2)
          = (2 * X + 2 * Y + Z + W) * (2 / (√6 * √6)) / F2 := by field
        rw [this, h6']
        ring
      rw [this]
      congr 2
      ring
    rw [Fin.sum_univ_five, c0, c1, c2, c3, c4]
    field

/-- The strain inside an oblate spheroid of non-negative moduli exists and is unique. -/
theorem inclusion_solution (hK : 0 < K) (hG : 0 < G) (hKi : 0 ≤ Ki) (hGi : 0 ≤ Gi) (ha : 0 < a)
    (h1 : a ≤ 1) {e0 : Strain} (h0 : e0.IsSymm) :
    let R := G / (K + 4 / 3 * G)
    let t := shapeT a
    let f := shapeF a
    let h := 2 - 3 * t - f
    let A := Gi / G - 1
    let B := (Ki / K - Gi / G) / 3
    let N1 := (1 - R) * (1 - h / 2)
    let N2 := -((1 - R) * f / 2) - R * t / 2
    let N3 := (1 - R) * h / 2 - R * (1 - t)
    let N4 := (1 - R) * (1 + f) + R * (1 - t)
    (∃ e, IsInclusionStrain K G Ki Gi (spheroid a) e0 e) ∧
    ∀ e, IsInclusionStrain K G Ki Gi (spheroid a) e0 e →
      e.IsSymm ∧ e 0 1 = e0 0 1 / bF4 A R t f ∧ e 0 2 = e0 0 2 / bF3 A R t f ∧
      e 1 2 = e0 1 2 / bF3 A R t f ∧ e 0 0 - e 1 1 = (e0 0 0 - e0 1 1) / bF4 A R t f ∧
      e 0 0 + e 1 1 = ((1 + N4 * A + (2 * N3 + N4) * B) * (e0 0 0 + e0 1 1)
        - 2 * (N1 * B + N2 * (A + B)) * e0 2 2) / bF2 A B R t f ∧
      e 2 2 = ((1 + N1 * A + 2 * (N1 + N2) * B) * e0 2 2
        - (N3 * A + (2 * N3 + N4) * B) * (e0 0 0 + e0 1 1)) / bF2 A B R t f := by
  obtain ⟨rA, rB, rR, rR'⟩ := berryman_ranges hK hG hKi hGi
  obtain ⟨b1, b2, b3, b4⟩ := shape_bounds ha h1
  have p2 := bF2_pos rA rB rR rR' b1 b2 b3 b4
  have p3 := bF3_pos rA rR rR' b2 b3 b4
  have p4 := bF4_pos rA rR rR' b1 b2 b3 b4
  exact solve_abstract p2.ne' p3.ne' p4.ne' (det_eq _ _ _ _ _) _
    (fun e0 h0 e => spheroid_solve (Ki := Ki) (Gi := Gi) (e := e) hK hG ha h0) e0 h0

end

end RockPhy.Spec
