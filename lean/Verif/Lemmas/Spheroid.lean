import Verif.Lemmas.Eshelby

/-! # Solving Eshelby's inclusion problem for a spheroid

All components of the tensor are expressed by the two shape numbers `theta` and `f` and the
elastic constant `R` that also appear in Berryman's formulas. -/

namespace RockPhy.Spec

open Matrix

/-- `I_1 / (2 pi)` of the spheroid. -/
noncomputable def shapeT (a : ℝ) : ℝ := muraI (spheroid a) 0 / (2 * Real.pi)

/-- `-a^2 I_13 / (2 pi)` of the spheroid. -/
noncomputable def shapeF (a : ℝ) : ℝ := -(a ^ 2 * (muraII (spheroid a) 0 2 / (2 * Real.pi)))

section

variable {a : ℝ}

theorem spheroid_I (ha : 0 < a) : muraI (spheroid a) 0 = 2 * Real.pi * shapeT a ∧
    muraI (spheroid a) 1 = 2 * Real.pi * shapeT a ∧
    muraI (spheroid a) 2 = 4 * Real.pi * (1 - shapeT a) := by
  have p := Real.pi_pos
  have e0 : muraI (spheroid a) 0 = 2 * Real.pi * shapeT a := by unfold shapeT; field
  have e1 : muraI (spheroid a) 1 = muraI (spheroid a) 0 := muraI_congr rfl
  have := muraI_sum (spheroid_pos ha)
  refine ⟨e0, e1.trans e0, ?_⟩
  rw [e1, e0] at this
  linarith

theorem spheroid_h (ha : 0 < a) :
    muraII (spheroid a) 0 2 = 2 * Real.pi * (2 - 3 * shapeT a - shapeF a) := by
  have p := Real.pi_pos
  have d := muraII_diff (spheroid_pos ha) 0 2
  have v0 : spheroid a 0 = 1 := rfl
  have v2 : spheroid a 2 = a := rfl
  obtain ⟨i0, -, i2⟩ := spheroid_I ha
  rw [i0, i2, v0, v2] at d
  have ef : 2 * Real.pi * shapeF a = -(a ^ 2 * muraII (spheroid a) 0 2) := by unfold shapeF; field
  linarith

theorem spheroid_II (ha : 0 < a) :
    muraII (spheroid a) 0 0 = Real.pi * (1 - (2 - 3 * shapeT a - shapeF a) / 2) ∧
    a ^ 2 * muraII (spheroid a) 0 2 = -(2 * Real.pi * shapeF a) ∧
    a ^ 2 * muraII (spheroid a) 2 2 = 4 * Real.pi / 3 * (1 + shapeF a) := by
  have p := Real.pi_pos
  have h := spheroid_h ha
  have s0 := muraII_sum (spheroid_pos ha) 0
  have s2 := muraII_sum (spheroid_pos ha) 2
  have v0 : spheroid a 0 = 1 := rfl
  have v2 : spheroid a 2 = a := rfl
  have c01 : muraII (spheroid a) 0 1 = muraII (spheroid a) 0 0 := muraII_congr rfl rfl
  have c20 : muraII (spheroid a) 2 0 = muraII (spheroid a) 0 2 := muraII_symm _ _
  have c21 : muraII (spheroid a) 2 1 = muraII (spheroid a) 0 2 :=
    (muraII_symm _ _).trans (muraII_congr rfl rfl)
  have ef : a ^ 2 * muraII (spheroid a) 0 2 = -(2 * Real.pi * shapeF a) := by unfold shapeF; field
  rw [c01, h, v0] at s0
  rw [c20, c21, v2] at s2
  refine ⟨by linarith, ef, ?_⟩
  have : a ^ 2 * (3 * muraII (spheroid a) 2 2 + 2 * muraII (spheroid a) 0 2) = 4 * Real.pi := by
    have : 3 * muraII (spheroid a) 2 2 + 2 * muraII (spheroid a) 0 2 = 4 * Real.pi / a ^ 2 := by
      linarith
    rw [this]
    field
  linarith

/-- Bounds on the shape numbers of an oblate spheroid. -/
theorem shape_bounds (ha : 0 < a) (h1 : a ≤ 1) :
    0 < shapeT a ∧ shapeT a ≤ 2 / 3 ∧ shapeF a < 0 ∧ 0 < shapeT a + shapeF a := by
  have p := Real.pi_pos
  have hI := muraI_pos (spheroid_pos ha) 0
  have hII := muraII_pos (spheroid_pos ha) 0 2
  have lt := muraII_lt (spheroid_pos ha) 0 2
  obtain ⟨i0, -, -⟩ := spheroid_I ha
  have v2 : spheroid a 2 = a := rfl
  have v0 : spheroid a 0 = 1 := rfl
  obtain ⟨-, ef, -⟩ := spheroid_II ha
  rw [v2, ef, i0] at lt
  have hf : 2 * Real.pi * shapeF a < 0 := by
    have : 0 < a ^ 2 * muraII (spheroid a) 0 2 := by positivity
    linarith
  have d := spheroid_h ha
  rw [i0] at hI
  have ht : 0 < shapeT a := by
    by_contra h
    have : 2 * Real.pi * shapeT a ≤ 0 := mul_nonpos_of_nonneg_of_nonpos (by positivity) (not_lt.mp h)
    linarith
  have hf' : shapeF a < 0 := by
    by_contra h
    have : 0 ≤ 2 * Real.pi * shapeF a := mul_nonneg (by positivity) (not_lt.mp h)
    linarith
  refine ⟨ht, ?_, hf', ?_⟩
  · have dd := muraII_diff (spheroid_pos ha) 0 2
    obtain ⟨-, -, i2⟩ := spheroid_I ha
    rw [v0, v2, i0, i2] at dd
    have : 0 ≤ (1 ^ 2 - a ^ 2) * muraII (spheroid a) 0 2 :=
      mul_nonneg (by nlinarith) hII.le
    have q : 0 ≤ 2 * Real.pi * (2 - 3 * shapeT a) := by linarith
    have := nonneg_of_mul_nonneg_right q (by positivity)
    linarith
  · have q : 0 < 2 * Real.pi * (shapeT a + shapeF a) := by linarith
    exact pos_of_mul_pos_right q (by positivity)

/-- The closed form of `theta` for an oblate spheroid. -/
theorem shapeT_oblate (h0 : 0 < a) (h1 : a < 1) :
    shapeT a = a * (Real.arccos a - a * √(1 - a ^ 2)) / √(1 - a ^ 2) ^ 3 := by
  have p := Real.pi_pos
  have hc : 0 < √(1 - a ^ 2) := Real.sqrt_pos.mpr (by nlinarith)
  unfold shapeT
  rw [oblate_I1 h0 h1]
  field

theorem shapeF_eq (h0 : 0 < a) (h1 : a ≠ 1) :
    shapeF a = a ^ 2 * (3 * shapeT a - 2) / (1 - a ^ 2) := by
  have p := Real.pi_pos
  have n : 1 - a ^ 2 ≠ 0 := by
    intro h
    have : (1 - a) * (1 + a) = 0 := by linear_combination h
    rcases mul_eq_zero.mp this with h | h
    · exact h1 (by linarith)
    · linarith
  have h := spheroid_h h0
  obtain ⟨-, ef, -⟩ := spheroid_II h0
  rw [h] at ef
  rw [eq_div_iff n]
  have : 2 * Real.pi * (shapeF a * (1 - a ^ 2) - a ^ 2 * (3 * shapeT a - 2)) = 0 := by
    linear_combination ef
  have := (mul_eq_zero.mp this).resolve_left (by positivity)
  linarith

theorem shape_sphere : shapeT 1 = 2 / 3 ∧ shapeF 1 = -(2 / 5) := by
  have p := Real.pi_pos
  have o : (0 : ℝ) < 1 := one_pos
  have c : ∀ i, spheroid 1 i = 1 := fun i => by fin_cases i <;> rfl
  obtain ⟨i0, i1, i2⟩ := spheroid_I o
  have e : muraI (spheroid 1) 2 = muraI (spheroid 1) 0 := muraI_congr ((c 2).trans (c 0).symm)
  have ht : shapeT 1 = 2 / 3 := by
    have : 2 * Real.pi * (shapeT 1 * 3 - 2) = 0 := by linarith
    have := (mul_eq_zero.mp this).resolve_left (by positivity)
    linarith
  refine ⟨ht, ?_⟩
  obtain ⟨j0, j1, -⟩ := spheroid_II o
  have e : muraII (spheroid 1) 0 2 = muraII (spheroid 1) 0 0 :=
    muraII_congr rfl ((c 2).trans (c 0).symm)
  rw [e, j0, ht] at j1
  have : Real.pi * (5 * shapeF 1 + 2) = 0 := by linarith
  have := (mul_eq_zero.mp this).resolve_left (by positivity)
  linarith

/-- `R = G/(K+4G/3)` in terms of Poisson's ratio. -/
theorem poisson_R {K G : ℝ} (hK : 0 < K) (hG : 0 < G) :
    1 / (8 * Real.pi * (1 - poisson K G)) = (1 - G / (K + 4 / 3 * G)) / (4 * Real.pi) ∧
    (1 - 2 * poisson K G) / (8 * Real.pi * (1 - poisson K G))
      = G / (K + 4 / 3 * G) / (4 * Real.pi) := by
  have p := Real.pi_pos
  have e : 1 - poisson K G = (3 * K + 4 * G) / (2 * (3 * K + G)) := by
    unfold poisson
    field
  have e2 : 1 - 2 * poisson K G = 3 * G / (3 * K + G) := by
    unfold poisson
    field
  have e3 : K + 4 / 3 * G = (3 * K + 4 * G) / 3 := by ring
  rw [e, e2, e3]
  constructor <;> field

/-- Eshelby's tensor of a spheroid. -/
theorem spheroid_tensor {K G : ℝ} (hK : 0 < K) (hG : 0 < G) (ha : 0 < a) :
    let R := G / (K + 4 / 3 * G)
    let t := shapeT a
    let f := shapeF a
    let h := 2 - 3 * t - f
    let N := eshelbyNormal (poisson K G) (spheroid a)
    let S := eshelbyShear (poisson K G) (spheroid a)
    N 0 0 = 3 / 4 * (1 - R) * (1 - h / 2) + R * t / 2 ∧
    N 1 1 = 3 / 4 * (1 - R) * (1 - h / 2) + R * t / 2 ∧
    N 0 1 = 1 / 4 * (1 - R) * (1 - h / 2) - R * t / 2 ∧
    N 1 0 = 1 / 4 * (1 - R) * (1 - h / 2) - R * t / 2 ∧
    N 0 2 = -((1 - R) * f / 2) - R * t / 2 ∧
    N 1 2 = -((1 - R) * f / 2) - R * t / 2 ∧
    N 2 0 = (1 - R) * h / 2 - R * (1 - t) ∧
    N 2 1 = (1 - R) * h / 2 - R * (1 - t) ∧
    N 2 2 = (1 - R) * (1 + f) + R * (1 - t) ∧
    S 0 1 = (f + 3 * t - R * (f - t)) / 8 ∧
    S 1 0 = (f + 3 * t - R * (f - t)) / 8 ∧
    S 0 2 = (1 - f - 3 / 2 * t + R * (f + t)) / 2 ∧
    S 2 0 = (1 - f - 3 / 2 * t + R * (f + t)) / 2 ∧
    S 1 2 = (1 - f - 3 / 2 * t + R * (f + t)) / 2 ∧
    S 2 1 = (1 - f - 3 / 2 * t + R * (f + t)) / 2 := by
  intro R t f h N S
  have p := Real.pi_pos
  obtain ⟨pr, pr2⟩ := poisson_R hK hG
  obtain ⟨i0, i1, i2⟩ := spheroid_I ha
  obtain ⟨j0, j1, j2⟩ := spheroid_II ha
  have jh := spheroid_h ha
  have v0 : spheroid a 0 = 1 := rfl
  have v1 : spheroid a 1 = 1 := rfl
  have v2 : spheroid a 2 = a := rfl
  have c11 : muraII (spheroid a) 1 1 = muraII (spheroid a) 0 0 := muraII_congr rfl rfl
  have c01 : muraII (spheroid a) 0 1 = muraII (spheroid a) 0 0 := muraII_congr rfl rfl
  have c10 : muraII (spheroid a) 1 0 = muraII (spheroid a) 0 0 := muraII_congr rfl rfl
  have c12 : muraII (spheroid a) 1 2 = muraII (spheroid a) 0 2 := muraII_congr rfl rfl
  have c20 : muraII (spheroid a) 2 0 = muraII (spheroid a) 0 2 := muraII_symm _ _
  have c21 : muraII (spheroid a) 2 1 = muraII (spheroid a) 0 2 :=
    (muraII_symm _ _).trans (muraII_congr rfl rfl)
  have pr3 : 3 / (8 * Real.pi * (1 - poisson K G)) = 3 * ((1 - R) / (4 * Real.pi)) := by
    rw [← pr]; ring
  have pr4 : (1 - 2 * poisson K G) / (16 * Real.pi * (1 - poisson K G)) = R / (8 * Real.pi) := by
    have : (1 - 2 * poisson K G) / (16 * Real.pi * (1 - poisson K G))
        = (1 - 2 * poisson K G) / (8 * Real.pi * (1 - poisson K G)) / 2 := by
      rw [div_div]; ring_nf
    rw [this, pr2]
    change R / (4 * Real.pi) / 2 = _
    field
  have pr5 : ∀ x, x / (16 * Real.pi * (1 - poisson K G)) = x * ((1 - R) / (8 * Real.pi)) := by
    intro x
    have : x / (16 * Real.pi * (1 - poisson K G))
        = x * (1 / (8 * Real.pi * (1 - poisson K G))) / 2 := by
      rw [mul_one_div, div_div]; ring_nf
    rw [this, pr]
    change x * ((1 - R) / (4 * Real.pi)) / 2 = _
    field
  change 1 / (8 * Real.pi * (1 - poisson K G)) = (1 - R) / (4 * Real.pi) at pr
  change (1 - 2 * poisson K G) / (8 * Real.pi * (1 - poisson K G)) = R / (4 * Real.pi) at pr2
  have n01 : (0 : Fin 3) ≠ 1 := by decide
  have n02 : (0 : Fin 3) ≠ 2 := by decide
  have n12 : (1 : Fin 3) ≠ 2 := by decide
  have x0 : muraII (spheroid a) 0 0 = Real.pi * (1 - h / 2) := j0
  have x2 : muraII (spheroid a) 0 2 = 2 * Real.pi * h := jh
  have x3 : a ^ 2 * muraII (spheroid a) 0 2 = -(2 * Real.pi * f) := j1
  have x4 : a ^ 2 * muraII (spheroid a) 2 2 = 4 * Real.pi / 3 * (1 + f) := j2
  have y0 : muraI (spheroid a) 0 = 2 * Real.pi * t := i0
  have y1 : muraI (spheroid a) 1 = 2 * Real.pi * t := i1
  have y2 : muraI (spheroid a) 2 = 4 * Real.pi * (1 - t) := i2
  have hh : h = 2 - 3 * t - f := rfl
  have sh01 : S 0 1 = (f + 3 * t - R * (f - t)) / 8 := by
    simp only [S, eshelbyShear]
    rw [pr4, pr5, v0, v1, c01, x0, y0, y1, hh]
    field
  have sh02 : S 0 2 = (1 - f - 3 / 2 * t + R * (f + t)) / 2 := by
    simp only [S, eshelbyShear]
    rw [pr4, pr5, v0, v2, y0, y2]
    have : (1 ^ 2 + a ^ 2) * ((1 - R) / (8 * Real.pi)) * muraII (spheroid a) 0 2
        = ((1 - R) / (8 * Real.pi)) * (2 * Real.pi * h - 2 * Real.pi * f) := by
      linear_combination ((1 - R) / (8 * Real.pi)) * (x2 + x3)
    rw [this, hh]
    field
  have symm : ∀ i j, S i j = S j i := by
    intro i j
    simp only [S, eshelbyShear]
    rw [muraII_symm i j]
    ring
  have sh12 : S 1 2 = S 0 2 := by
    simp only [S, eshelbyShear]
    rw [c12, v0, v1, y0, y1]
  refine ⟨?_, ?_, ?_, ?_, ?_, ?_, ?_, ?_, ?_, sh01, (symm _ _).trans sh01, sh02,
    (symm _ _).trans sh02, sh12.trans sh02, (symm _ _).trans (sh12.trans sh02)⟩
  · simp only [N, eshelbyNormal, if_true]
    rw [pr3, pr2, v0, x0, y0]; field
  · simp only [N, eshelbyNormal, if_true]
    rw [pr3, pr2, v1, c11, x0, y1]; field
  · simp only [N, eshelbyNormal, if_neg n01]
    rw [pr, pr2, v1, c01, x0, y0]; field
  · simp only [N, eshelbyNormal, if_neg n01.symm]
    rw [pr, pr2, v0, c10, x0, y1]; field
  · simp only [N, eshelbyNormal, if_neg n02]
    rw [pr, pr2, v2, mul_assoc, x3, y0]; field
  · simp only [N, eshelbyNormal, if_neg n12]
    rw [pr, pr2, v2, c12, mul_assoc, x3, y1]; field
  · simp only [N, eshelbyNormal, if_neg n02.symm]
    rw [pr, pr2, v0, c20, x2, y2]; field
  · simp only [N, eshelbyNormal, if_neg n12.symm]
    rw [pr, pr2, v1, c21, x2, y2]; field
  · simp only [N, eshelbyNormal, if_true]
    rw [pr3, pr2, v2, mul_assoc, x4, y2]; field

/-- The eigenstrain of the equivalent inclusion, eliminated. -/
theorem inclusion_iff {K G Ki Gi : ℝ} (hK : 0 < K) (hG : 0 < G) {b : Fin 3 → ℝ} {e0 e : Strain} :
    IsInclusionStrain K G Ki Gi b e0 e ↔
      ∃ t : Strain, t.IsSymm ∧
        (∀ i j, t i j = -((Gi / G - 1) * e i j
          + if i = j then (Ki / K - Gi / G) / 3 * e.trace else 0)) ∧
        e = e0 + eshelby (poisson K G) b t := by
  unfold IsInclusionStrain
  constructor
  · rintro ⟨t, ht, he, hh⟩
    refine ⟨t, ht, ?_, he⟩
    have c : ∀ i j, (hooke Ki Gi e) i j = (hooke K G (e - t)) i j := fun i j => by rw [hh]
    simp only [hooke, Matrix.add_apply, Matrix.smul_apply, Matrix.one_apply, smul_eq_mul, Matrix.sub_apply, trace_sub,
      mul_ite, mul_one, mul_zero] at c
    have tr : Ki * e.trace = K * (e.trace - t.trace) := by
      have c0 := c 0 0
      have c1 := c 1 1
      have c2 := c 2 2
      simp only [if_true] at c0 c1 c2
      rw [trace_fin_three] at *
      rw [trace_fin_three t] at *
      linarith
    have tr' : e.trace - t.trace = Ki / K * e.trace := by
      have : Ki / K * e.trace = (Ki * e.trace) / K := by ring
      rw [this, tr]
      field
    intro i j
    have cij := c i j
    split_ifs at cij ⊢ with hij
    · rw [tr'] at cij
      have : 2 * G * (t i j + ((Gi / G - 1) * e i j + (Ki / K - Gi / G) / 3 * e.trace)) = 0 := by
        have e1 : 2 * G * (t i j + ((Gi / G - 1) * e i j + (Ki / K - Gi / G) / 3 * e.trace))
            = 2 * G * t i j + 2 * (Gi - G) * e i j
              + (2 * G * (Ki / K) - 2 * Gi) / 3 * e.trace := by field
        have e2 : K * (Ki / K) = Ki := by field
        rw [e1]
        linear_combination cij + e2 * e.trace
      have := (mul_eq_zero.mp this).resolve_left (by positivity)
      linarith
    · have : 2 * G * (t i j + ((Gi / G - 1) * e i j + 0)) = 0 := by
        have e1 : 2 * G * (t i j + ((Gi / G - 1) * e i j + 0))
            = 2 * G * t i j + 2 * (Gi - G) * e i j := by field
        rw [e1]
        linear_combination cij
      have := (mul_eq_zero.mp this).resolve_left (by positivity)
      linarith
  · rintro ⟨t, ht, hc, he⟩
    refine ⟨t, ht, he, ?_⟩
    have tr : t.trace = e.trace - Ki / K * e.trace := by
      have c0 := hc 0 0
      have c1 := hc 1 1
      have c2 := hc 2 2
      simp only [if_true] at c0 c1 c2
      rw [trace_fin_three t, c0, c1, c2, trace_fin_three e]
      ring
    ext i j
    simp only [hooke, Matrix.add_apply, Matrix.smul_apply, Matrix.one_apply, smul_eq_mul, Matrix.sub_apply, trace_sub,
      mul_ite, mul_one, mul_zero]
    rw [tr, hc i j]
    split_ifs with hij <;> field

/-- The strain inside a spheroid: the off-diagonal components and the difference of the two
horizontal extensions are scaled, and the remaining two numbers solve a 2x2 system. -/
theorem spheroid_solve {K G Ki Gi : ℝ} (hK : 0 < K) (hG : 0 < G) (ha : 0 < a) {e0 e : Strain}
    (h0 : e0.IsSymm) :
    let R := G / (K + 4 / 3 * G)
    let t := shapeT a
    let f := shapeF a
    let h := 2 - 3 * t - f
    let A := Gi / G - 1
    let B := (Ki / K - Gi / G) / 3
    let N1 := (1 - R) * (1 - h / 2)
    let N2 := -((1 - R) * f / 2) - R * t / 2
    let N3 := (1 - R) * h / 2 - R * (1 - t)
    let N4 := (1 - R) * (1 + f) + R * (1 - t)
    let F3 := 1 + A * (1 - f - 3 / 2 * t + R * (f + t))
    let F4 := 1 + A / 4 * (f + 3 * t - R * (f - t))
    IsInclusionStrain K G Ki Gi (spheroid a) e0 e ↔
      e.IsSymm ∧ F4 * e 0 1 = e0 0 1 ∧ F3 * e 0 2 = e0 0 2 ∧ F3 * e 1 2 = e0 1 2 ∧
      F4 * (e 0 0 - e 1 1) = e0 0 0 - e0 1 1 ∧
      (1 + N1 * A + 2 * (N1 + N2) * B) * (e 0 0 + e 1 1)
        + 2 * (N1 * B + N2 * (A + B)) * e 2 2 = e0 0 0 + e0 1 1 ∧
      (N3 * A + (2 * N3 + N4) * B) * (e 0 0 + e 1 1)
        + (1 + N4 * A + (2 * N3 + N4) * B) * e 2 2 = e0 2 2 := by
  intro R t f h A B N1 N2 N3 N4 F3 F4
  obtain ⟨n00, n11, n01, n10, n02, n12, n20, n21, n22, s01, s10, s02, s20, s12, s21⟩ :=
    spheroid_tensor hK hG ha
  have d01 : (0 : Fin 3) ≠ 1 := by decide
  have d02 : (0 : Fin 3) ≠ 2 := by decide
  have d12 : (1 : Fin 3) ≠ 2 := by decide
  rw [inclusion_iff hK hG]
  have hA : Gi / G - 1 = A := rfl
  have hB : (Ki / K - Gi / G) / 3 = B := rfl
  have hR : G / (K + 4 / 3 * G) = R := rfl
  have ht : shapeT a = t := rfl
  have hf : shapeF a = f := rfl
  simp only [hR, ht, hf] at n00 n11 n01 n10 n02 n12 n20 n21 n22 s01 s10 s02 s20 s12 s21
  simp only [hA, hB]
  have q : ∀ i j, e0 i j = e0 j i := fun i j => h0.apply j i
  have off : ∀ u : Strain, ∀ i j, i ≠ j → (eshelby (poisson K G) (spheroid a) u) i j
      = eshelbyShear (poisson K G) (spheroid a) i j * (u i j + u j i) := by
    intro u i j hij
    simp only [eshelby, of_apply, if_neg hij]
  have dia : ∀ u : Strain, ∀ i, (eshelby (poisson K G) (spheroid a) u) i i
      = eshelbyNormal (poisson K G) (spheroid a) i 0 * u 0 0
        + eshelbyNormal (poisson K G) (spheroid a) i 1 * u 1 1
        + eshelbyNormal (poisson K G) (spheroid a) i 2 * u 2 2 := by
    intro u i
    simp only [eshelby, of_apply, if_true, Fin.sum_univ_three]
  constructor
  · rintro ⟨u, hu, hc, he⟩
    have us : ∀ i j, u i j = u j i := fun i j => hu.apply j i
    have ce : ∀ i j, e i j = e0 i j + (eshelby (poisson K G) (spheroid a) u) i j := fun i j => by
      conv_lhs => rw [he]
      rfl
    have es : ∀ i j, e i j = e j i := by
      intro i j
      by_cases hij : i = j
      · rw [hij]
      · rw [ce, ce, q, off u i j hij, off u j i (Ne.symm hij)]
        have : eshelbyShear (poisson K G) (spheroid a) i j
            = eshelbyShear (poisson K G) (spheroid a) j i := by
          unfold eshelbyShear
          rw [muraII_symm i j]
          ring
        rw [this]
        ring
    have e01 := ce 0 1
    have e02 := ce 0 2
    have e12 := ce 1 2
    have e00 := ce 0 0
    have e11 := ce 1 1
    have e22 := ce 2 2
    rw [off u _ _ d01, us 1 0, hc 0 1, if_neg d01, s01] at e01
    rw [off u _ _ d02, us 2 0, hc 0 2, if_neg d02, s02] at e02
    rw [off u _ _ d12, us 2 1, hc 1 2, if_neg d12, s12] at e12
    rw [dia, hc 0 0, hc 1 1, hc 2 2, if_pos rfl, if_pos rfl, if_pos rfl, n00, n01, n02] at e00
    rw [dia, hc 0 0, hc 1 1, hc 2 2, if_pos rfl, if_pos rfl, if_pos rfl, n10, n11, n12] at e11
    rw [dia, hc 0 0, hc 1 1, hc 2 2, if_pos rfl, if_pos rfl, if_pos rfl, n20, n21, n22] at e22
    rw [trace_fin_three] at e00 e11 e22
    refine ⟨Matrix.IsSymm.ext fun i j => es j i, ?_, ?_, ?_, ?_, ?_, ?_⟩
    · simp only [F4]; linear_combination e01
    · simp only [F3]; linear_combination e02
    · simp only [F3]; linear_combination e12
    · simp only [F4] at *; linear_combination e00 - e11
    · simp only [N1, N2]; linear_combination e00 + e11
    · simp only [N3, N4]; linear_combination e22
  · rintro ⟨es, e01, e02, e12, ed, eu, ew⟩
    have es' : ∀ i j, e i j = e j i := fun i j => es.apply j i
    refine ⟨Matrix.of fun i j => -(A * e i j + if i = j then B * e.trace else 0), ?_, ?_, ?_⟩
    · refine Matrix.IsSymm.ext fun i j => ?_
      simp only [of_apply, es' j i, eq_comm (a := j)]
    · intro i j; rfl
    · have k01 : e 0 1 = e0 0 1 - (f + 3 * t - R * (f - t)) / 8 * (2 * (A * e 0 1)) := by
        simp only [F4] at e01; linear_combination e01
      have k02 : e 0 2 = e0 0 2
          - (1 - f - 3 / 2 * t + R * (f + t)) / 2 * (2 * (A * e 0 2)) := by
        simp only [F3] at e02; linear_combination e02
      have k12 : e 1 2 = e0 1 2
          - (1 - f - 3 / 2 * t + R * (f + t)) / 2 * (2 * (A * e 1 2)) := by
        simp only [F3] at e12; linear_combination e12
      ext i j
      rw [Matrix.add_apply]
      fin_cases i <;> fin_cases j <;> simp only [Fin.zero_eta, Fin.mk_one, Fin.reduceFinMk]
      · rw [dia]
        simp only [of_apply, if_true, n00, n01, n02, trace_fin_three]
        simp only [F4, N1, N2, h] at ed eu ⊢
        linear_combination (ed + eu) / 2
      · rw [off _ _ _ d01, s01]
        simp only [of_apply, if_neg d01, if_neg d01.symm, es' 1 0]
        linear_combination k01
      · rw [off _ _ _ d02, s02]
        simp only [of_apply, if_neg d02, if_neg d02.symm, es' 2 0]
        linear_combination k02
      · rw [off _ _ _ d01.symm, s10]
        simp only [of_apply, if_neg d01, if_neg d01.symm, es' 1 0, q 1 0]
        linear_combination k01
      · rw [dia]
        simp only [of_apply, if_true, n11, n10, n12, trace_fin_three]
        simp only [F4, N1, N2, h] at ed eu ⊢
        linear_combination (eu - ed) / 2
      · rw [off _ _ _ d12, s12]
        simp only [of_apply, if_neg d12, if_neg d12.symm, es' 2 1]
        linear_combination k12
      · rw [off _ _ _ d02.symm, s20]
        simp only [of_apply, if_neg d02, if_neg d02.symm, es' 2 0, q 2 0]
        linear_combination k02
      · rw [off _ _ _ d12.symm, s21]
        simp only [of_apply, if_neg d12, if_neg d12.symm, es' 2 1, q 2 1]
        linear_combination k12
      · rw [dia]
        simp only [of_apply, if_true, n20, n21, n22, trace_fin_three]
        simp only [N3, N4] at ew
        linear_combination ew

end

end RockPhy.Spec
