import Verif.Props.Eshelby

/-! # Property C80: aligned spheroidal pores (`EM.Eshelby_Cheng`) -/

namespace RockPhy.EM

open Fl Spec

theorem Cheng_S_eval {K G a : ℝ} (hK : 0 < K) (hG : 0 < G) (h0 : 0 < a) (h1 : a < 1) :
    let R := G / (K + 4 / 3 * G)
    let t := shapeT a
    let f := shapeF a
    let h := 2 - 3 * t - f
    Eshelby_Cheng_S (fin K) (fin G) (fin a) =
      { S11 := fin (3 / 4 * (1 - R) * (1 - h / 2) + R * t / 2)
        S33 := fin ((1 - R) * (1 + f) + R * (1 - t))
        S12 := fin (1 / 4 * (1 - R) * (1 - h / 2) - R * t / 2)
        S13 := fin (-((1 - R) * f / 2) - R * t / 2)
        S31 := fin ((1 - R) * h / 2 - R * (1 - t))
        S1212 := fin ((f + 3 * t - R * (f - t)) / 8)
        S1313 := fin ((1 - f - 3 / 2 * t + R * (f + t)) / 2) } := by
  intro R t f h
  have pp := Real.pi_pos
  have pc : 0 < 1 - a ^ 2 := by nlinarith
  have ps : 0 < √(1 - a ^ 2) := Real.sqrt_pos.mpr pc
  have ps2 : √(1 - a ^ 2) ^ 2 = 1 - a ^ 2 := Real.sq_sqrt pc.le
  have ac : -1 ≤ a ∧ a ≤ 1 := ⟨by linarith, h1.le⟩
  obtain ⟨q1, q2⟩ := poisson_R hK hG
  change 1 / (8 * Real.pi * (1 - poisson K G)) = (1 - R) / (4 * Real.pi) at q1
  change (1 - 2 * poisson K G) / (8 * Real.pi * (1 - poisson K G)) = R / (4 * Real.pi) at q2
  have es : (3 * K - 2 * G) / (6 * K + 2 * G) = poisson K G := by
    unfold poisson
    congr 1
    ring
  have d0 : 6 * K + 2 * G ≠ 0 := by positivity
  have d1 : 1 - poisson K G ≠ 0 := by
    have : 1 - poisson K G = (3 * K + 4 * G) / (2 * (3 * K + G)) := by unfold poisson; field
    rw [this]
    positivity
  have d2 : 1 - 2 * poisson K G ≠ 0 := by
    have : 1 - 2 * poisson K G = 3 * G / (3 * K + G) := by unfold poisson; field
    rw [this]
    positivity
  have d3 : 8 * Real.pi * (1 - poisson K G) ≠ 0 := mul_ne_zero (by positivity) d1
  have d4 : √(1 - a ^ 2) ^ 3 ≠ 0 := by positivity
  have d5 : 3 * √(1 - a ^ 2) ^ 2 ≠ 0 := by positivity
  have q3 : 3 * (R / (4 * Real.pi)) / (1 - 2 * poisson K G) = 3 * ((1 - R) / (4 * Real.pi)) := by
    rw [← q1, ← q2]
    field
  have ht := shapeT_oblate h0 h1
  have hf := shapeF_eq h0 h1.ne
  have eI : 2 * Real.pi * a * (Real.arccos a - a * √(1 - a ^ 2)) / √(1 - a ^ 2) ^ 3
      = 2 * Real.pi * t := by
    change _ = 2 * Real.pi * shapeT a
    rw [ht]
    field
  have eh : (4 * Real.pi - 2 * (2 * Real.pi * t) - 2 * Real.pi * t) / (3 * √(1 - a ^ 2) ^ 2)
      = 2 * Real.pi / 3 * h := by
    rw [ps2, div_eq_iff (by positivity)]
    change _ = 2 * Real.pi / 3 * (2 - 3 * t - shapeF a) * (3 * (1 - a ^ 2))
    rw [hf]
    change _ = 2 * Real.pi / 3 * (2 - 3 * t - a ^ 2 * (3 * t - 2) / (1 - a ^ 2)) * (3 * (1 - a ^ 2))
    field
  have eh2 : h * a ^ 2 = -f := by
    have : shapeF a * (1 - a ^ 2) = a ^ 2 * (3 * shapeT a - 2) := by
      rw [hf]; field
    change (2 - 3 * shapeT a - shapeF a) * a ^ 2 = -shapeF a
    linear_combination this
  have hh : h = 2 - 3 * t - f := rfl
  unfold Eshelby_Cheng_S
  simp (disch := first | assumption | positivity) only [fl, es, q2, q3, eI, eh]
  congr 1 <;> refine congrArg fin ?_
  · field
  · have : 4 * Real.pi / 3 - 2 * (2 * Real.pi / 3 * h) * a ^ 2
        = 4 * Real.pi / 3 - 4 * Real.pi / 3 * (h * a ^ 2) := by ring
    rw [this, eh2]
    field
  · field
  · have : 3 * ((1 - R) / (4 * Real.pi)) * (2 * Real.pi / 3 * h) * a ^ 2
        = 3 * ((1 - R) / (4 * Real.pi)) * (2 * Real.pi / 3) * (h * a ^ 2) := by ring
    rw [this, eh2]
    field
  · field
  · rw [hh]
    field
  · have : 3 * ((1 - R) / (4 * Real.pi)) * (1 + a ^ 2) * (2 * Real.pi / 3 * h)
        = 3 * ((1 - R) / (4 * Real.pi)) * (2 * Real.pi / 3) * (h + h * a ^ 2) := by ring
    rw [this, eh2, hh]
    field

/-- `Eshelby_Cheng_moduli` on reals. -/
theorem Cheng_moduli_eval {K G phi Kf S11 S33 S12 S13 S31 S1212 S1313 C D : ℝ}
    (hKf : K - Kf ≠ 0) (hC : C = Kf / (3 * (K - Kf)))
    (hD : D = S33 * S11 + S33 * S12 - 2 * S31 * S13 - (S11 + S12 + S33 - 1 - 3 * C)
      - C * (S11 + S12 + 2 * (S33 - S13 - S31)))
    (nD : D ≠ 0) (n1 : S12 - S11 + 1 ≠ 0) (n2 : 1 - 2 * S1313 ≠ 0) (n3 : 1 - 2 * S1212 ≠ 0) :
    Eshelby_Cheng_moduli (fin K) (fin G) (fin phi) (fin Kf)
      ⟨fin S11, fin S33, fin S12, fin S13, fin S31, fin S1212, fin S1313⟩
      = (fin (K - 2 * G / 3 + 2 * G - phi * ((K - 2 * G / 3) * (S31 - S33 + 1)
          + 2 * G * (S33 * S11 - S31 * S13 - (S33 + S11 - 2 * C - 1)
            + C * (S31 + S13 - S11 - S33)) / (D * (S12 - S11 + 1)))),
         fin (K - 2 * G / 3 + 2 * G - phi * (((K - 2 * G / 3 + 2 * G) * (-S12 - S11 + 1)
          + 2 * (K - 2 * G / 3) * S13 + 4 * G * C) / D)),
         fin (K - 2 * G / 3 - phi * (((K - 2 * G / 3 + 2 * G) * (S13 + S31) - 4 * G * C
          + (K - 2 * G / 3) * (S13 - S12 - S11 - S33 + 2)) / (2 * D))),
         fin (G - phi * (G / (1 - 2 * S1313))),
         fin (G - phi * (G / (1 - 2 * S1212)))) := by
  have m : D * (S12 - S11 + 1) ≠ 0 := mul_ne_zero nD n1
  have nC : 3 * (K - Kf) ≠ 0 := mul_ne_zero (by norm_num) hKf
  have n2D : 2 * D ≠ 0 := mul_ne_zero (by norm_num) nD
  unfold Eshelby_Cheng_moduli
  simp (disch := first | assumption | positivity) only [fl, ← hC, ← hD]

/-- The stress of the axial part of the strain, for a fluid with `Kf = 3CK/(1+3C)`. -/
theorem Cheng_axial {K G C phi N1 N2 N3 N4 D U0 w0 U w : ℝ} (hC : 1 + 3 * C ≠ 0) (hD : D ≠ 0)
    (hU : U = ((1 + N4 * (-1) + (2 * N3 + N4) * (C / (1 + 3 * C))) * U0
      - 2 * (N1 * (C / (1 + 3 * C)) + N2 * (-1 + C / (1 + 3 * C))) * w0) / (D / (1 + 3 * C)))
    (hw : w = ((1 + N1 * (-1) + 2 * (N1 + N2) * (C / (1 + 3 * C))) * w0
      - (N3 * (-1) + (2 * N3 + N4) * (C / (1 + 3 * C))) * U0) / (D / (1 + 3 * C)))
    (sym : (K - 2 * G / 3) * (1 - N1 + 2 * N2) + 2 * G * N2
      = (K - 2 * G / 3) * (1 - N4 + N3) + 2 * G * N3) :
    (K - 2 * G / 3) * (U0 + w0) + 2 * G * w0
        + phi * ((3 * C * K / (1 + 3 * C) - (K - 2 * G / 3)) * (U + w) - 2 * G * w)
      = (K - 2 * G / 3 - phi * (((K - 2 * G / 3 + 2 * G) * (N2 + N3) - 4 * G * C
          + (K - 2 * G / 3) * (N2 - N1 - N4 + 2)) / (2 * D))) * U0
        + (K - 2 * G / 3 + 2 * G - phi * (((K - 2 * G / 3 + 2 * G) * (1 - N1)
          + 2 * (K - 2 * G / 3) * N2 + 4 * G * C) / D)) * w0 ∧
    2 * ((K - 2 * G / 3) * (U0 + w0)) + 2 * G * U0
        + phi * (2 * ((3 * C * K / (1 + 3 * C) - (K - 2 * G / 3)) * (U + w)) - 2 * G * U)
      = 2 * (K - 2 * G / 3 + G - phi * (((K - 2 * G / 3 + G) * (1 - N4)
          + (K - 2 * G / 3) * N3 + G * C) / D)) * U0
        + 2 * (K - 2 * G / 3 - phi * (((K - 2 * G / 3 + 2 * G) * (N2 + N3) - 4 * G * C
          + (K - 2 * G / 3) * (N2 - N1 - N4 + 2)) / (2 * D))) * w0 := by
  have hK : 3 * C * K / (1 + 3 * C) = K - K / (1 + 3 * C) := by field
  have eU : U = (((1 - N4) * (1 + 3 * C) + (2 * N3 + N4) * C) * U0
      - 2 * (N1 * C - N2 * (1 + 2 * C)) * w0) / D := by
    rw [hU, eq_div_iff hD, div_div_eq_mul_div, div_mul_cancel₀ _ hD]
    linear_combination ((2 * N3 + N4) * U0 - 2 * (N1 + N2) * w0) * (div_mul_cancel₀ C hC)
  have ew : w = (((1 - N1) * (1 + 3 * C) + 2 * (N1 + N2) * C) * w0
      + (N3 * (1 + 3 * C) - (2 * N3 + N4) * C) * U0) / D := by
    rw [hw, eq_div_iff hD, div_div_eq_mul_div, div_mul_cancel₀ _ hD]
    linear_combination (2 * (N1 + N2) * w0 - (2 * N3 + N4) * U0) * (div_mul_cancel₀ C hC)
  have es : U + w = (1 + 3 * C) * ((1 - N4 + N3) * U0 + (1 - N1 + 2 * N2) * w0) / D := by
    rw [eU, ew]; field
  have ek : (3 * C * K / (1 + 3 * C) - (K - 2 * G / 3)) * (U + w)
      = (2 * G / 3 * (1 + 3 * C) - K) * ((1 - N4 + N3) * U0 + (1 - N1 + 2 * N2) * w0) / D := by
    rw [hK, es]; field
  have sym' : ((K - 2 * G / 3) * (1 - N1 + 2 * N2) + 2 * G * N2) / D
      = ((K - 2 * G / 3) * (1 - N4 + N3) + 2 * G * N3) / D := by rw [sym]
  rw [ek, eU, ew]
  constructor
  · linear_combination (phi * U0 / 2) * sym'
  · linear_combination -(phi * w0) * sym'

end RockPhy.EM

namespace RockPhy.Props

open Fl EM Spec Matrix

/-! ## C80: aligned pores -/

/-- All constants, with the error of `C11` in terms of the shape numbers. -/
theorem Cheng_main (K G Kf phi a : ℝ) (hK : 0 < K) (hG : 0 < G) (hKf : 0 ≤ Kf)
    (hne : Kf ≠ K) (h0 : 0 < a) (h1 : a < 1) :
    ∃ C11 C33 C13 C44 C66 X : ℝ,
      Eshelby_Cheng (fin K) (fin G) (fin phi) (fin a) (fin Kf) false
        = .inl (fin C11, fin C33, fin C13, fin C44, fin C66) ∧
      Eshelby_Cheng (fin K) (fin G) (fin phi) (fin a) (fin Kf) true
        = .inr (utils.write_VTI_matrix (fin C11) (fin C33) (fin C13) (fin C44) (fin C66)) ∧
      X - C11 = phi * ((K - 2 * G / 3) * ((1 - G / (K + 4 / 3 * G))
          * (2 - 3 * shapeT a - shapeF a) / 2 - G / (K + 4 / 3 * G) * (1 - shapeT a)
        - ((1 - G / (K + 4 / 3 * G)) * (1 + shapeF a)
          + G / (K + 4 / 3 * G) * (1 - shapeT a)) + 1)
        * (1 - 1 / (bF2 (-1) (Kf / (3 * K)) (G / (K + 4 / 3 * G)) (shapeT a) (shapeF a)
          * (1 + 3 * (Kf / (3 * (K - Kf))))))) ∧
      ∀ e0 : Strain, e0.IsSymm → (∃ s, IsDiluteStress K G Kf 0 (spheroid a) phi e0 s) ∧
        ∀ s, IsDiluteStress K G Kf 0 (spheroid a) phi e0 s →
          s 2 2 = C13 * (e0 0 0 + e0 1 1) + C33 * e0 2 2 ∧
          s 0 2 = 2 * C44 * e0 0 2 ∧ s 1 2 = 2 * C44 * e0 1 2 ∧ s 0 1 = 2 * C66 * e0 0 1 ∧
          s 0 0 = X * e0 0 0 + (X - 2 * C66) * e0 1 1 + C13 * e0 2 2 ∧
          s 1 1 = (X - 2 * C66) * e0 0 0 + X * e0 1 1 + C13 * e0 2 2 := by
  have dK : K - Kf ≠ 0 := sub_ne_zero.mpr hne.symm
  obtain ⟨rA, rB, rR, rR'⟩ := berryman_ranges hK hG hKf le_rfl
  obtain ⟨b1, b2, b3, b4⟩ := shape_bounds h0 h1.le
  have p2 := bF2_pos rA rB rR rR' b1 b2 b3 b4
  have p3 := bF3_pos rA rR rR' b2 b3 b4
  have p4 := bF4_pos rA rR rR' b1 b2 b3 b4
  have sol := fun (e0 : Strain) (hs : e0.IsSymm) =>
    inclusion_solution hK hG hKf le_rfl h0 h1.le hs
  simp only at sol
  have sev := Cheng_S_eval hK hG h0 h1
  simp only at sev
  have det := det_eq (0 / G - 1) ((Kf / K - 0 / G) / 3) (G / (K + 4 / 3 * G)) (shapeT a) (shapeF a)
  simp only at det
  have d3 : bF3 (0 / G - 1) (G / (K + 4 / 3 * G)) (shapeT a) (shapeF a)
      = 1 - 2 * ((1 - shapeF a - 3 / 2 * shapeT a
        + G / (K + 4 / 3 * G) * (shapeF a + shapeT a)) / 2) := by
    unfold bF3; ring
  have d4 : bF4 (0 / G - 1) (G / (K + 4 / 3 * G)) (shapeT a) (shapeF a)
      = 1 - 2 * ((shapeF a + 3 * shapeT a
        - G / (K + 4 / 3 * G) * (shapeF a - shapeT a)) / 8) := by
    unfold bF4; ring
  have eB : (Kf / K - 0 / G) / 3 = Kf / (3 * K) := by field
  have eA : 0 / G - 1 = -1 := by simp
  simp only [eA, eB] at p2 p3 p4 det d3 d4 sol
  have hC1 : 1 + 3 * (Kf / (3 * (K - Kf))) = K / (K - Kf) := by field
  have nC : 1 + 3 * (Kf / (3 * (K - Kf))) ≠ 0 := by
    rw [hC1]; exact div_ne_zero hK.ne' dK
  have eBC : Kf / (3 * K) = Kf / (3 * (K - Kf)) / (1 + 3 * (Kf / (3 * (K - Kf)))) := by
    rw [hC1]; field
  have eKC : Kf = 3 * (Kf / (3 * (K - Kf))) * K / (1 + 3 * (Kf / (3 * (K - Kf)))) := by
    rw [hC1]; field
  have sym : (K - 2 * G / 3) * (1 - (1 - G / (K + 4 / 3 * G))
        * (1 - (2 - 3 * shapeT a - shapeF a) / 2)
      + 2 * (-((1 - G / (K + 4 / 3 * G)) * shapeF a / 2) - G / (K + 4 / 3 * G) * shapeT a / 2))
      + 2 * G * (-((1 - G / (K + 4 / 3 * G)) * shapeF a / 2) - G / (K + 4 / 3 * G) * shapeT a / 2)
      = (K - 2 * G / 3) * (1 - ((1 - G / (K + 4 / 3 * G)) * (1 + shapeF a)
          + G / (K + 4 / 3 * G) * (1 - shapeT a))
        + ((1 - G / (K + 4 / 3 * G)) * (2 - 3 * shapeT a - shapeF a) / 2
          - G / (K + 4 / 3 * G) * (1 - shapeT a)))
        + 2 * G * ((1 - G / (K + 4 / 3 * G)) * (2 - 3 * shapeT a - shapeF a) / 2
          - G / (K + 4 / 3 * G) * (1 - shapeT a)) := by
    have : 0 < K + 4 / 3 * G := by positivity
    field
  unfold Eshelby_Cheng Eshelby_Cheng_consts
  rw [sev]
  clear sev eA eB hC1
  simp only [if_true, if_false, Bool.true_eq_false]
  generalize hCd : Kf / (3 * (K - Kf)) = C at *
  rw [eBC] at sol det p2 ⊢
  have n12 : 1 / 4 * (1 - G / (K + 4 / 3 * G)) * (1 - (2 - 3 * shapeT a - shapeF a) / 2)
      - G / (K + 4 / 3 * G) * shapeT a / 2 - (3 / 4 * (1 - G / (K + 4 / 3 * G))
        * (1 - (2 - 3 * shapeT a - shapeF a) / 2) + G / (K + 4 / 3 * G) * shapeT a / 2) + 1
      = bF4 (-1) (G / (K + 4 / 3 * G)) (shapeT a) (shapeF a) := by
    unfold bF4; ring
  have nS : 3 / 4 * (1 - G / (K + 4 / 3 * G)) * (1 - (2 - 3 * shapeT a - shapeF a) / 2)
      + G / (K + 4 / 3 * G) * shapeT a / 2 = (1 - G / (K + 4 / 3 * G))
        * (1 - (2 - 3 * shapeT a - shapeF a) / 2) - (1 / 4 * (1 - G / (K + 4 / 3 * G))
          * (1 - (2 - 3 * shapeT a - shapeF a) / 2) - G / (K + 4 / 3 * G) * shapeT a / 2) := by
    ring
  generalize bF2 (-1) (C / (1 + 3 * C)) (G / (K + 4 / 3 * G)) (shapeT a) (shapeF a) = F2 at *
  generalize bF3 (-1) (G / (K + 4 / 3 * G)) (shapeT a) (shapeF a) = F3 at *
  generalize bF4 (-1) (G / (K + 4 / 3 * G)) (shapeT a) (shapeF a) = F4 at *
  generalize 3 / 4 * (1 - G / (K + 4 / 3 * G)) * (1 - (2 - 3 * shapeT a - shapeF a) / 2)
      + G / (K + 4 / 3 * G) * shapeT a / 2 = S11 at *
  generalize 1 / 4 * (1 - G / (K + 4 / 3 * G)) * (1 - (2 - 3 * shapeT a - shapeF a) / 2)
      - G / (K + 4 / 3 * G) * shapeT a / 2 = S12 at *
  generalize (1 - G / (K + 4 / 3 * G)) * (1 - (2 - 3 * shapeT a - shapeF a) / 2) = N1 at *
  generalize -((1 - G / (K + 4 / 3 * G)) * shapeF a / 2) - G / (K + 4 / 3 * G) * shapeT a / 2
    = N2 at *
  generalize (1 - G / (K + 4 / 3 * G)) * (2 - 3 * shapeT a - shapeF a) / 2
      - G / (K + 4 / 3 * G) * (1 - shapeT a) = N3 at *
  generalize (1 - G / (K + 4 / 3 * G)) * (1 + shapeF a)
      + G / (K + 4 / 3 * G) * (1 - shapeT a) = N4 at *
  generalize (shapeF a + 3 * shapeT a - G / (K + 4 / 3 * G) * (shapeF a - shapeT a)) / 8
    = S1212 at *
  generalize (1 - shapeF a - 3 / 2 * shapeT a
      + G / (K + 4 / 3 * G) * (shapeF a + shapeT a)) / 2 = S1313 at *
  clear rA rB rR rR' b1 b2 b3 b4
  have hb := div_mul_cancel₀ C nC
  have hD : F2 * (1 + 3 * C) = N4 * S11 + N4 * S12 - 2 * N3 * N2 - (S11 + S12 + N4 - 1 - 3 * C)
      - C * (S11 + S12 + 2 * (N4 - N2 - N3)) := by
    rw [← det, nS]
    linear_combination (2 * (N1 + N2) * (1 - N4) + (1 - N1) * (2 * N3 + N4)
      + 2 * ((N1 + N2) * N3 + N2 * (2 * N3 + N4))) * hb
  have nD : F2 * (1 + 3 * C) ≠ 0 := mul_ne_zero p2.ne' nC
  have ev := Cheng_moduli_eval (G := G) (phi := phi) dK hCd.symm hD nD (by rw [n12]; exact p4.ne')
    (by rw [← d3]; exact p3.ne') (by rw [← d4]; exact p4.ne')
  have eF2 : F2 = F2 * (1 + 3 * C) / (1 + 3 * C) := by field
  generalize F2 * (1 + 3 * C) = D at *
  rw [ev]
  dsimp only
  refine ⟨_, _, _, _, _, ((K - 2 * G / 3 + G - phi * (((K - 2 * G / 3 + G) * (1 - N4)
          + (K - 2 * G / 3) * N3 + G * C) / D)) + (G - phi * (G / (1 - 2 * S1212)))), rfl, rfl, ?_, ?_⟩
  · have e2 : 2 * (N4 * S11 - N3 * N2 - (N4 + S11 - 2 * C - 1) + C * (N3 + N2 - S11 - N4))
        = (1 - N4 + C) * (S12 - S11 + 1) + D := by
      rw [hD]; ring
    have e3 : 2 * G * (N4 * S11 - N3 * N2 - (N4 + S11 - 2 * C - 1) + C * (N3 + N2 - S11 - N4))
        = G * ((1 - N4 + C) * (S12 - S11 + 1) + D) := by rw [← e2]; ring
    rw [e3, n12, ← d4]
    have := p4.ne'
    field
  intro e0 h0s
  obtain ⟨⟨e, he⟩, uniq⟩ := sol e0 h0s
  refine ⟨⟨_, e, he, rfl⟩, ?_⟩
  rintro s ⟨e, he, rfl⟩
  obtain ⟨es, e01, e02, e12, ed, eu, ew⟩ := uniq e he
  rw [eF2] at eu ew
  obtain ⟨a1, a2⟩ := Cheng_axial (phi := phi) nC nD eu ew sym
  have tr : e.trace = (e 0 0 + e 1 1) + e 2 2 := trace_fin_three e
  have tr0 : e0.trace = (e0 0 0 + e0 1 1) + e0 2 2 := trace_fin_three e0
  rw [← eKC] at a1 a2
  have st : ∀ i j, (hooke K G e0 + phi • (hooke Kf 0 e - hooke K G e)) i j
      = (if i = j then (K - 2 * G / 3) * e0.trace else 0) + 2 * G * e0 i j
        + phi * ((if i = j then (Kf - (K - 2 * G / 3)) * e.trace else 0) - 2 * G * e i j) := by
    intro i j
    simp only [hooke, Matrix.add_apply, Matrix.smul_apply, Matrix.sub_apply, Matrix.one_apply,
      smul_eq_mul, mul_ite, mul_one, mul_zero]
    split_ifs <;> ring
  simp only [st, if_true, tr, tr0, Fin.isValue, Fin.reduceEq, if_false]
  have nSS : -S12 - S11 + 1 = 1 - N1 := by rw [nS]; ring
  have nSS2 : N2 - S12 - S11 - N4 + 2 = N2 - N1 - N4 + 2 := by rw [nS]; ring
  rw [nSS, nSS2, ← d3, ← d4]
  have ed' : e 0 0 - e 1 1 = (e0 0 0 - e0 1 1) / F4 := ed
  generalize (K - 2 * G / 3 - phi * (((K - 2 * G / 3 + 2 * G) * (N2 + N3) - 4 * G * C
          + (K - 2 * G / 3) * (N2 - N1 - N4 + 2)) / (2 * D))) = C13 at *
  generalize (K - 2 * G / 3 + 2 * G - phi * (((K - 2 * G / 3 + 2 * G) * (1 - N1)
          + 2 * (K - 2 * G / 3) * N2 + 4 * G * C) / D)) = C33 at *
  generalize (K - 2 * G / 3 + G - phi * (((K - 2 * G / 3 + G) * (1 - N4)
          + (K - 2 * G / 3) * N3 + G * C) / D)) = Y at *
  refine ⟨?_, ?_, ?_, ?_, ?_, ?_⟩
  · linear_combination a1
  · rw [e02]; ring
  · rw [e12]; ring
  · rw [e01]; ring
  · linear_combination a2 / 2 - phi * G * ed'
  · linear_combination a2 / 2 + phi * G * ed'

/-- `Eshelby_Cheng` for pores filled with a fluid (or empty), of any aspect ratio below one.
`C33`, `C13`, `C44` and `C66` are the stiffnesses of the solid with a dilute set of aligned
spheroidal pores by Eshelby's solution, and `X` is the remaining stiffness `C11`. -/
theorem C80_aligned_pores (K G Kf phi a : ℝ) (hK : 0 < K) (hG : 0 < G) (hKf : 0 ≤ Kf)
    (hne : Kf ≠ K) (h0 : 0 < a) (h1 : a < 1) :
    ∃ C11 C33 C13 C44 C66 X : ℝ,
      Eshelby_Cheng (fin K) (fin G) (fin phi) (fin a) (fin Kf) false
        = .inl (fin C11, fin C33, fin C13, fin C44, fin C66) ∧
      Eshelby_Cheng (fin K) (fin G) (fin phi) (fin a) (fin Kf) true
        = .inr (utils.write_VTI_matrix (fin C11) (fin C33) (fin C13) (fin C44) (fin C66)) ∧
      ∀ e0 : Strain, e0.IsSymm → (∃ s, IsDiluteStress K G Kf 0 (spheroid a) phi e0 s) ∧
        ∀ s, IsDiluteStress K G Kf 0 (spheroid a) phi e0 s →
          s 2 2 = C13 * (e0 0 0 + e0 1 1) + C33 * e0 2 2 ∧
          s 0 2 = 2 * C44 * e0 0 2 ∧ s 1 2 = 2 * C44 * e0 1 2 ∧ s 0 1 = 2 * C66 * e0 0 1 ∧
          s 0 0 = X * e0 0 0 + (X - 2 * C66) * e0 1 1 + C13 * e0 2 2 ∧
          s 1 1 = (X - 2 * C66) * e0 0 0 + X * e0 1 1 + C13 * e0 2 2 := by
  obtain ⟨C11, C33, C13, C44, C66, X, h1, h2, -, h4⟩ := Cheng_main K G Kf phi a hK hG hKf hne h0 h1
  exact ⟨C11, C33, C13, C44, C66, X, h1, h2, h4⟩

example : (0 : ℝ) < 37 ∧ (0 : ℝ) < 44 ∧ (0 : ℝ) ≤ 2.2 ∧ (2.2 : ℝ) ≠ 37 ∧ (0 : ℝ) < 0.05 ∧
    (0.05 : ℝ) < 1 := by norm_num

/-- The returned `C11` is not that stiffness: its first term lacks the division by `D`.  For
empty pores of aspect ratio 1/2 in a solid with `lambda = mu = 1` it is wrong at every non-zero
porosity: the horizontal stress of a unit horizontal strain differs from `C11`. -/
theorem C80_C11_wrong (phi : ℝ) (hphi : phi ≠ 0) :
    ∃ C11 C33 C13 C44 C66 : ℝ,
      Eshelby_Cheng (fin (5 / 3)) (fin 1) (fin phi) (fin (1 / 2)) (fin 0) false
        = .inl (fin C11, fin C33, fin C13, fin C44, fin C66) ∧
      ∃ s, IsDiluteStress (5 / 3) 1 0 0 (spheroid (1 / 2)) phi !![1, 0, 0; 0, 0, 0; 0, 0, 0] s ∧
        s 0 0 ≠ C11 := by
  obtain ⟨C11, C33, C13, C44, C66, X, e1, -, e3, e4⟩ := Cheng_main (5 / 3) 1 0 phi (1 / 2)
    (by norm_num) (by norm_num) le_rfl (by norm_num) (by norm_num) (by norm_num)
  refine ⟨C11, C33, C13, C44, C66, e1, ?_⟩
  have hs : (!![1, 0, 0; 0, 0, 0; 0, 0, 0] : Strain).IsSymm := by
    refine Matrix.IsSymm.ext fun i j => ?_
    fin_cases i <;> fin_cases j <;> rfl
  obtain ⟨⟨s, hS⟩, u⟩ := e4 _ hs
  refine ⟨s, hS, ?_⟩
  obtain ⟨-, -, -, -, x, -⟩ := u s hS
  have x' : s 0 0 = X := by
    rw [x]
    simp
  rw [x']
  intro hx
  rw [hx, sub_self] at e3
  have h2 : (0 : ℝ) < 1 / 2 := by norm_num
  obtain ⟨b1, b2, b3, b4⟩ := shape_bounds h2 (by norm_num)
  have fe := shapeF_eq h2 (by norm_num)
  have fe' : shapeF (1 / 2) = shapeT (1 / 2) - 2 / 3 := by rw [fe]; ring
  rw [fe'] at e3
  unfold bF2 at e3
  generalize shapeT (1 / 2) = t at *
  norm_num at e3
  rcases e3 with e3 | e3 | e3
  · exact hphi e3
  · linarith
  · have e5 := inv_eq_one.mp (sub_eq_zero.mp e3).symm
    nlinarith [sq_nonneg t]

/-- How wrong `C11` is, in any solid of positive `lambda` and at every aspect ratio below one: for
exactly one fluid modulus `K0` the missing divisor is one and `C11` is right.  For softer fluids,
empty pores included, the returned `C11` is too large, for stiffer ones it is too small. -/
theorem C80_C11 (K G phi a : ℝ) (hG : 0 < G) (hl : 0 < K - 2 * G / 3) (hphi : 0 < phi)
    (h0 : 0 < a) (h1 : a < 1) :
    ∃ K0 : ℝ, 0 < K0 ∧ K0 < K ∧ ∀ Kf : ℝ, 0 ≤ Kf → Kf < K →
      ∃ C11 C33 C13 C44 C66 X : ℝ,
        Eshelby_Cheng (fin K) (fin G) (fin phi) (fin a) (fin Kf) false
          = .inl (fin C11, fin C33, fin C13, fin C44, fin C66) ∧
        (∃ s, IsDiluteStress K G Kf 0 (spheroid a) phi !![1, 0, 0; 0, 0, 0; 0, 0, 0] s) ∧
        (∀ s, IsDiluteStress K G Kf 0 (spheroid a) phi !![1, 0, 0; 0, 0, 0; 0, 0, 0] s →
          s 0 0 = X) ∧
        (Kf < K0 → X < C11) ∧ (Kf = K0 → X = C11) ∧ (K0 < Kf → C11 < X) := by
  have hK : 0 < K := by linarith
  obtain ⟨b1, b2, b3, b4⟩ := shape_bounds h0 h1.le
  have rR : 0 < G / (K + 4 / 3 * G) := by positivity
  have rR' : G / (K + 4 / 3 * G) < 1 / 2 := by
    rw [div_lt_iff₀ (by positivity)]
    linarith
  have hN : 0 < (1 - G / (K + 4 / 3 * G)) * (2 - 3 * shapeT a - shapeF a) / 2
      - G / (K + 4 / 3 * G) * (1 - shapeT a)
        - ((1 - G / (K + 4 / 3 * G)) * (1 + shapeF a)
          + G / (K + 4 / 3 * G) * (1 - shapeT a)) + 1 := by
    generalize G / (K + 4 / 3 * G) = R at *
    generalize shapeT a = t at *
    generalize shapeF a = f at *
    have e : (1 - R) * (2 - 3 * t - f) / 2 - R * (1 - t) - ((1 - R) * (1 + f) + R * (1 - t)) + 1
        = (1 - R) * (3 / 2 * -f) + (1 - 3 / 2 * t + R * (7 / 2 * t - 2)) := by ring
    rw [e]
    have h2 : 0 < (1 - R) * (3 / 2 * -f) := mul_pos (by linarith) (by linarith)
    have h3 : 0 ≤ 1 - 3 / 2 * t + R * (7 / 2 * t - 2) := by
      by_cases c : 0 ≤ 7 / 2 * t - 2
      · have := mul_nonneg rR.le c
        linarith
      · have := mul_nonneg (by linarith : 0 ≤ 1 / 2 - R) (by linarith : 0 ≤ 2 - 7 / 2 * t)
        linarith
    linarith
  -- the two parts of the divisor
  obtain ⟨Y, Z, hY, hZ, hZ1, hF⟩ : ∃ Y Z : ℝ, 0 ≤ Y ∧ 0 < Z ∧ Z < 1 ∧ ∀ k : ℝ,
      bF2 (-1) (k / 3) (G / (K + 4 / 3 * G)) (shapeT a) (shapeF a) = k * Y + Z := by
    generalize G / (K + 4 / 3 * G) = R at *
    generalize shapeT a = t at *
    generalize shapeF a = f at *
    have pos : ∀ k : ℝ, 0 ≤ k → 0 < bF2 (-1) (k / 3) R t f := fun k hk =>
      bF2_pos le_rfl (by linarith) rR (by linarith) b1 b2 b3 b4
    have z2 : 0 ≤ 2 / 3 - (f + t - R * (f - t + 2 * t ^ 2)) := by
      have e : 2 / 3 - (f + t - R * (f - t + 2 * t ^ 2))
          = (1 - R) * (-f) + (2 / 3 - t - R * (t - 2 * t ^ 2)) := by ring
      rw [e]
      have h2 : 0 ≤ (1 - R) * (-f) := mul_nonneg (by linarith) (by linarith)
      have h3 : 0 ≤ 2 / 3 - t - R * (t - 2 * t ^ 2) := by
        by_cases c : t ≤ 1 / 2
        · have : R * (t * (1 - 2 * t)) ≤ 1 / 2 * (t * (1 - 2 * t)) :=
            mul_le_mul_of_nonneg_right rR'.le (mul_nonneg b1.le (by linarith))
          nlinarith
        · have : R * (t * (1 - 2 * t)) ≤ 0 :=
            mul_nonpos_of_nonneg_of_nonpos rR.le
              (mul_nonpos_of_nonneg_of_nonpos b1.le (by linarith))
          nlinarith
      linarith
    refine ⟨(3 / 2 - 2 * R) * (2 / 3 - (f + t - R * (f - t + 2 * t ^ 2))),
      bF2 (-1) (0 / 3) R t f, mul_nonneg (by linarith) z2, pos 0 le_rfl, ?_, fun k => ?_⟩
    · have e : bF2 (-1) (0 / 3) R t f
          = R * ((3 / 2 - 2 * R) * (t - 2 * t ^ 2) + t / 2 - f * (2 - 2 * R)) := by
        unfold bF2
        ring
      rw [e]
      have h2 : (3 / 2 - 2 * R) * (t - 2 * t ^ 2) + t / 2 - f * (2 - 2 * R) < 2 := by
        have i1 : -f * (2 - 2 * R) ≤ t * (2 - 2 * R) :=
          mul_le_mul_of_nonneg_right (by linarith) (by linarith)
        have i2 : 0 ≤ R * t := mul_nonneg rR.le b1.le
        have i3 : (3 / 2 - 2 * R) * (t - 2 * t ^ 2) ≤ 3 / 2 * (1 / 8) := by
          have j : t - 2 * t ^ 2 ≤ 1 / 8 := by nlinarith [sq_nonneg (t - 1 / 4)]
          have j1 : (3 / 2 - 2 * R) * (t - 2 * t ^ 2) ≤ (3 / 2 - 2 * R) * (1 / 8) :=
            mul_le_mul_of_nonneg_left j (by linarith)
          linarith
        linarith
      nlinarith
    · unfold bF2
      ring
  set R := G / (K + 4 / 3 * G) with hR
  have hY1 : 0 < 1 + Y := by linarith
  refine ⟨K * ((1 - Z) / (1 + Y)), by have : 0 < 1 - Z := by linarith
                                      positivity, ?_, fun Kf hKf hlt => ?_⟩
  · have : (1 - Z) / (1 + Y) < 1 := by
      rw [div_lt_one hY1]
      linarith
    nlinarith
  obtain ⟨C11, C33, C13, C44, C66, X, e1, -, e3, e4⟩ := Cheng_main K G Kf phi a hK hG hKf
    hlt.ne h0 h1
  have hs : (!![1, 0, 0; 0, 0, 0; 0, 0, 0] : Strain).IsSymm := by
    refine Matrix.IsSymm.ext fun i j => ?_
    fin_cases i <;> fin_cases j <;> rfl
  obtain ⟨⟨s, hS⟩, u⟩ := e4 _ hs
  refine ⟨C11, C33, C13, C44, C66, X, e1, ⟨s, hS⟩, ?_, ?_⟩
  · intro s hS
    obtain ⟨-, -, -, -, x, -⟩ := u s hS
    rw [x]
    simp
  -- the divisor
  have dK : 0 < K - Kf := by linarith
  have ek : Kf / (3 * K) = Kf / K / 3 := by field
  have eC : 1 + 3 * (Kf / (3 * (K - Kf))) = K / (K - Kf) := by field
  rw [ek, hF, eC] at e3
  have eD : (Kf / K * Y + Z) * (K / (K - Kf)) = (Kf * Y + K * Z) / (K - Kf) := by field
  have pD : 0 < Kf * Y + K * Z := by positivity
  have eD' : 1 - 1 / ((Kf * Y + K * Z) / (K - Kf))
      = (Kf * (1 + Y) - K * (1 - Z)) / (Kf * Y + K * Z) := by field
  rw [eD, eD'] at e3
  have m : 0 < phi * ((K - 2 * G / 3) * ((1 - R) * (2 - 3 * shapeT a - shapeF a) / 2
      - R * (1 - shapeT a) - ((1 - R) * (1 + shapeF a) + R * (1 - shapeT a)) + 1)) :=
    mul_pos hphi (mul_pos hl hN)
  have e5 : X - C11 = phi * ((K - 2 * G / 3) * ((1 - R) * (2 - 3 * shapeT a - shapeF a) / 2
      - R * (1 - shapeT a) - ((1 - R) * (1 + shapeF a) + R * (1 - shapeT a)) + 1))
      * ((Kf * (1 + Y) - K * (1 - Z)) / (Kf * Y + K * Z)) := by
    rw [e3]
    ring
  generalize phi * ((K - 2 * G / 3) * ((1 - R) * (2 - 3 * shapeT a - shapeF a) / 2
      - R * (1 - shapeT a) - ((1 - R) * (1 + shapeF a) + R * (1 - shapeT a)) + 1)) = M at *
  have cmp : ∀ x : ℝ, x < K * ((1 - Z) / (1 + Y)) ↔ x * (1 + Y) - K * (1 - Z) < 0 := by
    intro x
    rw [← mul_div_assoc, lt_div_iff₀ hY1, sub_neg]
  have cmp' : ∀ x : ℝ, K * ((1 - Z) / (1 + Y)) < x ↔ 0 < x * (1 + Y) - K * (1 - Z) := by
    intro x
    rw [← mul_div_assoc, div_lt_iff₀ hY1, sub_pos]
  refine ⟨fun h => ?_, fun h => ?_, fun h => ?_⟩
  · have := mul_neg_of_pos_of_neg m (div_neg_of_neg_of_pos ((cmp Kf).mp h) pD)
    linarith
  · have : Kf * (1 + Y) - K * (1 - Z) = 0 := by
      rw [h]
      field
    rw [this, zero_div, mul_zero] at e5
    linarith
  · have := mul_pos m (div_pos ((cmp' Kf).mp h) pD)
    linarith

example : (0 : ℝ) < 44 ∧ (0 : ℝ) < 37 - 2 * 44 / 3 ∧ (0 : ℝ) < 0.02 ∧ (0 : ℝ) < 0.05 ∧
    (0.05 : ℝ) < 1 := by norm_num

end RockPhy.Props
