import Verif.Lemmas.GM
import Verif.Spec.Johnson
import Mathlib.Analysis.SpecialFunctions.Log.Deriv
import Mathlib.Analysis.Complex.ExponentialBounds

/-! # Property C47 (Norris-Johnson model) -/

namespace RockPhy.Props

open Fl GM Spec

/-! ## Closed forms of what the code computes -/

section closed

variable (K0 G0 n φ ε ε₃ a : ℝ)

noncomputable def jCn : ℝ := 4 * G0 / (1 - nu K0 G0)
noncomputable def jCt : ℝ := 8 * G0 / (2 - nu K0 G0)
noncomputable def jB : ℝ := 2 / (Real.pi * jCn K0 G0)
noncomputable def jC : ℝ := 4 / Real.pi * (1 / jCt K0 G0 - 1 / jCn K0 G0)
noncomputable def jGam : ℝ := 3 / 32 * jCn K0 G0 * jCt K0 G0 * n * (1 - φ) * Real.sqrt (-ε)
noncomputable def jI0 : ℝ := 1 / 2 * (Real.sqrt (1 + a ^ 2)
  + a ^ 2 * Real.log (1 + Real.sqrt (1 + a ^ 2) / a))
noncomputable def jI2 : ℝ := 1 / 4 * ((1 + a ^ 2) ^ ((3 : ℝ) / 2) - a ^ 2 * jI0 a)
noncomputable def jI4 : ℝ := 1 / 6 * ((1 + a ^ 2) ^ ((3 : ℝ) / 2) - 3 * a ^ 2 * jI2 a)
noncomputable def jT : ℝ := -((-ε) ^ ((3 : ℝ) / 2)) * (1 - φ) * n / (4 * Real.pi * a ^ 3)
/-- `α² I0 + (1-α²) I2 - I4`. -/
noncomputable def jQ : ℝ := a ^ 2 * jI0 a + (1 - a ^ 2) * jI2 a - jI4 a

end closed

/-- A compressed pack: both strains negative. -/
structure Compressed (K0 G0 n φ ε ε₃ : ℝ) : Prop where
  bulk : 0 < K0
  shear : 0 < G0
  coord : 0 < n
  por : φ < 1
  iso : ε < 0
  axial : ε₃ < 0

example : Compressed 36.6 45 9 0.36 (-0.001) (-0.002) :=
  ⟨by norm_num, by norm_num, by norm_num, by norm_num, by norm_num, by norm_num⟩

section

variable {K0 G0 n φ ε ε₃ : ℝ}

theorem jCn_pos (h : Compressed K0 G0 n φ ε ε₃) : 0 < jCn K0 G0 := by
  have := nu_lt h.bulk h.shear
  have := h.shear
  exact div_pos (by linarith) (by linarith)

theorem jCt_pos (h : Compressed K0 G0 n φ ε ε₃) : 0 < jCt K0 G0 := by
  have := nu_lt h.bulk h.shear
  have := h.shear
  exact div_pos (by linarith) (by linarith)

theorem Compressed.ratio (h : Compressed K0 G0 n φ ε ε₃) : 0 < ε / ε₃ :=
  div_pos_of_neg_of_neg h.iso h.axial

theorem johnson_eval (h : Compressed K0 G0 n φ ε ε₃) (path : String) :
    johnson (fin K0) (fin G0) (fin n) (fin φ) (fin ε) (fin ε₃) path =
      let a := Real.sqrt (ε / ε₃)
      let g := jGam K0 G0 n φ ε
      let B := jB K0 G0
      let C := jC K0 G0
      let Cn := jCn K0 G0
      let Ct := jCt K0 G0
      let M : Mat6 Fl := utils.write_VTI_matrix
        (fin (g / a * (4 * B / 3 + 2 * C / 5 + ε / ε₃ * (2 * B / 15 + C / 35))))
        (fin (g / a * (4 * B * jI2 a + 2 * C * jI4 a)))
        (fin (g / a * C * (jI2 a - jI4 a)))
        (fin (g / a * (B / 2 * (jI0 a + jI2 a) + C * (jI2 a - jI4 a))))
        (fin (g / a * (B * (jI0 a - jI2 a) + C / 4 * (jI0 a - 2 * jI2 a + jI4 a))))
      let T := jT n φ ε a
      if path = "together" then
        .ok (M, fin (2 * T * (Ct * (jI2 a - jI4 a) + Cn * (a ^ 2 * jI2 a + jI4 a))),
          fin (T * (-Ct * (jI2 a - jI4 a) + Cn * jQ a)))
      else if path = "uni_iso" then
        .ok (M, fin (2 * T * (1 / 12 * Ct + Cn * (a ^ 2 * jI2 a + jI4 a))),
          fin (T * (-1 / 12 * Ct + Cn * jQ a)))
      else if path = "iso-uni" then
        .ok (M, fin (2 * T * (Ct * (jQ a - 2 * a ^ 3 / 3) + Cn * (a ^ 2 * jI2 a + jI4 a))),
          fin (T * (-Ct * (jQ a - 2 * a ^ 3 / 3 + Cn * jQ a))))
      else .error .UnboundLocalError := by
  have hν := nu_lt h.bulk h.shear
  have hν1 : 0 < 1 - nu K0 G0 := by linarith
  have hν2 : 0 < 2 - nu K0 G0 := by linarith
  have hpi := Real.pi_pos
  have hK := h.bulk
  have hG := h.shear
  have ha : 0 < Real.sqrt (ε / ε₃) := Real.sqrt_pos.mpr h.ratio
  have cn := jCn_pos h
  have ct := jCt_pos h
  have hε : 0 < -ε := by linarith [h.iso]
  have hε₃ : ε₃ ≠ 0 := h.axial.ne
  have e0 : utils.poi (fin K0) (fin G0) = fin (nu K0 G0) := by unfold utils.poi; fl_eval [nu]
  have e1 : 4 * fin G0 / (1 - fin (nu K0 G0)) = fin (jCn K0 G0) := by fl_eval [jCn]
  have e2 : 8 * fin G0 / (2 - fin (nu K0 G0)) = fin (jCt K0 G0) := by fl_eval [jCt]
  have e3 : 2 / (PyNum.pi * fin (jCn K0 G0)) = fin (jB K0 G0) := by fl_eval [jB]
  have e4 : 4 / PyNum.pi * (1 / fin (jCt K0 G0) - 1 / fin (jCn K0 G0)) = fin (jC K0 G0) := by
    fl_eval [jC]
  have e5 : 3 / 32 * fin (jCn K0 G0) * fin (jCt K0 G0) * fin n * (1 - fin φ) * PyNum.sqrt (-(fin ε))
      = fin (jGam K0 G0 n φ ε) := by
    have := hε.le
    fl_eval [jGam]
  have e6 : PyNum.sqrt (fin ε / fin ε₃) = fin (Real.sqrt (ε / ε₃)) := by
    rw [fl_div hε₃, fl_sqrt h.ratio.le]
  have er : fin ε / fin ε₃ = fin (ε / ε₃) := fl_div hε₃
  unfold johnson
  dsimp only
  rw [e0, e1, e2, e3, e4, e5, e6, er]
  generalize Real.sqrt (ε / ε₃) = a at *
  generalize jGam K0 G0 n φ ε = g at *
  generalize jB K0 G0 = B at *
  generalize jC K0 G0 = C at *
  have c0 : (1 : Fl) / 2 * (PyNum.sqrt (1 + fin a ** 2)
      + fin a ** 2 * PyNum.log (1 + PyNum.sqrt (1 + fin a ** 2) / fin a)) = fin (jI0 a) := by
    fl_eval [jI0]
  rw [c0]
  have c2 : (1 : Fl) / 4 * ((1 + fin a ** 2) **. (3 / 2) - fin a ** 2 * fin (jI0 a))
      = fin (jI2 a) := by
    fl_eval [jI2]
  rw [c2]
  have c4 : (1 : Fl) / 6 * ((1 + fin a ** 2) **. (3 / 2) - 3 * fin a ** 2 * fin (jI2 a))
      = fin (jI4 a) := by
    fl_eval [jI4]
  rw [c4]
  have ct : -((-(fin ε)) **. (3 / 2)) * (1 - fin φ) * fin n / (4 * PyNum.pi * fin a ** 3)
      = fin (jT n φ ε a) := by
    fl_eval [jT]
  rw [ct]
  unfold jQ
  generalize jI0 a = I0 at *
  generalize jI2 a = I2 at *
  generalize jI4 a = I4 at *
  generalize jT n φ ε a = T at *
  generalize jCn K0 G0 = Cn at *
  generalize jCt K0 G0 = Ct at *
  fl_eval []

end

section

variable (K0 G0 n φ ε ε₃ : ℝ)

/-- Which path names are accepted: the third one only with a hyphen.  The documented
`'iso_uni'` raises. -/
theorem C47_paths (h : Compressed K0 G0 n φ ε ε₃) (path : String) :
    ((∃ M s33 s11, johnson (fin K0) (fin G0) (fin n) (fin φ) (fin ε) (fin ε₃) path
        = .ok (M, fin s33, fin s11) ∧ ∀ i j, (M i j).IsFin)
      ↔ path = "together" ∨ path = "uni_iso" ∨ path = "iso-uni") ∧
    johnson (fin K0) (fin G0) (fin n) (fin φ) (fin ε) (fin ε₃) "iso_uni"
      = .error .UnboundLocalError := by
  have fM : ∀ (x1 x2 x3 x4 x5 : ℝ) (i j : Fin 6),
      (utils.write_VTI_matrix (fin x1) (fin x2) (fin x3) (fin x4) (fin x5) i j).IsFin := by
    intro x1 x2 x3 x4 x5 i j
    unfold utils.write_VTI_matrix
    fin_cases i <;> fin_cases j <;> simp only [fl] <;> exact ⟨_, rfl⟩
  constructor
  · rw [johnson_eval h]
    dsimp only
    by_cases h1 : path = "together"
    · rw [if_pos h1]
      exact ⟨fun _ => Or.inl h1, fun _ => ⟨_, _, _, rfl, fM _ _ _ _ _⟩⟩
    rw [if_neg h1]
    by_cases h2 : path = "uni_iso"
    · rw [if_pos h2]
      exact ⟨fun _ => Or.inr (Or.inl h2), fun _ => ⟨_, _, _, rfl, fM _ _ _ _ _⟩⟩
    rw [if_neg h2]
    by_cases h3 : path = "iso-uni"
    · rw [if_pos h3]
      exact ⟨fun _ => Or.inr (Or.inr h3), fun _ => ⟨_, _, _, rfl, fM _ _ _ _ _⟩⟩
    rw [if_neg h3]
    constructor
    · rintro ⟨M, x, y, e, -⟩
      cases e
    · rintro (e | e | e) <;> contradiction
  · rw [johnson_eval h]
    dsimp only
    rw [if_neg (by decide), if_neg (by decide), if_neg (by decide)]

/-- Any unknown path raises, whatever the numbers. -/
theorem C47_unknown_path (K0 G0 n φ ε ε₃ : Fl) (path : String) (h1 : path ≠ "together")
    (h2 : path ≠ "uni_iso") (h3 : path ≠ "iso-uni") :
    johnson K0 G0 n φ ε ε₃ path = .error .UnboundLocalError := by
  unfold johnson
  dsimp only
  rw [if_neg h1, if_neg h2, if_neg h3]

/-- The stiffness does not depend on the path. -/
theorem C47_stiffness_path_independent (K0 G0 n φ ε ε₃ : Fl) (p p' : String)
    (M M' : Mat6 Fl) (x y x' y' : Fl)
    (h : johnson K0 G0 n φ ε ε₃ p = .ok (M, x, y))
    (h' : johnson K0 G0 n φ ε ε₃ p' = .ok (M', x', y')) : M = M' := by
  unfold johnson at h h'
  dsimp only at h h'
  split at h
  · split at h'
    · cases h; cases h'; rfl
    · split at h'
      · cases h; cases h'; rfl
      · split at h'
        · cases h; cases h'; rfl
        · cases h'
  · split at h
    · split at h'
      · cases h; cases h'; rfl
      · split at h'
        · cases h; cases h'; rfl
        · split at h'
          · cases h; cases h'; rfl
          · cases h'
    · split at h
      · split at h'
        · cases h; cases h'; rfl
        · split at h'
          · cases h; cases h'; rfl
          · split at h'
            · cases h; cases h'; rfl
            · cases h'
      · cases h

/-- The code's first integral is the published one exactly at `α = 1`: a parenthesis is
misplaced in the logarithm. -/
theorem jI0_eq_iff {a : ℝ} (ha : 0 < a) : jI0 a = contactI 0 a ↔ a = 1 := by
  rw [contactI_zero ha]
  unfold jI0
  have s : 0 < Real.sqrt (1 + a ^ 2) := Real.sqrt_pos.mpr (by positivity)
  generalize Real.sqrt (1 + a ^ 2) = r at *
  have p1 : 0 < 1 + r / a := by positivity
  have p2 : 0 < (1 + r) / a := by positivity
  constructor
  · intro e
    have e2 : a ^ 2 * Real.log (1 + r / a) = a ^ 2 * Real.log ((1 + r) / a) := by linarith
    have e3 := Real.log_injOn_pos (Set.mem_Ioi.mpr p1) (Set.mem_Ioi.mpr p2)
      (mul_left_cancel₀ (by positivity) e2)
    have e4 : a + r = 1 + r := by
      have := congrArg (· * a) e3
      simp only [add_mul, div_mul_cancel₀ _ ha.ne', one_mul] at this
      exact this
    linarith
  · rintro rfl
    simp

/-- `C13` agrees with the published orientation average only if the two strains are equal
(or the grains have Poisson ratio zero, where both vanish). -/
theorem C47_C13_violated (h : Compressed K0 G0 n φ ε ε₃) (hν : nu K0 G0 ≠ 0) (M : Mat6 Fl)
    (x y : Fl) (path : String)
    (hj : johnson (fin K0) (fin G0) (fin n) (fin φ) (fin ε) (fin ε₃) path = .ok (M, x, y)) :
    M 0 2 = fin (njC13 (jGam K0 G0 n φ ε) (jC K0 G0) (Real.sqrt (ε / ε₃))) ↔ ε = ε₃ := by
  have ha : 0 < Real.sqrt (ε / ε₃) := Real.sqrt_pos.mpr h.ratio
  have hone : Real.sqrt (ε / ε₃) = 1 ↔ ε = ε₃ := by
    rw [Real.sqrt_eq_one, div_eq_one_iff_eq h.axial.ne]
  have hv := nu_lt h.bulk h.shear
  have hG := h.shear
  have hpi := Real.pi_pos
  have hCw : jC K0 G0 ≠ 0 := by
    have : jC K0 G0 = nu K0 G0 / (2 * Real.pi * G0) := by
      have h1 : 1 - nu K0 G0 ≠ 0 := by linarith
      have h2 : 2 - nu K0 G0 ≠ 0 := by linarith
      unfold jC jCt jCn
      generalize nu K0 G0 = v at *
      field
    rw [this]
    exact div_ne_zero hν (by positivity)
  have hg : 0 < jGam K0 G0 n φ ε := by
    have := jCn_pos h
    have := jCt_pos h
    have := h.coord
    have : 0 < 1 - φ := by linarith [h.por]
    have : 0 < Real.sqrt (-ε) := Real.sqrt_pos.mpr (by linarith [h.iso])
    unfold jGam; positivity
  rw [← hone]
  have entry : M 0 2 = fin (jGam K0 G0 n φ ε / Real.sqrt (ε / ε₃) * jC K0 G0
      * (jI2 (Real.sqrt (ε / ε₃)) - jI4 (Real.sqrt (ε / ε₃)))) := by
    rw [johnson_eval h] at hj
    dsimp only at hj
    split at hj
    · cases hj; rfl
    · split at hj
      · cases hj; rfl
      · split at hj
        · cases hj; rfl
        · cases hj
  rw [entry, fin_inj]
  generalize Real.sqrt (ε / ε₃) = a at *
  rw [← jI0_eq_iff ha]
  unfold njC13
  generalize jGam K0 G0 n φ ε = g at *
  generalize jC K0 G0 = C at *
  have d2 : jI2 a - contactI 2 a = -(a ^ 2 / 4) * (jI0 a - contactI 0 a) := by
    rw [contactI_two ha]; unfold jI2; ring
  have d4 : jI4 a - contactI 4 a = -(a ^ 2 / 2) * (jI2 a - contactI 2 a) := by
    rw [contactI_four ha]; unfold jI4; ring
  have key : g / a * C * (jI2 a - jI4 a) - g / a * (C * (contactI 2 a - contactI 4 a))
      = -(g / a * C * (a ^ 2 / 4 * (1 + a ^ 2 / 2))) * (jI0 a - contactI 0 a) := by
    have : g / a * C * (jI2 a - jI4 a) - g / a * (C * (contactI 2 a - contactI 4 a))
      = g / a * C * ((jI2 a - contactI 2 a) - (jI4 a - contactI 4 a)) := by ring
    rw [this, d4, d2]; ring
  constructor
  · intro e
    rw [e, sub_self] at key
    have nz : -(g / a * C * (a ^ 2 / 4 * (1 + a ^ 2 / 2))) ≠ 0 := by
      refine neg_ne_zero.mpr (mul_ne_zero (mul_ne_zero (by positivity) hCw) (by positivity))
    exact sub_eq_zero.mp ((mul_eq_zero.mp key.symm).resolve_left nz)
  · intro e
    rw [e, sub_self, mul_zero] at key
    linarith

/-- With equal strains all stiffnesses except `C11`, `C12` are the published ones. -/
theorem C47_equal_strains (h : Compressed K0 G0 n φ ε ε) (M : Mat6 Fl) (x y : Fl) (path : String)
    (hj : johnson (fin K0) (fin G0) (fin n) (fin φ) (fin ε) (fin ε) path = .ok (M, x, y)) :
    M 2 2 = fin (njC33 (jGam K0 G0 n φ ε) (jB K0 G0) (jC K0 G0) 1) ∧
    M 0 2 = fin (njC13 (jGam K0 G0 n φ ε) (jC K0 G0) 1) ∧
    M 3 3 = fin (njC44 (jGam K0 G0 n φ ε) (jB K0 G0) (jC K0 G0) 1) ∧
    M 5 5 = fin (njC66 (jGam K0 G0 n φ ε) (jB K0 G0) (jC K0 G0) 1) := by
  have ha : Real.sqrt (ε / ε) = 1 := by rw [div_self h.iso.ne, Real.sqrt_one]
  have i0 : jI0 1 = contactI 0 1 := (jI0_eq_iff one_pos).mpr rfl
  have i2 : jI2 1 = contactI 2 1 := by rw [contactI_two one_pos, jI2, i0]
  have i4 : jI4 1 = contactI 4 1 := by rw [contactI_four one_pos, jI4, i2]
  rw [johnson_eval h] at hj
  dsimp only at hj
  rw [ha, i0, i2, i4] at hj
  have : M = utils.write_VTI_matrix (M 0 0)
        (fin (njC33 (jGam K0 G0 n φ ε) (jB K0 G0) (jC K0 G0) 1))
        (fin (njC13 (jGam K0 G0 n φ ε) (jC K0 G0) 1))
        (fin (njC44 (jGam K0 G0 n φ ε) (jB K0 G0) (jC K0 G0) 1))
        (fin (njC66 (jGam K0 G0 n φ ε) (jB K0 G0) (jC K0 G0) 1)) := by
    unfold njC33 njC13 njC44 njC66
    rw [← mul_assoc _ (jC K0 G0)]
    split at hj
    · cases hj; rfl
    · split at hj
      · cases hj; rfl
      · split at hj
        · cases hj; rfl
        · cases hj
  rw [this]
  exact ⟨rfl, rfl, rfl, rfl⟩

theorem contactI_nonneg (k : ℕ) (a : ℝ) : 0 ≤ contactI k a := by
  unfold contactI
  apply intervalIntegral.integral_nonneg zero_le_one
  intro x hx
  have := hx.1
  positivity

theorem contactI_le (k : ℕ) (a : ℝ) : contactI k a ≤ Real.sqrt (a ^ 2 + 1) := by
  unfold contactI
  have h : ∫ x in (0 : ℝ)..1, x ^ k * Real.sqrt (a ^ 2 + x ^ 2)
      ≤ ∫ _ in (0 : ℝ)..1, Real.sqrt (a ^ 2 + 1) := by
    apply intervalIntegral.integral_mono_on zero_le_one
      (Continuous.intervalIntegrable (by fun_prop) _ _)
      (Continuous.intervalIntegrable (by fun_prop) _ _)
    intro x hx
    have h1 : x ^ k ≤ 1 := pow_le_one₀ hx.1 hx.2
    have h2 : Real.sqrt (a ^ 2 + x ^ 2) ≤ Real.sqrt (a ^ 2 + 1) :=
      Real.sqrt_le_sqrt (by nlinarith [hx.1, hx.2])
    calc x ^ k * Real.sqrt (a ^ 2 + x ^ 2) ≤ 1 * Real.sqrt (a ^ 2 + x ^ 2) := by gcongr
      _ ≤ _ := by rw [one_mul]; exact h2
  simpa using h

/-- `C11` is not the published average: when the axial strain becomes small compared with the
hydrostatic one, the published `C11` stays bounded (the pack becomes isotropic) but the returned
one grows without bound. -/
theorem C47_C11_violated (hK : 0 < K0) (hG : 0 < G0) (hn : 0 < n) (hφ : φ < 1) (hε : ε < 0)
    (hν : 0 ≤ nu K0 G0) (bound : ℝ) :
    ∃ ε₃ : ℝ, ε₃ < 0 ∧ (∃ (M : Mat6 Fl) (c : ℝ) (x y : Fl),
      johnson (fin K0) (fin G0) (fin n) (fin φ) (fin ε) (fin ε₃) "together" = .ok (M, x, y) ∧
      M 0 0 = fin c ∧ bound < c) ∧
      |njC11 (jGam K0 G0 n φ ε) (jB K0 G0) (jC K0 G0) (Real.sqrt (ε / ε₃))|
        ≤ 2 * jGam K0 G0 n φ ε * (4 * jB K0 G0 + 3 * jC K0 G0) := by
  have h0 : Compressed K0 G0 n φ ε ε := ⟨hK, hG, hn, hφ, hε, hε⟩
  have cn := jCn_pos h0
  have ct := jCt_pos h0
  have hpi := Real.pi_pos
  have hv := nu_lt hK hG
  have hB : 0 < jB K0 G0 := by unfold jB; positivity
  have hC : 0 ≤ jC K0 G0 := by
    have : jC K0 G0 = nu K0 G0 / (2 * Real.pi * G0) := by
      have h1 : 1 - nu K0 G0 ≠ 0 := by linarith
      have h2 : 2 - nu K0 G0 ≠ 0 := by linarith
      unfold jC jCt jCn
      generalize nu K0 G0 = v at *
      field
    rw [this]; positivity
  have hg : 0 < jGam K0 G0 n φ ε := by
    have : 0 < 1 - φ := by linarith
    have : 0 < Real.sqrt (-ε) := Real.sqrt_pos.mpr (by linarith)
    unfold jGam; positivity
  -- choose `α`
  have hD : 0 < jGam K0 G0 n φ ε * (2 * jB K0 G0 / 15) := by positivity
  obtain ⟨a, a1, ha⟩ : ∃ a : ℝ, 1 ≤ a ∧ bound < a * (jGam K0 G0 n φ ε * (2 * jB K0 G0 / 15)) := by
    refine ⟨max 1 (bound / (jGam K0 G0 n φ ε * (2 * jB K0 G0 / 15)) + 1), le_max_left _ _, ?_⟩
    rw [← div_lt_iff₀ hD]
    exact lt_of_lt_of_le (by linarith) (le_max_right _ _)
  have a0 : 0 < a := by linarith
  refine ⟨ε / a ^ 2, div_neg_of_neg_of_pos hε (by positivity), ?_, ?_⟩
  · have h : Compressed K0 G0 n φ ε (ε / a ^ 2) :=
      ⟨hK, hG, hn, hφ, hε, div_neg_of_neg_of_pos hε (by positivity)⟩
    have er : ε / (ε / a ^ 2) = a ^ 2 := by
      have := hε.ne
      field
    refine ⟨_, _, _, _, (johnson_eval h "together").trans (by
      dsimp only
      exact if_pos rfl), rfl, ?_⟩
    rw [er, Real.sqrt_sq a0.le]
    refine ha.trans_le ?_
    generalize jGam K0 G0 n φ ε = g at *
    generalize jB K0 G0 = B at *
    generalize jC K0 G0 = C at *
    have : g / a * (4 * B / 3 + 2 * C / 5 + a ^ 2 * (2 * B / 15 + C / 35))
        = a * (g * (2 * B / 15)) + (a * (g * C / 35) + g / a * (4 * B / 3 + 2 * C / 5)) := by
      field
    rw [this]
    have : 0 ≤ a * (g * C / 35) + g / a * (4 * B / 3 + 2 * C / 5) := by positivity
    linarith
  · have er : ε / (ε / a ^ 2) = a ^ 2 := by
      have := hε.ne
      field
    rw [er, Real.sqrt_sq a0.le]
    unfold njC11
    have u0 := contactI_le 0 a
    have u2 := contactI_le 2 a
    have u4 := contactI_le 4 a
    have l0 := contactI_nonneg 0 a
    have l2 := contactI_nonneg 2 a
    have l4 := contactI_nonneg 4 a
    have us : Real.sqrt (a ^ 2 + 1) ≤ 2 * a := by
      rw [Real.sqrt_le_left (by positivity)]; nlinarith
    generalize jGam K0 G0 n φ ε = g at *
    generalize jB K0 G0 = B at *
    generalize jC K0 G0 = C at *
    generalize contactI 0 a = x0 at *
    generalize contactI 2 a = x2 at *
    generalize contactI 4 a = x4 at *
    rw [abs_mul, abs_of_pos (by positivity : 0 < g / a), div_mul_eq_mul_div, div_le_iff₀ a0]
    have b1 : |x0 - x2| ≤ 2 * a := abs_le.mpr ⟨by linarith, by linarith⟩
    have b2 : |x0 - 2 * x2 + x4| ≤ 4 * a := abs_le.mpr ⟨by linarith, by linarith⟩
    have b3 : |2 * B * (x0 - x2) + 3 / 4 * C * (x0 - 2 * x2 + x4)|
        ≤ 2 * B * (2 * a) + 3 / 4 * C * (4 * a) := by
      refine (abs_add_le _ _).trans ?_
      rw [abs_mul (2 * B), abs_mul (3 / 4 * C), abs_of_nonneg (by positivity : 0 ≤ 2 * B),
        abs_of_nonneg (by positivity : 0 ≤ 3 / 4 * C)]
      gcongr
    calc g * |2 * B * (x0 - x2) + 3 / 4 * C * (x0 - 2 * x2 + x4)|
        ≤ g * (2 * B * (2 * a) + 3 / 4 * C * (4 * a)) := by gcongr
      _ ≤ 2 * g * (4 * B + 3 * C) * a := by
        have : 0 ≤ g * B * a := by positivity
        have : 0 ≤ g * C * a := by positivity
        nlinarith

theorem jQ_pos {a : ℝ} (ha : 0 < a) : 0 < jQ a := by
  have p : (1 + a ^ 2 : ℝ) ^ ((3 : ℝ) / 2) = (1 + a ^ 2) * Real.sqrt (1 + a ^ 2) :=
    pow_three_halves (by positivity)
  have s : 0 < Real.sqrt (1 + a ^ 2) := Real.sqrt_pos.mpr (by positivity)
  have sq : Real.sqrt (1 + a ^ 2) ^ 2 = 1 + a ^ 2 := Real.sq_sqrt (by positivity)
  have sa : a ≤ Real.sqrt (1 + a ^ 2) := Real.le_sqrt_of_sq_le (by linarith)
  have L : 1 / 2 ≤ Real.log (1 + Real.sqrt (1 + a ^ 2) / a) := by
    have h1 : (2 : ℝ) ≤ 1 + Real.sqrt (1 + a ^ 2) / a := by
      have : 1 ≤ Real.sqrt (1 + a ^ 2) / a := (one_le_div ha).mpr sa
      linarith
    have := Real.log_le_log (by norm_num) h1
    linarith [Real.log_two_gt_d9]
  unfold jQ jI4 jI2 jI0
  rw [p]
  generalize Real.log (1 + Real.sqrt (1 + a ^ 2) / a) = l at *
  generalize Real.sqrt (1 + a ^ 2) = r at *
  have e : a ^ 2 * (1 / 2 * (r + a ^ 2 * l)) + (1 - a ^ 2) * (1 / 4 * ((1 + a ^ 2) * r
        - a ^ 2 * (1 / 2 * (r + a ^ 2 * l)))) - 1 / 6 * ((1 + a ^ 2) * r - 3 * a ^ 2
        * (1 / 4 * ((1 + a ^ 2) * r - a ^ 2 * (1 / 2 * (r + a ^ 2 * l)))))
      = r * (1 / 12 + a ^ 2 / 3) + a ^ 4 * (l * (6 + a ^ 2) - r) / 16 := by ring
  rw [e]
  have r3 : r ≤ 3 + a ^ 2 / 2 := by nlinarith [sq_nonneg (a ^ 2)]
  have : r ≤ l * (6 + a ^ 2) := by nlinarith [sq_nonneg a]
  have : 0 ≤ a ^ 4 * (l * (6 + a ^ 2) - r) / 16 := by
    have : 0 ≤ l * (6 + a ^ 2) - r := by linarith
    positivity
  positivity

/-- On the path with the hydrostatic strain first, `sigma11` never equals
`T (-Ct (Q - 2α³/3) + Cn Q)`, the form the other two paths have (and the paper gives): the
normal-stiffness term ended up inside the bracket multiplied by `-Ct`. -/
theorem C47_iso_uni_sigma11_violated (h : Compressed K0 G0 n φ ε ε₃) :
    ∃ (M : Mat6 Fl) (s33 s11 : ℝ),
      johnson (fin K0) (fin G0) (fin n) (fin φ) (fin ε) (fin ε₃) "iso-uni"
        = .ok (M, fin s33, fin s11) ∧
      s11 ≠ jT n φ ε (Real.sqrt (ε / ε₃)) * (-jCt K0 G0 * (jQ (Real.sqrt (ε / ε₃))
        - 2 * Real.sqrt (ε / ε₃) ^ 3 / 3) + jCn K0 G0 * jQ (Real.sqrt (ε / ε₃))) := by
  refine ⟨_, _, _, (johnson_eval h "iso-uni").trans (by
      dsimp only
      rw [if_neg (by decide), if_neg (by decide), if_pos rfl]), ?_⟩
  have ha : 0 < Real.sqrt (ε / ε₃) := Real.sqrt_pos.mpr h.ratio
  generalize Real.sqrt (ε / ε₃) = a at *
  have q := jQ_pos ha
  have cn := jCn_pos h
  have ct := jCt_pos h
  have hT : jT n φ ε a < 0 := by
    have := h.coord
    have : 0 < 1 - φ := by linarith [h.por]
    have : 0 < -ε := by linarith [h.iso]
    have := Real.pi_pos
    have p : 0 < (-ε) ^ ((3 : ℝ) / 2) * (1 - φ) * n / (4 * Real.pi * a ^ 3) := by positivity
    unfold jT
    rw [neg_mul, neg_mul, neg_div]
    linarith
  generalize jT n φ ε a = T at *
  generalize jQ a = Q at *
  generalize jCn K0 G0 = Cn at *
  generalize jCt K0 G0 = Ct at *
  intro e
  have e' : T * (Cn * Q * (1 + Ct)) = 0 := by linear_combination -e
  have : 0 < Cn * Q * (1 + Ct) := by positivity
  exact (mul_ne_zero hT.ne this.ne') e'

end

example : 0 ≤ nu 36.6 45 ∧ nu 36.6 45 ≠ 0 := by unfold nu; norm_num

end RockPhy.Props
