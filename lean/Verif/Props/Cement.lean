import Verif.Props.GM

/-! # Property C63 (contact cement), and the end members of C42 -/

namespace RockPhy.GM

open Fl Spec

/-- Relative radius of the cement layer. -/
noncomputable def ccAlpha (φ φc Cn : ℝ) (s : Int) : ℝ :=
  if s = 1 then 2 * ((φc - φ) / (3 * Cn * (1 - φc))) ^ ((1 : ℝ) / 4)
  else (2 * (φc - φ) / (3 * (1 - φc))) ^ ((1 : ℝ) / 2)

noncomputable def ccLn (K0 G0 Kc Gc : ℝ) : ℝ :=
  2 * Gc * (1 - nu K0 G0) * (1 - nu Kc Gc) / (Real.pi * G0 * (1 - 2 * nu Kc Gc))

noncomputable def ccLt (G0 Gc : ℝ) : ℝ := Gc / (Real.pi * G0)

noncomputable def ccN1 (L : ℝ) : ℝ := 0.024153 * L ^ (-1.3646 : ℝ)
noncomputable def ccN2 (L : ℝ) : ℝ := 0.20405 * L ^ (-0.89008 : ℝ)
noncomputable def ccN3 (L : ℝ) : ℝ := 0.00024649 * L ^ (-1.9864 : ℝ)

noncomputable def ccT1 (n L : ℝ) : ℝ :=
  1 / 10 ^ 2 * (2.26 * n ^ 2 + 2.07 * n + 2.3) * L ^ (0.079 * n ^ 2 + 0.1754 * n - 1.342)
noncomputable def ccT2 (n L : ℝ) : ℝ :=
  (0.0573 * n ^ 2 + 0.0937 * n + 0.202) * L ^ (0.0274 * n ^ 2 + 0.0529 * n - 0.8765)
noncomputable def ccT3 (n L : ℝ) : ℝ :=
  1 / 10 ^ 4 * (9.654 * n ^ 2 + 4.945 * n + 3.1) * L ^ (0.01867 * n ^ 2 + 0.4011 * n - 1.8186)

/-- `a x + b - c x^2` with the coefficients in the order of the code. -/
def quad (N1 N2 N3 x : ℝ) : ℝ := -N1 * x ^ 2 + N2 * x + N3

noncomputable def ccK (K0 G0 Kc Gc φ φc Cn : ℝ) (s : Int) : ℝ :=
  1 / 6 * Cn * (1 - φc) * (Kc + 4 / 3 * Gc)
    * quad (ccN1 (ccLn K0 G0 Kc Gc)) (ccN2 (ccLn K0 G0 Kc Gc)) (ccN3 (ccLn K0 G0 Kc Gc))
      (ccAlpha φ φc Cn s)

noncomputable def ccSt (K0 G0 Gc φ φc Cn : ℝ) (s : Int) : ℝ :=
  quad (ccT1 (nu K0 G0) (ccLt G0 Gc)) (ccT2 (nu K0 G0) (ccLt G0 Gc)) (ccT3 (nu K0 G0) (ccLt G0 Gc))
    (ccAlpha φ φc Cn s)

noncomputable def ccG (K0 G0 Kc Gc φ φc Cn : ℝ) (s : Int) : ℝ :=
  3 / 5 * ccK K0 G0 Kc Gc φ φc Cn s + 3 / 20 * Cn * (1 - φc) * Gc * ccSt K0 G0 Gc φ φc Cn s

variable {K0 G0 Kc Gc φ φc Cn : ℝ} {s : Int}

theorem ccLn_pos (hK : 0 < K0) (hG : 0 < G0) (hKc : 0 < Kc) (hGc : 0 < Gc) :
    0 < ccLn K0 G0 Kc Gc := by
  have h1 := nu_lt hK hG
  have h2 := nu_lt hKc hGc
  have : 0 < 1 - nu K0 G0 := by linarith
  have : 0 < 1 - nu Kc Gc := by linarith
  have : 0 < 1 - 2 * nu Kc Gc := by linarith
  have := Real.pi_pos
  unfold ccLn; positivity

theorem ccLt_pos (hG : 0 < G0) (hGc : 0 < Gc) : 0 < ccLt G0 Gc := by
  have := Real.pi_pos
  unfold ccLt; positivity

theorem contactcement_eval (hK : 0 < K0) (hG : 0 < G0) (hKc : 0 < Kc) (hGc : 0 < Gc)
    (hφ : φ ≤ φc) (hφc : φc < 1) (hC : 0 < Cn) :
    contactcement (fin K0) (fin G0) (fin Kc) (fin Gc) (fin φ) (fin φc) (fin Cn) s
      = (fin (ccK K0 G0 Kc Gc φ φc Cn s), fin (ccG K0 G0 Kc Gc φ φc Cn s)) := by
  have h1 := nu_lt hK hG
  have h2 := nu_lt hKc hGc
  have d1 : 0 < 1 - φc := by linarith
  have d2 : 0 ≤ φc - φ := by linarith
  have e0 : (3 * fin K0 - 2 * fin G0) / (6 * fin K0 + 2 * fin G0) = fin (nu K0 G0) := by
    fl_eval [nu]
  have ec : (3 * fin Kc - 2 * fin Gc) / (6 * fin Kc + 2 * fin Gc) = fin (nu Kc Gc) := by
    fl_eval [nu]
  have q4 : (1 : Fl) / 4 = fin (1 / 4) := by fl_eval []
  have q2 : (1 : Fl) / 2 = fin (1 / 2) := by fl_eval []
  have ea : (if s = 1 then 2 * ((fin φc - fin φ) / (3 * fin Cn * (1 - fin φc))) **. (1 / 4)
      else ((2 * (fin φc - fin φ)) / (3 * (1 - fin φc))) **. (1 / 2)) = fin (ccAlpha φ φc Cn s) := by
    unfold ccAlpha
    have n1 : (fin φc - fin φ) / (3 * fin Cn * (1 - fin φc))
        = fin ((φc - φ) / (3 * Cn * (1 - φc))) := by
      fl_eval []
    have n2 : (2 * (fin φc - fin φ)) / (3 * (1 - fin φc))
        = fin (2 * (φc - φ) / (3 * (1 - φc))) := by
      fl_eval []
    rw [q4, q2, n1, n2, fl_rpow_nonneg (by positivity) (by norm_num),
      fl_rpow_nonneg (by positivity) (by norm_num)]
    split <;> simp only [fl]
  have nc : Real.pi * G0 * (1 - 2 * nu Kc Gc) ≠ 0 := by
    have : 0 < 1 - 2 * nu Kc Gc := by linarith
    have := Real.pi_pos
    positivity
  have eL : (2 * fin Gc * (1 - fin (nu K0 G0)) * (1 - fin (nu Kc Gc)))
      / (pi * fin G0 * (1 - 2 * fin (nu Kc Gc))) = fin (ccLn K0 G0 Kc Gc) := by
    fl_eval [ccLn]
  have pp := Real.pi_ne_zero
  have eT : fin Gc / (pi * fin G0) = fin (ccLt G0 Gc) := by
    fl_eval [ccLt]
  have Lp := ccLn_pos hK hG hKc hGc
  have Tp := ccLt_pos hG hGc
  unfold contactcement
  dsimp only
  rw [e0, ec, ea, eL, eT]
  have n100 : (10 : ℝ) ^ 2 ≠ 0 := by norm_num
  have n1000 : (10 : ℝ) ^ 4 ≠ 0 := by norm_num
  fl_eval []
  refine Prod.ext (fin_inj.mpr ?_) (fin_inj.mpr ?_)
  · simp only [ccK, quad, ccN1, ccN2, ccN3]
    ring
  · simp only [ccG, ccK, ccSt, quad, ccN1, ccN2, ccN3, ccT1, ccT2, ccT3]
    ring

theorem quad_mono {N1 N2 N3 x y : ℝ} (h : 2 * N1 ≤ N2) (h0 : 0 ≤ N1) (hxy : x ≤ y) (hy : y ≤ 1) :
    quad N1 N2 N3 x ≤ quad N1 N2 N3 y := by
  have e : quad N1 N2 N3 y - quad N1 N2 N3 x = (y - x) * (N2 - N1 * (x + y)) := by
    unfold quad; ring
  have : 0 ≤ N2 - N1 * (x + y) := by nlinarith
  nlinarith [mul_nonneg (sub_nonneg.mpr hxy) this]

theorem rpow_ge_third {L e : ℝ} (hL : 1 / 9 ≤ L) (h0 : 0 ≤ e) (h1 : e ≤ 1 / 2) : 1 / 3 ≤ L ^ e := by
  have a : ((1 : ℝ) / 9) ^ ((1 : ℝ) / 2) = 1 / 3 := by
    rw [← Real.sqrt_eq_rpow, show (1 : ℝ) / 9 = (1 / 3) ^ 2 by norm_num, Real.sqrt_sq (by norm_num)]
  calc (1 : ℝ) / 3 = (1 / 9) ^ ((1 : ℝ) / 2) := a.symm
    _ ≤ (1 / 9) ^ e := Real.rpow_le_rpow_of_exponent_ge (by norm_num) (by norm_num) h1
    _ ≤ L ^ e := Real.rpow_le_rpow (by norm_num) hL h0

theorem ccN_cond {L : ℝ} (hL : 1 / 9 ≤ L) : 2 * ccN1 L ≤ ccN2 L := by
  have hp : 0 < L := by linarith
  have e : L ^ (-0.89008 : ℝ) = L ^ (-1.3646 : ℝ) * L ^ (0.47452 : ℝ) := by
    rw [← Real.rpow_add hp]; norm_num
  have := rpow_ge_third hL (e := 0.47452) (by norm_num) (by norm_num)
  have p := Real.rpow_pos_of_pos hp (-1.3646 : ℝ)
  unfold ccN1 ccN2
  rw [e]
  nlinarith

theorem ccT_cond {n L : ℝ} (hL : 1 / 9 ≤ L) (h0 : 0 ≤ n) (h1 : n ≤ 1 / 2) :
    2 * ccT1 n L ≤ ccT2 n L := by
  have hp : 0 < L := by linarith
  have e : L ^ (0.0274 * n ^ 2 + 0.0529 * n - 0.8765)
      = L ^ (0.079 * n ^ 2 + 0.1754 * n - 1.342) * L ^ (-0.0516 * n ^ 2 - 0.1225 * n + 0.4655) := by
    rw [← Real.rpow_add hp]; congr 1; ring
  have t := rpow_ge_third hL (e := -0.0516 * n ^ 2 - 0.1225 * n + 0.4655) (by nlinarith)
    (by nlinarith)
  have p := Real.rpow_pos_of_pos hp (0.079 * n ^ 2 + 0.1754 * n - 1.342)
  unfold ccT1 ccT2
  rw [e]
  have c : 0.02 * (2.26 * n ^ 2 + 2.07 * n + 2.3) ≤ (0.0573 * n ^ 2 + 0.0937 * n + 0.202) * (1 / 3) := by
    nlinarith
  have c2 : (0.0573 * n ^ 2 + 0.0937 * n + 0.202) * (1 / 3)
      ≤ (0.0573 * n ^ 2 + 0.0937 * n + 0.202) * L ^ (-0.0516 * n ^ 2 - 0.1225 * n + 0.4655) :=
    mul_le_mul_of_nonneg_left t (by positivity)
  calc 2 * (1 / 10 ^ 2 * (2.26 * n ^ 2 + 2.07 * n + 2.3)
        * L ^ (0.079 * n ^ 2 + 0.1754 * n - 1.342))
      = 0.02 * (2.26 * n ^ 2 + 2.07 * n + 2.3) * L ^ (0.079 * n ^ 2 + 0.1754 * n - 1.342) := by
        norm_num; ring
    _ ≤ (0.0573 * n ^ 2 + 0.0937 * n + 0.202) * L ^ (-0.0516 * n ^ 2 - 0.1225 * n + 0.4655)
        * L ^ (0.079 * n ^ 2 + 0.1754 * n - 1.342) :=
        mul_le_mul_of_nonneg_right (c.trans c2) p.le
    _ = _ := by ring

end RockPhy.GM

namespace RockPhy.Spec

/-- Grain and cement minerals with non-negative Poisson ratios, and a cement that is not much
softer in shear than the grains. -/
structure CementSystem (K0 G0 Kc Gc φc Cn : ℝ) : Prop where
  shear : 0 < G0
  poisson : 2 * G0 ≤ 3 * K0
  poisson_c : 2 * Gc ≤ 3 * Kc
  cement : 2 / 5 * G0 ≤ Gc
  por : φc < 1
  coord : 0 < Cn

/-- The cement layer is not thicker than the grain radius. -/
def ThinCement (φ φc Cn : ℝ) (s : Int) : Prop :=
  if s = 1 then 16 * (φc - φ) ≤ 3 * Cn * (1 - φc) else 2 * (φc - φ) ≤ 3 * (1 - φc)

end RockPhy.Spec

namespace RockPhy.GM

open Fl Spec

variable {K0 G0 Kc Gc φ φ' φc Cn : ℝ} {s : Int}

theorem ccAlpha_le_one (hφ : φ ≤ φc) (hφc : φc < 1) (hC : 0 < Cn) (ht : ThinCement φ φc Cn s) :
    ccAlpha φ φc Cn s ≤ 1 := by
  have d1 : 0 < 1 - φc := by linarith
  have d2 : 0 ≤ φc - φ := by linarith
  unfold ccAlpha
  unfold ThinCement at ht
  split at ht
  · rename_i hs
    rw [if_pos hs]
    have : (φc - φ) / (3 * Cn * (1 - φc)) ≤ (1 / 2) ^ 4 := by
      rw [div_le_iff₀ (by positivity)]; norm_num; linarith
    have h2 := Real.rpow_le_rpow (by positivity) this (by norm_num : (0 : ℝ) ≤ 1 / 4)
    have e : (((1 : ℝ) / 2) ^ 4) ^ ((1 : ℝ) / 4) = 1 / 2 := by
      rw [← Real.rpow_natCast, ← Real.rpow_mul (by norm_num)]; norm_num
    rw [e] at h2
    linarith
  · rename_i hs
    rw [if_neg hs]
    have : 2 * (φc - φ) / (3 * (1 - φc)) ≤ 1 := by
      rw [div_le_one (by positivity)]; linarith
    exact Real.rpow_le_one (by positivity) this (by norm_num)

theorem ccAlpha_nonneg (hφ : φ ≤ φc) (hφc : φc < 1) (hC : 0 < Cn) : 0 ≤ ccAlpha φ φc Cn s := by
  have d1 : 0 < 1 - φc := by linarith
  have d2 : 0 ≤ φc - φ := by linarith
  unfold ccAlpha
  split <;> positivity

theorem ccAlpha_anti (hφφ : φ ≤ φ') (hφ : φ' ≤ φc) (hφc : φc < 1) (hC : 0 < Cn) :
    ccAlpha φ' φc Cn s ≤ ccAlpha φ φc Cn s := by
  have d1 : 0 < 1 - φc := by linarith
  have d2 : 0 ≤ φc - φ' := by linarith
  unfold ccAlpha
  split
  · gcongr
  · gcongr

theorem nu_nonneg (hG : 0 < G0) (h : 2 * G0 ≤ 3 * K0) : 0 ≤ nu K0 G0 := by
  unfold nu
  apply div_nonneg <;> linarith

theorem CementSystem.ccLt_ge (h : CementSystem K0 G0 Kc Gc φc Cn) : 1 / 9 ≤ ccLt G0 Gc := by
  have := Real.pi_lt_d2
  have p := Real.pi_pos
  have g := h.shear
  unfold ccLt
  rw [le_div_iff₀ (by positivity)]
  nlinarith [h.cement]

theorem CementSystem.bulk (h : CementSystem K0 G0 Kc Gc φc Cn) : 0 < K0 := by
  linarith [h.poisson, h.shear]
theorem CementSystem.shear_c (h : CementSystem K0 G0 Kc Gc φc Cn) : 0 < Gc := by
  linarith [h.cement, h.shear]
theorem CementSystem.bulk_c (h : CementSystem K0 G0 Kc Gc φc Cn) : 0 < Kc := by
  linarith [h.poisson_c, CementSystem.shear_c h]

theorem CementSystem.ccLn_ge (h : CementSystem K0 G0 Kc Gc φc Cn) : 1 / 9 ≤ ccLn K0 G0 Kc Gc := by
  have g := h.shear
  have gc := CementSystem.shear_c h
  have h1 := nu_lt (CementSystem.bulk h) g
  have h2 := nu_lt (CementSystem.bulk_c h) gc
  have h3 := nu_nonneg gc h.poisson_c
  have p := Real.pi_pos
  refine (CementSystem.ccLt_ge h).trans ?_
  unfold ccLt ccLn
  have : 0 < 1 - 2 * nu Kc Gc := by linarith
  rw [div_le_div_iff₀ (by positivity) (by positivity)]
  have key : 1 - 2 * nu Kc Gc ≤ 2 * (1 - nu K0 G0) * (1 - nu Kc Gc) := by nlinarith
  have : 0 < Gc * (Real.pi * G0) := by positivity
  nlinarith [mul_le_mul_of_nonneg_left key this.le]

theorem cc_mono (h : CementSystem K0 G0 Kc Gc φc Cn) (hφφ : φ ≤ φ') (hφ : φ' ≤ φc)
    (ht : ThinCement φ φc Cn s) :
    ccK K0 G0 Kc Gc φ' φc Cn s ≤ ccK K0 G0 Kc Gc φ φc Cn s ∧
    ccSt K0 G0 Gc φ' φc Cn s ≤ ccSt K0 G0 Gc φ φc Cn s := by
  have hC := h.coord
  have d1 : 0 < 1 - φc := by linarith [h.por]
  have gc := CementSystem.shear_c h
  have kc := CementSystem.bulk_c h
  have a1 := ccAlpha_anti (s := s) hφφ hφ h.por hC
  have a2 := ccAlpha_le_one (s := s) (hφφ.trans hφ) h.por hC ht
  have Lp := ccLn_pos (CementSystem.bulk h) h.shear kc gc
  have Tp := ccLt_pos h.shear gc
  constructor
  · unfold ccK
    apply mul_le_mul_of_nonneg_left _ (by positivity)
    exact quad_mono (ccN_cond (CementSystem.ccLn_ge h)) (by unfold ccN1; positivity) a1 a2
  · unfold ccSt
    have n0 := nu_nonneg h.shear h.poisson
    exact quad_mono (ccT_cond (CementSystem.ccLt_ge h) n0
      (nu_lt (CementSystem.bulk h) h.shear).le) (by unfold ccT1; positivity) a1 a2

theorem ccAlpha_self : ccAlpha φc φc Cn s = 0 := by
  unfold ccAlpha
  split <;> simp

theorem cc_end_pos (h : CementSystem K0 G0 Kc Gc φc Cn) :
    0 < ccK K0 G0 Kc Gc φc φc Cn s ∧ 0 < ccSt K0 G0 Gc φc φc Cn s := by
  have hC := h.coord
  have d1 : 0 < 1 - φc := by linarith [h.por]
  have gc := CementSystem.shear_c h
  have kc := CementSystem.bulk_c h
  have Lp := ccLn_pos (CementSystem.bulk h) h.shear kc gc
  have Tp := ccLt_pos h.shear gc
  have n0 := nu_nonneg h.shear h.poisson
  unfold ccK ccSt
  rw [ccAlpha_self]
  unfold quad ccN3 ccT3
  constructor
  · have : -ccN1 (ccLn K0 G0 Kc Gc) * 0 ^ 2 + ccN2 (ccLn K0 G0 Kc Gc) * 0
      + 0.00024649 * ccLn K0 G0 Kc Gc ^ (-1.9864 : ℝ)
      = 0.00024649 * ccLn K0 G0 Kc Gc ^ (-1.9864 : ℝ) := by ring
    rw [this]; positivity
  · have e : ∀ a b c : ℝ, -a * 0 ^ 2 + b * 0 + c = c := by intros; ring
    rw [e]; positivity

end RockPhy.GM

namespace RockPhy.Props

open Fl GM Spec

/-! ## C63 -/

/-- With a thin cement layer the contact-cement moduli are positive. -/
theorem C63_positive (K0 G0 Kc Gc φ φc Cn : ℝ) (s : Int) (h : CementSystem K0 G0 Kc Gc φc Cn)
    (hφ : φ ≤ φc) (ht : ThinCement φ φc Cn s) :
    0 < (contactcement (fin K0) (fin G0) (fin Kc) (fin Gc) (fin φ) (fin φc) (fin Cn) s).1 ∧
    0 < (contactcement (fin K0) (fin G0) (fin Kc) (fin Gc) (fin φ) (fin φc) (fin Cn) s).2 := by
  have hC := h.coord
  have d1 : 0 < 1 - φc := by linarith [h.por]
  have gc := CementSystem.shear_c h
  rw [contactcement_eval (CementSystem.bulk h) h.shear (CementSystem.bulk_c h)
    (CementSystem.shear_c h) hφ h.por h.coord, fl_zero, fin_lt, fin_lt]
  obtain ⟨e1, e2⟩ := cc_end_pos (s := s) h
  obtain ⟨m1, m2⟩ := cc_mono (s := s) h hφ le_rfl ht
  have k := e1.trans_le m1
  have t := e2.trans_le m2
  refine ⟨k, ?_⟩
  unfold ccG
  positivity

/-- More cement (lower porosity) never softens the pack. -/
theorem C63_monotone (K0 G0 Kc Gc φ φ' φc Cn : ℝ) (s : Int) (h : CementSystem K0 G0 Kc Gc φc Cn)
    (hφφ : φ ≤ φ') (hφ : φ' ≤ φc) (ht : ThinCement φ φc Cn s) :
    (contactcement (fin K0) (fin G0) (fin Kc) (fin Gc) (fin φ') (fin φc) (fin Cn) s).1 ≤
      (contactcement (fin K0) (fin G0) (fin Kc) (fin Gc) (fin φ) (fin φc) (fin Cn) s).1 ∧
    (contactcement (fin K0) (fin G0) (fin Kc) (fin Gc) (fin φ') (fin φc) (fin Cn) s).2 ≤
      (contactcement (fin K0) (fin G0) (fin Kc) (fin Gc) (fin φ) (fin φc) (fin Cn) s).2 := by
  have hC := h.coord
  have d1 : 0 < 1 - φc := by linarith [h.por]
  have gc := CementSystem.shear_c h
  rw [contactcement_eval (CementSystem.bulk h) h.shear (CementSystem.bulk_c h) gc hφ h.por h.coord,
    contactcement_eval (CementSystem.bulk h) h.shear (CementSystem.bulk_c h) gc (hφφ.trans hφ)
      h.por h.coord, fin_le, fin_le]
  obtain ⟨m1, m2⟩ := cc_mono (s := s) h hφφ hφ ht
  refine ⟨m1, ?_⟩
  unfold ccG
  have := mul_le_mul_of_nonneg_left m2 (by positivity : 0 ≤ 3 / 20 * Cn * (1 - φc) * Gc)
  linarith

/-- Every scheme number other than 1 means scheme 2. -/
theorem C63_scheme (K0 G0 Kc Gc φ φc Cn : Fl) (s : Int) (hs : s ≠ 1) :
    contactcement K0 G0 Kc Gc φ φc Cn s = contactcement K0 G0 Kc Gc φ φc Cn 2 := by
  unfold contactcement
  rw [if_neg hs, if_neg (by decide)]

/-- The critical porosity at which cementation starts must not be exceeded: then the result is not
a real number. -/
theorem C63_above_critical (K0 G0 Kc Gc φ φc Cn : ℝ) (s : Int) (hφ : φc < φ) (hφc : φc < 1)
    (hC : 0 < Cn) :
    (contactcement (fin K0) (fin G0) (fin Kc) (fin Gc) (fin φ) (fin φc) (fin Cn) s).1 = bad ∧
    (contactcement (fin K0) (fin G0) (fin Kc) (fin Gc) (fin φ) (fin φc) (fin Cn) s).2 = bad := by
  have d1 : 0 < 1 - φc := by linarith
  have nb : ∀ {x y : ℝ}, x < 0 → (¬ ∃ n : ℤ, y = n) → fin x **. fin y = bad := by
    intro x y hx hy
    exact if_neg (by rintro (h | ⟨h, _⟩ | ⟨_, h⟩) <;> [linarith; linarith; exact hy h])
  have nI : ∀ {q : ℝ}, 0 < q → q < 1 → ¬ ∃ n : ℤ, q = n := by
    rintro q h0 h1 ⟨n, rfl⟩
    have : (0 : ℤ) < n := by exact_mod_cast h0
    have : n < (1 : ℤ) := by exact_mod_cast h1
    omega
  have ea : (if s = 1 then 2 * ((fin φc - fin φ) / (3 * fin Cn * (1 - fin φc))) **. (1 / 4)
      else ((2 * (fin φc - fin φ)) / (3 * (1 - fin φc))) **. (1 / 2)) = bad := by
    have q4 : (1 : Fl) / 4 = fin (1 / 4) := by fl_eval []
    have q2 : (1 : Fl) / 2 = fin (1 / 2) := by fl_eval []
    have n1 : (fin φc - fin φ) / (3 * fin Cn * (1 - fin φc))
        = fin ((φc - φ) / (3 * Cn * (1 - φc))) := by
      fl_eval []
    have n2 : (2 * (fin φc - fin φ)) / (3 * (1 - fin φc))
        = fin (2 * (φc - φ) / (3 * (1 - φc))) := by
      fl_eval []
    rw [q4, q2, n1, n2, nb (div_neg_of_neg_of_pos (by linarith) (by positivity))
      (nI (by norm_num) (by norm_num)),
      nb (div_neg_of_neg_of_pos (by linarith) (by positivity)) (nI (by norm_num) (by norm_num))]
    split <;> simp only [fl]
  unfold contactcement
  dsimp only
  rw [ea]
  simp only [fl, and_self]

example : CementSystem 36.6 45 36.6 45 0.4 8.6 ∧ ThinCement 0.3 0.4 8.6 1 ∧
    ThinCement 0.3 0.4 8.6 2 := by
  refine ⟨⟨by norm_num, by norm_num, by norm_num, by norm_num, by norm_num, by norm_num⟩, ?_, ?_⟩
  · unfold ThinCement; norm_num
  · unfold ThinCement; norm_num

/-- The end member hypothesis of the `C42` theorems is met by every cement system. -/
example (K0 G0 Kc Gc φb φc Cn : ℝ) (s : Int) (h : CementSystem K0 G0 Kc Gc φc Cn)
    (hφ : φb ≤ φc) (ht : ThinCement φb φc Cn s) :
    ∃ Kb Gb : ℝ, contactcement (fin K0) (fin G0) (fin Kc) (fin Gc) (fin φb) (fin φc) (fin Cn) s
      = (fin Kb, fin Gb) ∧ 0 < Kb ∧ 0 < Gb := by
  have := C63_positive K0 G0 Kc Gc φb φc Cn s h hφ ht
  rw [contactcement_eval (CementSystem.bulk h) h.shear (CementSystem.bulk_c h)
    (CementSystem.shear_c h) hφ h.por h.coord, fl_zero, fin_lt, fin_lt] at this
  exact ⟨_, _, contactcement_eval (CementSystem.bulk h) h.shear (CementSystem.bulk_c h)
    (CementSystem.shear_c h) hφ h.por h.coord, this⟩

end RockPhy.Props
