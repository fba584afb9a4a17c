import Verif.Model.GM
import Verif.Lemmas.Mix

/-! Lemmas about the granular medium models. -/

namespace RockPhy

open Fl

theorem maximum_fin (a b : ℝ) : maximum (fin a) (fin b) = fin (max a b) := by
  unfold maximum
  simp only [fl]
  split
  · rename_i h; rw [max_eq_right h]
  · rename_i h
    rw [if_pos (not_le.mp h), max_eq_left (not_le.mp h).le]

theorem minimum_fin (a b : ℝ) : minimum (fin a) (fin b) = fin (min a b) := by
  unfold minimum
  simp only [fl]
  split
  · rename_i h; rw [min_eq_left h]
  · rename_i h
    rw [if_pos (not_le.mp h), min_eq_right (not_le.mp h).le]

end RockPhy

namespace RockPhy.GM

open Fl Spec

/-- Poisson's ratio. -/
noncomputable def nu (K G : ℝ) : ℝ := (3 * K - 2 * G) / (6 * K + 2 * G)

variable {K0 G0 φ Cn σ f : ℝ}

theorem one_sub_nu (hK : 0 < K0) (hG : 0 < G0) :
    1 - nu K0 G0 = (3 * K0 + 4 * G0) / (6 * K0 + 2 * G0) := by
  unfold nu; field

theorem nu_lt (hK : 0 < K0) (hG : 0 < G0) : nu K0 G0 < 1 / 2 := by
  unfold nu
  rw [div_lt_iff₀ (by positivity)]; linarith

theorem neg_one_lt_nu (hK : 0 < K0) (hG : 0 < G0) : -1 < nu K0 G0 := by
  unfold nu
  rw [lt_div_iff₀ (by positivity)]; linarith

/-- `sigma Cn^2 (1-phi)^2 G0^2 / (18 pi^2 (1-nu)^2)`, stress in GPa. -/
noncomputable def hmArg (K0 G0 φ Cn σ : ℝ) : ℝ :=
  σ / 1000 * (Cn ^ 2 * (1 - φ) ^ 2 * G0 ^ 2) / (18 * Real.pi ^ 2 * (1 - nu K0 G0) ^ 2)

noncomputable def hmK (K0 G0 φ Cn σ : ℝ) : ℝ := hmArg K0 G0 φ Cn σ ^ ((1 : ℝ) / 3)

/-- Shear to bulk ratio. -/
noncomputable def hmRatio (K0 G0 f : ℝ) : ℝ :=
  3 * (2 + 3 * f - nu K0 G0 * (1 + 3 * f)) / (5 * (2 - nu K0 G0))

noncomputable def hmG (K0 G0 φ Cn σ f : ℝ) : ℝ := hmRatio K0 G0 f * hmK K0 G0 φ Cn σ

theorem cbrt_mul27 {x : ℝ} (hx : 0 ≤ x) : (27 * x) ^ ((1 : ℝ) / 3) = 3 * x ^ ((1 : ℝ) / 3) := by
  rw [Real.mul_rpow (by norm_num) hx]
  congr 1
  rw [show (27 : ℝ) = 3 ^ (3 : ℝ) by norm_num, ← Real.rpow_mul (by norm_num)]
  norm_num

theorem cbrt_pow {x : ℝ} (hx : 0 ≤ x) : (x ^ ((1 : ℝ) / 3)) ^ 3 = x := by
  rw [← Real.rpow_natCast, ← Real.rpow_mul hx]; norm_num

theorem pow_cbrt {x : ℝ} (hx : 0 ≤ x) : (x ^ 3) ^ ((1 : ℝ) / 3) = x := by
  rw [← Real.rpow_natCast, ← Real.rpow_mul hx]; norm_num

theorem hmArg_nonneg (hσ : 0 ≤ σ) : 0 ≤ hmArg K0 G0 φ Cn σ := by
  unfold hmArg; positivity

theorem hmArg_pos (hK : 0 < K0) (hG : 0 < G0) (hφ : φ < 1) (hC : 0 < Cn) (hσ : 0 < σ) :
    0 < hmArg K0 G0 φ Cn σ := by
  have h1 : 0 < 1 - φ := by linarith
  have h2 : 0 < 1 - nu K0 G0 := by linarith [nu_lt hK hG]
  unfold hmArg; positivity

theorem hmK_pos (hK : 0 < K0) (hG : 0 < G0) (hφ : φ < 1) (hC : 0 < Cn) (hσ : 0 < σ) :
    0 < hmK K0 G0 φ Cn σ := Real.rpow_pos_of_pos (hmArg_pos hK hG hφ hC hσ) _

theorem hmRatio_pos (hK : 0 < K0) (hG : 0 < G0) (hf : 0 ≤ f) : 0 < hmRatio K0 G0 f := by
  have h2 := nu_lt hK hG
  unfold hmRatio
  apply div_pos
  · nlinarith [mul_nonneg hf (by linarith : 0 ≤ 1 / 2 - nu K0 G0)]
  · linarith

theorem hmG_pos (hK : 0 < K0) (hG : 0 < G0) (hφ : φ < 1) (hC : 0 < Cn) (hσ : 0 < σ) (hf : 0 ≤ f) :
    0 < hmG K0 G0 φ Cn σ f := mul_pos (hmRatio_pos hK hG hf) (hmK_pos hK hG hφ hC hσ)

theorem hertzmindlin_eval (hK : 0 < K0) (hG : 0 < G0) (hσ : 0 ≤ σ) :
    hertzmindlin (fin K0) (fin G0) (fin φ) (fin Cn) (fin σ) (fin f)
      = (fin (hmK K0 G0 φ Cn σ), fin (hmG K0 G0 φ Cn σ f)) := by
  have h1 : 1 - nu K0 G0 ≠ 0 := by linarith [nu_lt hK hG]
  have h2 : 5 * (2 - nu K0 G0) ≠ 0 := by linarith [nu_lt hK hG]
  have e : (3 * fin K0 - 2 * fin G0) / (6 * fin K0 + 2 * fin G0) = fin (nu K0 G0) := by
    fl_eval [nu]
  have a0 := hmArg_nonneg (K0 := K0) (G0 := G0) (φ := φ) (Cn := Cn) hσ
  have a1 : (fin σ / 1000 * (fin Cn ** 2 * (1 - fin φ) ** 2 * fin G0 ** 2)
      / (18 * pi ** 2 * (1 - fin (nu K0 G0)) ** 2)) = fin (hmArg K0 G0 φ Cn σ) := by
    unfold hmArg
    fl_eval []
  have a2 : (fin σ / 1000 * (3 * fin Cn ** 2 * (1 - fin φ) ** 2 * fin G0 ** 2)
      / (2 * pi ** 2 * (1 - fin (nu K0 G0)) ** 2)) = fin (27 * hmArg K0 G0 φ Cn σ) := by
    unfold hmArg
    fl_eval []
    congr 1
    field
  have a3 : (1 : Fl) / 3 = fin (1 / 3) := by fl_eval []
  have q : (2 + 3 * fin f - fin (nu K0 G0) * (1 + 3 * fin f)) / (5 * (2 - fin (nu K0 G0)))
      = fin ((2 + 3 * f - nu K0 G0 * (1 + 3 * f)) / (5 * (2 - nu K0 G0))) := by
    fl_eval []
  unfold hertzmindlin
  dsimp only
  rw [e, a1, a2, a3, fl_rpow_nonneg a0 (by norm_num), fl_rpow_nonneg (by positivity) (by norm_num),
    q, fl_mul, cbrt_mul27 a0]
  refine Prod.ext rfl (fin_inj.mpr ?_)
  unfold hmG hmRatio hmK
  ring

/-- The interpolation all contact models share: bulk part. -/
theorem interp_bulk {T Kb K0 G : ℝ} (hT0 : 0 ≤ T) (hT1 : T ≤ 1) (hG : 0 ≤ G) (hb : 0 < Kb)
    (h0 : 0 < K0) :
    (-4 : Fl) / 3 * fin G + inv (fin T / (fin Kb + 4 / 3 * fin G)
      + (1 - fin T) / (fin K0 + 4 / 3 * fin G)) = fin (hsMean T Kb K0 (hsBulk G)) := by
  have e : (4 : ℝ) / 3 * G = hsBulk G := by unfold hsBulk; ring
  have hz : 0 ≤ hsBulk G := by rw [← e]; positivity
  have n1 : Kb + hsBulk G ≠ 0 := by positivity
  have n2 : K0 + hsBulk G ≠ 0 := by positivity
  have n3 : T / (Kb + hsBulk G) + (1 - T) / (K0 + hsBulk G) ≠ 0 := by
    have := hsMean_den (z := hsBulk G) hT0 hT1 (by positivity : 0 < Kb + hsBulk G)
      (by positivity : 0 < K0 + hsBulk G)
    rw [div_add_div _ _ n1 n2]
    apply div_ne_zero _ (mul_ne_zero n1 n2)
    nlinarith
  fl_eval [e]
  rw [fin_inj, hsMean]
  unfold hsBulk; ring

/-- The shear part, for any non-negative `aux`. -/
theorem interp_shear {T Gb G0 z : ℝ} (hT0 : 0 ≤ T) (hT1 : T ≤ 1) (hz : 0 ≤ z) (hb : 0 < Gb)
    (h0 : 0 < G0) :
    -(fin z) + inv (fin T / (fin Gb + fin z) + (1 - fin T) / (fin G0 + fin z))
      = fin (hsMean T Gb G0 z) := by
  have n1 : Gb + z ≠ 0 := by positivity
  have n2 : G0 + z ≠ 0 := by positivity
  have n3 : T / (Gb + z) + (1 - T) / (G0 + z) ≠ 0 := by
    have := hsMean_den (z := z) hT0 hT1 (by positivity : 0 < Gb + z) (by positivity : 0 < G0 + z)
    rw [div_add_div _ _ n1 n2]
    apply div_ne_zero _ (mul_ne_zero n1 n2)
    nlinarith
  fl_eval []
  rw [fin_inj, hsMean]
  ring

theorem aux_eval {K G : ℝ} (hK : 0 < K) (hG : 0 < G) :
    fin G / 6 * ((9 * fin K + 8 * fin G) / (fin K + 2 * fin G)) = fin (hsShear K G) := by
  fl_eval [hsShear]

theorem aux_eval' {K G : ℝ} (hK : 0 < K) (hG : 0 < G) :
    fin G / 6 * (9 * fin K + 8 * fin G) / (fin K + 2 * fin G) = fin (hsShear K G) := by
  fl_eval [hsShear]
  rw [mul_div_assoc]

theorem frac_eval {φ φc : ℝ} (h : 0 < φc) : fin φ / fin φc = fin (φ / φc) := fl_div h.ne'

/-- `patchyStiff` and `patchySoft` are `EM.HS`. -/
theorem patchyStiff_eq (f Kunc Gunc Kcem Gcem : Fl) :
    patchyStiff f Kunc Gunc Kcem Gcem = EM.HS f Kcem Kunc Gcem Gunc "upper" := rfl

theorem patchySoft_eq (f Kunc Gunc Kcem Gcem : Fl) :
    patchySoft f Kunc Gunc Kcem Gcem = EM.HS f Kcem Kunc Gcem Gunc "lower" := rfl

theorem patchyHS_eval {K0 G0 φ φc Kp Gp : ℝ} (hK0 : 0 < K0) (hG0 : 0 < G0) (hφ : 0 ≤ φ)
    (hφc : φ ≤ φc) (hc : 0 < φc) (hK : 0 < Kp) (hG : 0 < Gp) :
    patchyHS (fin K0) (fin G0) (fin φ) (fin φc) (fin Kp) (fin Gp)
      = (fin (hsMean (φ / φc) Kp K0 (hsBulk Gp)), fin (hsMean (φ / φc) Gp G0 (hsShear Kp Gp))) := by
  have t0 : 0 ≤ φ / φc := by positivity
  have t1 : φ / φc ≤ 1 := (div_le_one hc).mpr hφc
  unfold patchyHS
  dsimp only
  rw [frac_eval hc, interp_bulk t0 t1 hG.le hK hK0, aux_eval hK hG,
    interp_shear t0 t1 (hsShear_pos hK hG).le hG hG0]

theorem softsand_eq (K0 G0 φ φc Cn σ f : Fl) :
    softsand K0 G0 φ φc Cn σ f = patchyHS K0 G0 φ φc (hertzmindlin K0 G0 φc Cn σ f).1
      (hertzmindlin K0 G0 φc Cn σ f).2 := rfl

/-- `stiffsand` and `MUHS` share one interpolation, with the mineral as comparison medium. -/
noncomputable def stiffHS (K0 G0 φ φc Kb Gb : Fl) : Fl × Fl :=
  (-4 / 3 * G0 + inv ((φ / φc) / (Kb + 4 / 3 * G0) + (1 - φ / φc) / (K0 + 4 / 3 * G0)),
   -(G0 / 6 * ((9 * K0 + 8 * G0) / (K0 + 2 * G0)))
    + inv ((φ / φc) / (Gb + G0 / 6 * ((9 * K0 + 8 * G0) / (K0 + 2 * G0)))
      + (1 - φ / φc) / (G0 + G0 / 6 * ((9 * K0 + 8 * G0) / (K0 + 2 * G0)))))

theorem stiffsand_eq (K0 G0 φ φc Cn σ f : Fl) :
    stiffsand K0 G0 φ φc Cn σ f = stiffHS K0 G0 φ φc (hertzmindlin K0 G0 φc Cn σ f).1
      (hertzmindlin K0 G0 φc Cn σ f).2 := rfl

theorem MUHS_eq (K0 G0 Kc Gc φ φb φc Cn : Fl) (s : Int) :
    MUHS K0 G0 Kc Gc φ φb φc Cn s = stiffHS K0 G0 φ φb (contactcement K0 G0 Kc Gc φb φc Cn s).1
      (contactcement K0 G0 Kc Gc φb φc Cn s).2 := rfl

theorem stiffHS_eval {K0 G0 φ φc Kb Gb : ℝ} (hK0 : 0 < K0) (hG0 : 0 < G0) (hφ : 0 ≤ φ)
    (hφc : φ ≤ φc) (hc : 0 < φc) (hK : 0 < Kb) (hG : 0 < Gb) :
    stiffHS (fin K0) (fin G0) (fin φ) (fin φc) (fin Kb) (fin Gb)
      = (fin (hsMean (φ / φc) Kb K0 (hsBulk G0)), fin (hsMean (φ / φc) Gb G0 (hsShear K0 G0))) := by
  have t0 : 0 ≤ φ / φc := by positivity
  have t1 : φ / φc ≤ 1 := (div_le_one hc).mpr hφc
  unfold stiffHS
  rw [frac_eval hc, interp_bulk t0 t1 hG0.le hK hK0, aux_eval hK0 hG0,
    interp_shear t0 t1 (hsShear_pos hK0 hG0).le hG hG0]

theorem constantcement_eval {K0 G0 φ φb Kb Gb : ℝ} {Kc Gc φc Cn : Fl} {s : Int}
    (hb : contactcement (fin K0) (fin G0) Kc Gc (fin φb) φc Cn s = (fin Kb, fin Gb))
    (hK0 : 0 < K0) (hG0 : 0 < G0) (hφ : 0 ≤ φ)
    (hφb : φ ≤ φb) (hp : 0 < φb) (hK : 0 < Kb) (hG : 0 < Gb) :
    constantcement (fin φb) (fin K0) (fin G0) Kc Gc (fin φ) φc Cn s
      = (fin (hsMean (φ / φb) Kb K0 (hsBulk Gb)), fin (hsMean (φ / φb) Gb G0 (hsShear Kb Gb))) := by
  have t0 : 0 ≤ φ / φb := by positivity
  have t1 : φ / φb ≤ 1 := (div_le_one hp).mpr hφb
  unfold constantcement
  dsimp only
  rw [hb]
  dsimp only
  rw [frac_eval hp, aux_eval' hK hG]
  have e2 := interp_shear t0 t1 (hsShear_pos hK hG).le hG hG0
  have e1 := interp_bulk t0 t1 hG.le hK hK0
  have c1 : ∀ x y : Fl, -x + y = y - x := by
    intro x y; cases x <;> cases y <;> simp only [fl]
    rw [fin_inj]; ring
  have c2 : (-4 : Fl) / 3 * fin Gb = -(4 * fin Gb / 3) := by fl_eval []; rw [fin_inj]; ring
  have c3 : (4 : Fl) / 3 * fin Gb = 4 * fin Gb / 3 := by fl_eval []; rw [fin_inj]; ring
  rw [c1] at e2
  rw [c2, c3, c1] at e1
  rw [e1, e2]

end RockPhy.GM
