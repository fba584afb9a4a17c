import Verif.Lemmas.GM
import Mathlib.Analysis.Real.Pi.Bounds

/-! # Properties C39 to C45 (contact models and shale-sand mixing) -/

namespace RockPhy.Props

open Fl GM Spec

/-- A mineral and a grain pack the contact models apply to. -/
structure Pack (K0 G0 φ Cn σ : ℝ) : Prop where
  bulk : 0 < K0
  shear : 0 < G0
  por : φ < 1
  coord : 0 < Cn
  stress : 0 < σ

example : Pack 36.6 45 0.4 8.6 20 := ⟨by norm_num, by norm_num, by norm_num, by norm_num, by norm_num⟩

/-! ## C39 -/

/-- Both moduli are positive real numbers. -/
theorem C39_positive (K0 G0 φ Cn σ f : ℝ) (h : Pack K0 G0 φ Cn σ) (hf : 0 ≤ f) :
    0 < (hertzmindlin (fin K0) (fin G0) (fin φ) (fin Cn) (fin σ) (fin f)).1 ∧
    0 < (hertzmindlin (fin K0) (fin G0) (fin φ) (fin Cn) (fin σ) (fin f)).2 := by
  rw [hertzmindlin_eval h.bulk h.shear h.stress.le, fl_zero, fin_lt, fin_lt]
  exact ⟨hmK_pos h.bulk h.shear h.por h.coord h.stress,
    hmG_pos h.bulk h.shear h.por h.coord h.stress hf⟩

/-- The bulk modulus satisfies Mindlin's cube law (stress given in MPa, moduli in GPa). -/
theorem C39_cube_law (K0 G0 φ Cn σ f : ℝ) (h : Pack K0 G0 φ Cn σ) :
    ∃ K : ℝ, (hertzmindlin (fin K0) (fin G0) (fin φ) (fin Cn) (fin σ) (fin f)).1 = fin K ∧
      K ^ 3 = (Cn * (1 - φ) * G0) ^ 2 * (σ / 1000)
        / (18 * Real.pi ^ 2 * ((3 * K0 + 4 * G0) / (6 * K0 + 2 * G0)) ^ 2) := by
  rw [hertzmindlin_eval h.bulk h.shear h.stress.le]
  refine ⟨_, rfl, ?_⟩
  unfold hmK
  rw [cbrt_pow (hmArg_nonneg h.stress.le), hmArg, one_sub_nu h.bulk h.shear]
  ring

/-- Multiplying the stress by `t^3` multiplies both moduli by `t`. -/
theorem C39_stress_scaling (K0 G0 φ Cn σ f t : ℝ) (h : Pack K0 G0 φ Cn σ) (ht : 0 ≤ t) :
    ∃ K G : ℝ,
      hertzmindlin (fin K0) (fin G0) (fin φ) (fin Cn) (fin σ) (fin f) = (fin K, fin G) ∧
      hertzmindlin (fin K0) (fin G0) (fin φ) (fin Cn) (fin (t ^ 3 * σ)) (fin f)
        = (fin (t * K), fin (t * G)) := by
  have hσ := h.stress
  have e : hmK K0 G0 φ Cn (t ^ 3 * σ) = t * hmK K0 G0 φ Cn σ := by
    have : hmArg K0 G0 φ Cn (t ^ 3 * σ) = t ^ 3 * hmArg K0 G0 φ Cn σ := by unfold hmArg; ring
    unfold hmK
    rw [this, Real.mul_rpow (by positivity) (hmArg_nonneg hσ.le), pow_cbrt ht]
  refine ⟨_, _, hertzmindlin_eval h.bulk h.shear hσ.le, ?_⟩
  rw [hertzmindlin_eval h.bulk h.shear (by positivity), hmG, e, hmG]
  refine Prod.ext rfl (fin_inj.mpr ?_)
  ring

/-- More stress, more contacts, less porosity or more friction never soften the pack. -/
theorem C39_monotone (K0 G0 φ φ' Cn Cn' σ σ' f f' : ℝ) (h : Pack K0 G0 φ Cn σ) (hφ : φ' ≤ φ)
    (hC : Cn ≤ Cn') (hσ : σ ≤ σ') (hf0 : 0 ≤ f) (hf : f ≤ f') :
    (hertzmindlin (fin K0) (fin G0) (fin φ) (fin Cn) (fin σ) (fin f)).1 ≤
      (hertzmindlin (fin K0) (fin G0) (fin φ') (fin Cn') (fin σ') (fin f')).1 ∧
    (hertzmindlin (fin K0) (fin G0) (fin φ) (fin Cn) (fin σ) (fin f)).2 ≤
      (hertzmindlin (fin K0) (fin G0) (fin φ') (fin Cn') (fin σ') (fin f')).2 := by
  have s0 := h.stress
  have c0 := h.coord
  have p0 := h.por
  have g0 := h.shear
  have hn := nu_lt h.bulk h.shear
  rw [hertzmindlin_eval h.bulk h.shear h.stress.le,
    hertzmindlin_eval h.bulk h.shear (by linarith), fin_le, fin_le]
  have hK : hmK K0 G0 φ Cn σ ≤ hmK K0 G0 φ' Cn' σ' := by
    unfold hmK
    apply Real.rpow_le_rpow (hmArg_nonneg s0.le) _ (by norm_num)
    unfold hmArg
    have : 0 ≤ 1 - φ := by linarith
    have : 0 ≤ σ' := by linarith
    gcongr
  have hR : hmRatio K0 G0 f ≤ hmRatio K0 G0 f' := by
    unfold hmRatio
    apply div_le_div_of_nonneg_right _ (by linarith)
    nlinarith [mul_nonneg (sub_nonneg.mpr hf) (by linarith : 0 ≤ 1 / 2 - nu K0 G0)]
  refine ⟨hK, ?_⟩
  unfold hmG
  exact mul_le_mul hR hK (Real.rpow_nonneg (hmArg_nonneg s0.le) _)
    (hmRatio_pos h.bulk h.shear (hf0.trans hf)).le

/-- `f = 0` is the frictionless limit `G/K = 3/5`, and `f = 1` the no-slip limit
`G/K = 3 (5 - 4 nu) / (5 (2 - nu))`.  The docstring says the opposite (`f = 1` for slip). -/
theorem C39_friction_limits (K0 G0 φ Cn σ : ℝ) (h : Pack K0 G0 φ Cn σ) :
    ∃ K : ℝ, hertzmindlin (fin K0) (fin G0) (fin φ) (fin Cn) (fin σ) (fin 0)
        = (fin K, fin (3 / 5 * K)) ∧
      hertzmindlin (fin K0) (fin G0) (fin φ) (fin Cn) (fin σ) (fin 1)
        = (fin K, fin (3 * (5 - 4 * ((3 * K0 - 2 * G0) / (6 * K0 + 2 * G0)))
            / (5 * (2 - (3 * K0 - 2 * G0) / (6 * K0 + 2 * G0))) * K)) := by
  have hn : 2 - nu K0 G0 ≠ 0 := by linarith [nu_lt h.bulk h.shear]
  refine ⟨hmK K0 G0 φ Cn σ, ?_, ?_⟩
  · rw [hertzmindlin_eval h.bulk h.shear h.stress.le, hmG, hmRatio]
    refine Prod.ext rfl (fin_inj.mpr ?_)
    generalize nu K0 G0 = n at *
    congr 1
    rw [div_eq_div_iff (by positivity) (by norm_num)]; ring
  · rw [hertzmindlin_eval h.bulk h.shear h.stress.le, hmG, hmRatio]
    refine Prod.ext rfl (fin_inj.mpr ?_)
    show _ = 3 * (5 - 4 * nu K0 G0) / (5 * (2 - nu K0 G0)) * _
    congr 2
    ring

/-! ## C40 -/

/-- Walton's model and the Hertz-Mindlin model with slip fraction are the same function. -/
theorem C40_Walton_eq_hertzmindlin (K0 G0 φ Cn σ f : ℝ) (hK : 0 < K0) (hG : 0 < G0) (hσ : 0 ≤ σ) :
    Walton (fin K0) (fin G0) (fin φ) (fin Cn) (fin σ) (fin f)
      = hertzmindlin (fin K0) (fin G0) (fin φ) (fin Cn) (fin σ) (fin f) := by
  rw [hertzmindlin_eval hK hG hσ]
  have hn := nu_lt hK hG
  have n1 : 1 - nu K0 G0 ≠ 0 := by linarith
  have n2 : 2 - nu K0 G0 ≠ 0 := by linarith
  have q : G0 + (K0 - 2 * G0 / 3) ≠ 0 := by
    have : G0 + (K0 - 2 * G0 / 3) = K0 + G0 / 3 := by ring
    rw [this]; positivity
  have pp := Real.pi_ne_zero
  have eB : (1 : Fl) / (4 * pi) * (1 / fin G0 + 1 / (fin G0 + (fin K0 - 2 * fin G0 / 3)))
      = fin ((1 - nu K0 G0) / (2 * Real.pi * G0)) := by
    fl_eval []
    rw [fin_inj, one_sub_nu hK hG]
    have e : G0 + (K0 - 2 * G0 / 3) = (3 * K0 + G0) / 3 := by ring
    rw [e]
    field
  have a0 := hmArg_nonneg (K0 := K0) (G0 := G0) (φ := φ) (Cn := Cn) hσ
  have eN : (3 * (1 - fin φ) ** 2 * fin Cn ** 2 * (fin σ / 1e3)
      / (pi ** 4 * fin ((1 - nu K0 G0) / (2 * Real.pi * G0)) ** 2))
      = fin (216 * hmArg K0 G0 φ Cn σ) := by
    have : (1 - nu K0 G0) / (2 * Real.pi * G0) ≠ 0 := div_ne_zero n1 (by positivity)
    fl_eval []
    rw [fin_inj]
    unfold hmArg
    norm_num
    field
  have c216 : (216 * hmArg K0 G0 φ Cn σ) ^ ((1 : ℝ) / 3) = 6 * hmK K0 G0 φ Cn σ := by
    rw [Real.mul_rpow (by norm_num) a0, show (216 : ℝ) = 6 ^ 3 by norm_num, pow_cbrt (by norm_num)]
    rfl
  have a3 : (1 : Fl) / 3 = fin (1 / 3) := by fl_eval []
  have e : (3 * fin K0 - 2 * fin G0) / (6 * fin K0 + 2 * fin G0) = fin (nu K0 G0) := by
    fl_eval [nu]
  unfold Walton
  dsimp only
  rw [eB, eN, a3, fl_rpow_nonneg (by positivity) (by norm_num), c216, e]
  fl_eval []
  refine Prod.ext (fin_inj.mpr (by ring)) (fin_inj.mpr ?_)
  unfold hmG hmRatio
  generalize nu K0 G0 = n at *
  generalize hmK K0 G0 φ Cn σ = k
  field

example : (0 : ℝ) < 36.6 ∧ (0 : ℝ) < 45 ∧ (0 : ℝ) ≤ 20 := by norm_num

/-! ## C41 -/

/-- Soft sand is the lower Hashin-Shtrikman bound between the mineral and the dry pack, with
mineral fraction `1 - phi/phic`. -/
theorem C41_softsand_is_HS (K0 G0 φ φc Cn σ f : ℝ) (h : Pack K0 G0 φc Cn σ) (hf : 0 ≤ f)
    (hφ : 0 ≤ φ) (hφc : φ ≤ φc) (hc : 0 < φc)
    (hK : fin K0 ≠ (hertzmindlin (fin K0) (fin G0) (fin φc) (fin Cn) (fin σ) (fin f)).1)
    (hG : fin G0 ≠ (hertzmindlin (fin K0) (fin G0) (fin φc) (fin Cn) (fin σ) (fin f)).2) :
    softsand (fin K0) (fin G0) (fin φ) (fin φc) (fin Cn) (fin σ) (fin f)
      = EM.HS (fin (1 - φ / φc)) (fin K0)
          (hertzmindlin (fin K0) (fin G0) (fin φc) (fin Cn) (fin σ) (fin f)).1 (fin G0)
          (hertzmindlin (fin K0) (fin G0) (fin φc) (fin Cn) (fin σ) (fin f)).2 "lower" := by
  have t0 : 0 ≤ φ / φc := by positivity
  have t1 : φ / φc ≤ 1 := (div_le_one hc).mpr hφc
  have k := hmK_pos h.bulk h.shear h.por h.coord h.stress
  have g := hmG_pos h.bulk h.shear h.por h.coord h.stress hf
  rw [softsand_eq]
  rw [hertzmindlin_eval h.bulk h.shear h.stress.le] at hK hG ⊢
  rw [patchyHS_eval h.bulk h.shear hφ hφc hc k g, EM.HS_lower_eval (by decide) (by linarith)
    (by linarith) h.bulk k h.shear g (fun e => hK (congrArg fin e)) (fun e => hG (congrArg fin e)),
    ← hsMean_swap (f := φ / φc), ← hsMean_swap (f := φ / φc)]

/-- Stiff sand is the upper bound of the same pair. -/
theorem C41_stiffsand_is_HS (K0 G0 φ φc Cn σ f : ℝ) (h : Pack K0 G0 φc Cn σ) (hf : 0 ≤ f)
    (hφ : 0 ≤ φ) (hφc : φ ≤ φc) (hc : 0 < φc)
    (hK : fin K0 ≠ (hertzmindlin (fin K0) (fin G0) (fin φc) (fin Cn) (fin σ) (fin f)).1)
    (hG : fin G0 ≠ (hertzmindlin (fin K0) (fin G0) (fin φc) (fin Cn) (fin σ) (fin f)).2) :
    stiffsand (fin K0) (fin G0) (fin φ) (fin φc) (fin Cn) (fin σ) (fin f)
      = EM.HS (fin (1 - φ / φc)) (fin K0)
          (hertzmindlin (fin K0) (fin G0) (fin φc) (fin Cn) (fin σ) (fin f)).1 (fin G0)
          (hertzmindlin (fin K0) (fin G0) (fin φc) (fin Cn) (fin σ) (fin f)).2 "upper" := by
  have t0 : 0 ≤ φ / φc := by positivity
  have t1 : φ / φc ≤ 1 := (div_le_one hc).mpr hφc
  have k := hmK_pos h.bulk h.shear h.por h.coord h.stress
  have g := hmG_pos h.bulk h.shear h.por h.coord h.stress hf
  rw [stiffsand_eq]
  rw [hertzmindlin_eval h.bulk h.shear h.stress.le] at hK hG ⊢
  rw [stiffHS_eval h.bulk h.shear hφ hφc hc k g, EM.HS_upper_eval (by linarith)
    (by linarith) h.bulk k h.shear g (fun e => hK (congrArg fin e)) (fun e => hG (congrArg fin e)),
    ← hsMean_swap (f := φ / φc), ← hsMean_swap (f := φ / φc)]

/-- Both models give the mineral at zero porosity and the dry pack at the critical porosity. -/
theorem C41_endpoints (K0 G0 φc Cn σ f : ℝ) (h : Pack K0 G0 φc Cn σ) (hf : 0 ≤ f) (hc : 0 < φc) :
    softsand (fin K0) (fin G0) (fin 0) (fin φc) (fin Cn) (fin σ) (fin f) = (fin K0, fin G0) ∧
    stiffsand (fin K0) (fin G0) (fin 0) (fin φc) (fin Cn) (fin σ) (fin f) = (fin K0, fin G0) ∧
    softsand (fin K0) (fin G0) (fin φc) (fin φc) (fin Cn) (fin σ) (fin f)
      = hertzmindlin (fin K0) (fin G0) (fin φc) (fin Cn) (fin σ) (fin f) ∧
    stiffsand (fin K0) (fin G0) (fin φc) (fin φc) (fin Cn) (fin σ) (fin f)
      = hertzmindlin (fin K0) (fin G0) (fin φc) (fin Cn) (fin σ) (fin f) := by
  have k := hmK_pos h.bulk h.shear h.por h.coord h.stress
  have g := hmG_pos h.bulk h.shear h.por h.coord h.stress hf
  simp only [softsand_eq, stiffsand_eq, hertzmindlin_eval h.bulk h.shear h.stress.le,
    patchyHS_eval h.bulk h.shear le_rfl hc.le hc k g,
    patchyHS_eval h.bulk h.shear hc.le le_rfl hc k g,
    stiffHS_eval h.bulk h.shear le_rfl hc.le hc k g,
    stiffHS_eval h.bulk h.shear hc.le le_rfl hc k g, zero_div, hsMean_f0, div_self hc.ne', hsMean_one,
    and_self]

/-- If the mineral is stiffer than the pack, then soft sand never exceeds stiff sand, both lie
between the pack and the mineral, and both soften with porosity. -/
theorem C41_order (K0 G0 φ φ' φc Cn σ f : ℝ) (h : Pack K0 G0 φc Cn σ) (hf : 0 ≤ f)
    (hφ : 0 ≤ φ) (hφφ : φ ≤ φ') (hφc : φ' ≤ φc) (hc : 0 < φc)
    (hK : (hertzmindlin (fin K0) (fin G0) (fin φc) (fin Cn) (fin σ) (fin f)).1 ≤ fin K0)
    (hG : (hertzmindlin (fin K0) (fin G0) (fin φc) (fin Cn) (fin σ) (fin f)).2 ≤ fin G0) :
    let HM := hertzmindlin (fin K0) (fin G0) (fin φc) (fin Cn) (fin σ) (fin f)
    let so := softsand (fin K0) (fin G0) (fin φ) (fin φc) (fin Cn) (fin σ) (fin f)
    let so' := softsand (fin K0) (fin G0) (fin φ') (fin φc) (fin Cn) (fin σ) (fin f)
    let st := stiffsand (fin K0) (fin G0) (fin φ) (fin φc) (fin Cn) (fin σ) (fin f)
    let st' := stiffsand (fin K0) (fin G0) (fin φ') (fin φc) (fin Cn) (fin σ) (fin f)
    (HM.1 ≤ so.1 ∧ so.1 ≤ st.1 ∧ st.1 ≤ fin K0) ∧ (HM.2 ≤ so.2 ∧ so.2 ≤ st.2 ∧ st.2 ≤ fin G0) ∧
    (so'.1 ≤ so.1 ∧ so'.2 ≤ so.2) ∧ (st'.1 ≤ st.1 ∧ st'.2 ≤ st.2) := by
  have k := hmK_pos h.bulk h.shear h.por h.coord h.stress
  have g := hmG_pos h.bulk h.shear h.por h.coord h.stress hf
  have t0 : 0 ≤ φ / φc := by positivity
  have t01 : φ / φc ≤ φ' / φc := by gcongr
  have t1 : φ' / φc ≤ 1 := (div_le_one hc).mpr hφc
  simp only [softsand_eq, stiffsand_eq, hertzmindlin_eval h.bulk h.shear h.stress.le,
    patchyHS_eval h.bulk h.shear hφ (hφφ.trans hφc) hc k g,
    patchyHS_eval h.bulk h.shear (hφ.trans hφφ) hφc hc k g,
    stiffHS_eval h.bulk h.shear hφ (hφφ.trans hφc) hc k g,
    stiffHS_eval h.bulk h.shear (hφ.trans hφφ) hφc hc k g, fin_le] at hK hG ⊢
  generalize hmK K0 G0 φc Cn σ = Kh at *
  generalize hmG K0 G0 φc Cn σ f = Gh at *
  have K0p := h.bulk
  have G0p := h.shear
  have zb := hsBulk_pos g
  have zs := hsShear_pos k g
  have zb' := hsBulk_pos G0p
  have zs' := hsShear_pos K0p G0p
  have zz : hsBulk Gh ≤ hsBulk G0 := by unfold hsBulk; gcongr
  have t1' := t01.trans t1
  -- softening: write the average with the mineral as the first phase
  have dec : ∀ {a b z : ℝ}, 0 < a + z → 0 < b + z → a ≤ b →
      hsMean (φ' / φc) a b z ≤ hsMean (φ / φc) a b z := by
    intro a b z ha hb hab
    rw [← hsMean_swap (f := φ' / φc), ← hsMean_swap (f := φ / φc)]
    exact hsMean_mono_f (by linarith) (by linarith) (by linarith) hb ha hab
  refine ⟨⟨le_hsMean t0 t1' (by linarith) (by linarith) le_rfl hK,
    hsMean_mono t0 t1' (by linarith) (by linarith) zz,
    hsMean_le t0 t1' (by linarith) (by linarith) hK le_rfl⟩,
    ⟨le_hsMean t0 t1' (by linarith) (by linarith) le_rfl hG,
    hsMean_mono t0 t1' (by linarith) (by linarith) (hsShear_mono k g hK hG),
    hsMean_le t0 t1' (by linarith) (by linarith) hG le_rfl⟩,
    ⟨dec (by linarith) (by linarith) hK, dec (by linarith) (by linarith) hG⟩,
    ⟨dec (by linarith) (by linarith) hK, dec (by linarith) (by linarith) hG⟩⟩

/-- The hypotheses of `C41_order` and of the two `HS` theorems hold for this pack. -/
example :
    let HM := hertzmindlin (fin 36.6) (fin 45) (fin 0.4) (fin 8.6) (fin 20) (fin 0)
    HM.1 ≤ fin 36.6 ∧ HM.2 ≤ fin 45 ∧ fin 36.6 ≠ HM.1 ∧ fin 45 ≠ HM.2 := by
  have hk : hmK 36.6 45 0.4 8.6 20 ≤ 3 := by
    have h0 : hmArg 36.6 45 0.4 8.6 20 ≤ 3 ^ 3 := by
      unfold hmArg nu
      rw [div_le_iff₀ (by norm_num; positivity)]
      have := Real.pi_gt_three
      have : 9 ≤ Real.pi ^ 2 := by nlinarith
      norm_num
      nlinarith
    have := Real.rpow_le_rpow (hmArg_nonneg (by norm_num)) h0 (by norm_num : (0 : ℝ) ≤ 1 / 3)
    rwa [pow_cbrt (by norm_num)] at this
  have hr : hmRatio 36.6 45 0 = 3 / 5 := by unfold hmRatio nu; norm_num
  intro HM
  have e : HM = _ := hertzmindlin_eval (by norm_num) (by norm_num) (by norm_num)
  rw [e, hmG, hr, fin_le, fin_le, ne_eq, fin_inj, ne_eq, fin_inj]
  refine ⟨by linarith, by linarith, fun h => ?_, fun h => ?_⟩ <;> linarith

/-! ## C42 -/

/-- Constant cement: mineral at zero porosity, cemented end member at its porosity, and the lower
Hashin-Shtrikman bound (cement as comparison medium) in between. -/
theorem C42_constantcement (K0 G0 Kb Gb φ φb : ℝ) (Kc Gc φc Cn : Fl) (s : Int)
    (hb : contactcement (fin K0) (fin G0) Kc Gc (fin φb) φc Cn s = (fin Kb, fin Gb))
    (hK0 : 0 < K0) (hG0 : 0 < G0) (hφ : 0 ≤ φ) (hφb : φ ≤ φb) (hp : 0 < φb) (hK : 0 < Kb)
    (hG : 0 < Gb) :
    constantcement (fin φb) (fin K0) (fin G0) Kc Gc (fin 0) φc Cn s = (fin K0, fin G0) ∧
    constantcement (fin φb) (fin K0) (fin G0) Kc Gc (fin φb) φc Cn s = (fin Kb, fin Gb) ∧
    (K0 ≠ Kb → G0 ≠ Gb → constantcement (fin φb) (fin K0) (fin G0) Kc Gc (fin φ) φc Cn s
      = EM.HS (fin (1 - φ / φb)) (fin K0) (fin Kb) (fin G0) (fin Gb) "lower") := by
  have t0 : 0 ≤ φ / φb := by positivity
  have t1 : φ / φb ≤ 1 := (div_le_one hp).mpr hφb
  refine ⟨?_, ?_, fun h1 h2 => ?_⟩
  · rw [constantcement_eval hb hK0 hG0 le_rfl hp.le hp hK hG, zero_div, hsMean_f0, hsMean_f0]
  · rw [constantcement_eval hb hK0 hG0 hp.le le_rfl hp hK hG, div_self hp.ne', hsMean_one, hsMean_one]
  · rw [constantcement_eval hb hK0 hG0 hφ hφb hp hK hG, EM.HS_lower_eval (by decide) (by linarith)
      (by linarith) hK0 hK hG0 hG h1 h2, ← hsMean_swap (f := φ / φb), ← hsMean_swap (f := φ / φb)]

/-- Increasing cement (`MUHS`): the same with the upper bound. -/
theorem C42_MUHS (K0 G0 Kb Gb φ φb : ℝ) (Kc Gc φc Cn : Fl) (s : Int)
    (hb : contactcement (fin K0) (fin G0) Kc Gc (fin φb) φc Cn s = (fin Kb, fin Gb))
    (hK0 : 0 < K0) (hG0 : 0 < G0) (hφ : 0 ≤ φ) (hφb : φ ≤ φb) (hp : 0 < φb) (hK : 0 < Kb)
    (hG : 0 < Gb) :
    MUHS (fin K0) (fin G0) Kc Gc (fin 0) (fin φb) φc Cn s = (fin K0, fin G0) ∧
    MUHS (fin K0) (fin G0) Kc Gc (fin φb) (fin φb) φc Cn s = (fin Kb, fin Gb) ∧
    (K0 ≠ Kb → G0 ≠ Gb → MUHS (fin K0) (fin G0) Kc Gc (fin φ) (fin φb) φc Cn s
      = EM.HS (fin (1 - φ / φb)) (fin K0) (fin Kb) (fin G0) (fin Gb) "upper") := by
  have t0 : 0 ≤ φ / φb := by positivity
  have t1 : φ / φb ≤ 1 := (div_le_one hp).mpr hφb
  refine ⟨?_, ?_, fun h1 h2 => ?_⟩
  · rw [MUHS_eq, hb, stiffHS_eval hK0 hG0 le_rfl hp.le hp hK hG, zero_div, hsMean_f0, hsMean_f0]
  · rw [MUHS_eq, hb, stiffHS_eval hK0 hG0 hp.le le_rfl hp hK hG, div_self hp.ne', hsMean_one,
      hsMean_one]
  · rw [MUHS_eq, hb, stiffHS_eval hK0 hG0 hφ hφb hp hK hG, EM.HS_upper_eval (by linarith)
      (by linarith) hK0 hK hG0 hG h1 h2, ← hsMean_swap (f := φ / φb), ← hsMean_swap (f := φ / φb)]

/-- Constant cement is never stiffer than increasing cement. -/
theorem C42_order (K0 G0 Kb Gb φ φb : ℝ) (Kc Gc φc Cn : Fl) (s : Int)
    (hb : contactcement (fin K0) (fin G0) Kc Gc (fin φb) φc Cn s = (fin Kb, fin Gb))
    (hφ : 0 ≤ φ) (hφb : φ ≤ φb) (hp : 0 < φb) (hK : 0 < Kb)
    (hG : 0 < Gb) (hK0 : Kb ≤ K0) (hG0 : Gb ≤ G0) :
    (constantcement (fin φb) (fin K0) (fin G0) Kc Gc (fin φ) φc Cn s).1
      ≤ (MUHS (fin K0) (fin G0) Kc Gc (fin φ) (fin φb) φc Cn s).1 ∧
    (constantcement (fin φb) (fin K0) (fin G0) Kc Gc (fin φ) φc Cn s).2
      ≤ (MUHS (fin K0) (fin G0) Kc Gc (fin φ) (fin φb) φc Cn s).2 := by
  have t0 : 0 ≤ φ / φb := by positivity
  have t1 : φ / φb ≤ 1 := (div_le_one hp).mpr hφb
  have p0 : 0 < K0 := by linarith
  have p1 : 0 < G0 := by linarith
  have zb := hsBulk_pos hG
  have zs := hsShear_pos hK hG
  rw [MUHS_eq, hb, stiffHS_eval p0 p1 hφ hφb hp hK hG, constantcement_eval hb p0 p1 hφ hφb hp hK hG,
    fin_le, fin_le]
  exact ⟨hsMean_mono t0 t1 (by linarith) (by linarith) (by unfold hsBulk; gcongr),
    hsMean_mono t0 t1 (by linarith) (by linarith) (hsShear_mono hK hG hK0 hG0)⟩

end RockPhy.Props
