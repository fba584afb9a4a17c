import Verif.Props.Patchy

/-! # Property C43, continued: patchy cement between its end members -/

namespace RockPhy.Props

open Fl GM Spec

variable (sigma K0 G0 phi phic v_cem v_ci Kc Gc Cn f_ : ℝ) (scheme : Int) (Ku Gu Ke Ge : ℝ)

theorem hsMean_pos {f a b z : ℝ} (f0 : 0 ≤ f) (f1 : f ≤ 1) (ha : 0 < a) (hb : 0 < b) (hz : 0 < z) :
    0 < hsMean f a b z :=
  (lt_min ha hb).trans_le (le_hsMean f0 f1 (by linarith) (by linarith) (min_le_left _ _)
    (min_le_right _ _))

/-- Which pack is meant by the cemented one: contact cement up to the contact cement limit, the
upper bound towards the mineral beyond. -/
theorem C43_cemented_pack (mode : String)
    (h : Patchy sigma K0 G0 phic phic v_cem v_ci Kc Gc Cn f_ scheme Ku Gu Ke Ge) :
    pcm (fin 1) (fin sigma) (fin K0) (fin G0) (fin phic) (fin phic) (fin v_cem) (fin v_ci) (fin Kc)
      (fin Gc) (fin Cn) mode scheme (fin f_)
    = if v_cem ≤ v_ci then
        contactcement (fin K0) (fin G0) (fin Kc) (fin Gc) (fin (phic - v_cem)) (fin phic) (fin Cn)
          scheme
      else MUHS (fin K0) (fin G0) (fin Kc) (fin Gc) (fin (phic - v_cem)) (fin (phic - v_ci))
          (fin phic) (fin Cn) scheme := by
  rw [(C43_end_members sigma K0 G0 phic v_cem v_ci Kc Gc Cn f_ scheme Ku Gu Ke Ge mode h).2,
    ← h.cem]
  unfold cemented
  by_cases hv : v_cem ≤ v_ci
  · have : PyNum.le (fin v_cem) (fin v_ci) = true := by rw [fl_le]; simpa using hv
    rw [if_pos this, if_pos hv, fl_sub]
  · have : ¬ PyNum.le (fin v_cem) (fin v_ci) = true := by rw [fl_le]; simpa using hv
    rw [if_neg this, if_neg hv, fl_sub, fl_sub]

/-- Patchy cement is the lower bound between the mineral and a pack that is itself the upper
(`'stiff'`) or lower bound of the cemented and the unconsolidated pack. -/
theorem C43_pcm_is_HS (mode : String) (f Kp Gp : ℝ) (f0 : 0 ≤ f) (f1 : f ≤ 1)
    (h : Patchy sigma K0 G0 phi phic v_cem v_ci Kc Gc Cn f_ scheme Ku Gu Ke Ge)
    (hp : EM.HS (fin f) (fin Ke) (fin Ku) (fin Ge) (fin Gu)
      (if mode = "stiff" then "upper" else "lower") = (fin Kp, fin Gp))
    (hK : K0 ≠ Kp) (hG : G0 ≠ Gp) :
    pcm (fin f) (fin sigma) (fin K0) (fin G0) (fin phi) (fin phic) (fin v_cem) (fin v_ci) (fin Kc)
      (fin Gc) (fin Cn) mode scheme (fin f_)
    = EM.HS (fin (1 - phi / phic)) (fin K0) (fin Kp) (fin G0) (fin Gp) "lower" := by
  have t0 : 0 ≤ phi / phic := div_nonneg h.phi_nonneg h.phic_pos.le
  have t1 : phi / phic ≤ 1 := (div_le_one h.phic_pos).mpr h.phi_le
  have pos : 0 < Kp ∧ 0 < Gp := by
    by_cases hm : mode = "stiff"
    · rw [if_pos hm, ← patchyStiff_eq, h.stiff f0 f1] at hp
      simp only [Prod.mk.injEq, Fl.fin.injEq] at hp
      obtain ⟨rfl, rfl⟩ := hp
      exact ⟨hsMean_pos f0 f1 h.Ke_pos h.Ku_pos (hsBulk_pos h.Ge_pos),
        hsMean_pos f0 f1 h.Ge_pos h.Gu_pos (hsShear_pos h.Ke_pos h.Ge_pos)⟩
    · rw [if_neg hm, ← patchySoft_eq, h.soft f0 f1] at hp
      simp only [Prod.mk.injEq, Fl.fin.injEq] at hp
      obtain ⟨rfl, rfl⟩ := hp
      exact ⟨hsMean_pos f0 f1 h.Ke_pos h.Ku_pos (hsBulk_pos h.Gu_pos),
        hsMean_pos f0 f1 h.Ge_pos h.Gu_pos (hsShear_pos h.Ku_pos h.Gu_pos)⟩
  have e : (if mode = "stiff" then patchyStiff (fin f) (fin Ku) (fin Gu) (fin Ke) (fin Ge)
      else patchySoft (fin f) (fin Ku) (fin Gu) (fin Ke) (fin Ge)) = (fin Kp, fin Gp) := by
    by_cases hm : mode = "stiff"
    · rw [if_pos hm] at hp ⊢; exact hp
    · rw [if_neg hm] at hp ⊢; exact hp
  unfold pcm
  simp only [h.unc, h.cem, e]
  rw [patchyHS_eval h.K0_pos h.G0_pos h.phi_nonneg h.phi_le h.phic_pos pos.1 pos.2,
    EM.HS_lower_eval (by decide) (by linarith) (by linarith) h.K0_pos pos.1 h.G0_pos pos.2 hK hG,
    ← hsMean_swap (f := phi / phic), ← hsMean_swap (f := phi / phic)]

/-- Variable patchiness mixes the two packs linearly, `alpha` being the weight of the soft one,
and takes the lower bound to the mineral from there. -/
theorem C43_vpcm_is_HS (f a Ks Gs Kt Gt : ℝ) (f0 : 0 ≤ f) (f1 : f ≤ 1) (a0 : 0 ≤ a) (a1 : a ≤ 1)
    (h : Patchy sigma K0 G0 phi phic v_cem v_ci Kc Gc Cn f_ scheme Ku Gu Ke Ge)
    (ht : EM.HS (fin f) (fin Ke) (fin Ku) (fin Ge) (fin Gu) "upper" = (fin Kt, fin Gt))
    (hs : EM.HS (fin f) (fin Ke) (fin Ku) (fin Ge) (fin Gu) "lower" = (fin Ks, fin Gs))
    (hK : K0 ≠ (1 - a) * Kt + a * Ks) (hG : G0 ≠ (1 - a) * Gt + a * Gs) :
    vpcm (fin a) (fin f) (fin sigma) (fin K0) (fin G0) (fin phi) (fin phic) (fin v_cem) (fin v_ci)
      (fin Kc) (fin Gc) (fin Cn) scheme (fin f_)
    = EM.HS (fin (1 - phi / phic)) (fin K0) (fin ((1 - a) * Kt + a * Ks)) (fin G0)
        (fin ((1 - a) * Gt + a * Gs)) "lower" := by
  have t0 : 0 ≤ phi / phic := div_nonneg h.phi_nonneg h.phic_pos.le
  have t1 : phi / phic ≤ 1 := (div_le_one h.phic_pos).mpr h.phi_le
  rw [← patchyStiff_eq] at ht
  rw [← patchySoft_eq] at hs
  have ht' := ht
  have hs' := hs
  rw [h.stiff f0 f1] at ht
  rw [h.soft f0 f1] at hs
  simp only [Prod.mk.injEq, Fl.fin.injEq] at ht hs
  have pKt : 0 < Kt := ht.1 ▸ hsMean_pos f0 f1 h.Ke_pos h.Ku_pos (hsBulk_pos h.Ge_pos)
  have pGt : 0 < Gt := ht.2 ▸ hsMean_pos f0 f1 h.Ge_pos h.Gu_pos (hsShear_pos h.Ke_pos h.Ge_pos)
  have pKs : 0 < Ks := hs.1 ▸ hsMean_pos f0 f1 h.Ke_pos h.Ku_pos (hsBulk_pos h.Gu_pos)
  have pGs : 0 < Gs := hs.2 ▸ hsMean_pos f0 f1 h.Ge_pos h.Gu_pos (hsShear_pos h.Ku_pos h.Gu_pos)
  have mix : ∀ {x y : ℝ}, 0 < x → 0 < y → 0 < (1 - a) * x + a * y := by
    intro x y hx hy
    rcases a0.eq_or_lt with rfl | ha
    · simpa using hx
    · have := mul_pos ha hy
      have := mul_nonneg (sub_nonneg.mpr a1) hx.le
      linarith
  unfold vpcm
  simp only [h.unc, h.cem, ht', hs', fl]
  rw [show Kt * (1 - a) + Ks * a = (1 - a) * Kt + a * Ks by ring,
    show Gt * (1 - a) + Gs * a = (1 - a) * Gt + a * Gs by ring,
    patchyHS_eval h.K0_pos h.G0_pos h.phi_nonneg h.phi_le h.phic_pos (mix pKt pKs) (mix pGt pGs),
    EM.HS_lower_eval (by decide) (by linarith) (by linarith) h.K0_pos (mix pKt pKs) h.G0_pos
      (mix pGt pGs) hK hG,
    ← hsMean_swap (f := phi / phic), ← hsMean_swap (f := phi / phic)]

/-- A larger share of cemented patches never softens the rock, more pore space never stiffens it:
with `Ku <= Ke <= K0` and `Gu <= Ge <= G0`, in both modes. -/
theorem C43_pcm_monotone (mode : String) (f f' phi' : ℝ) (f0 : 0 ≤ f) (ff : f ≤ f') (f1 : f' ≤ 1)
    (h : Patchy sigma K0 G0 phi phic v_cem v_ci Kc Gc Cn f_ scheme Ku Gu Ke Ge)
    (pp : phi ≤ phi') (p1 : phi' ≤ phic)
    (hK : Ku ≤ Ke) (hG : Gu ≤ Ge) (hK0 : Ke ≤ K0) (hG0 : Ge ≤ G0) :
    ∃ Ka Ga Kb Gb Kd Gd : ℝ,
      pcm (fin f) (fin sigma) (fin K0) (fin G0) (fin phi) (fin phic) (fin v_cem) (fin v_ci)
        (fin Kc) (fin Gc) (fin Cn) mode scheme (fin f_) = (fin Ka, fin Ga) ∧
      pcm (fin f') (fin sigma) (fin K0) (fin G0) (fin phi) (fin phic) (fin v_cem) (fin v_ci)
        (fin Kc) (fin Gc) (fin Cn) mode scheme (fin f_) = (fin Kb, fin Gb) ∧
      pcm (fin f) (fin sigma) (fin K0) (fin G0) (fin phi') (fin phic) (fin v_cem) (fin v_ci)
        (fin Kc) (fin Gc) (fin Cn) mode scheme (fin f_) = (fin Kd, fin Gd) ∧
      Ka ≤ Kb ∧ Ga ≤ Gb ∧ Kd ≤ Ka ∧ Gd ≤ Ga ∧ Ku ≤ Kd ∧ Gu ≤ Gd ∧ Kb ≤ K0 ∧ Gb ≤ G0 := by
  have f1' := ff.trans f1
  have f0' := f0.trans ff
  have zbe := hsBulk_pos h.Ge_pos
  have zbu := hsBulk_pos h.Gu_pos
  have zse := hsShear_pos h.Ke_pos h.Ge_pos
  have zsu := hsShear_pos h.Ku_pos h.Gu_pos
  have ke := h.Ke_pos
  have ku := h.Ku_pos
  have ge := h.Ge_pos
  have gu := h.Gu_pos
  have k0 := h.K0_pos
  have g0 := h.G0_pos
  have inner : ∃ x y x' y' : ℝ,
      (if mode = "stiff" then patchyStiff (fin f) (fin Ku) (fin Gu) (fin Ke) (fin Ge)
        else patchySoft (fin f) (fin Ku) (fin Gu) (fin Ke) (fin Ge)) = (fin x, fin y) ∧
      (if mode = "stiff" then patchyStiff (fin f') (fin Ku) (fin Gu) (fin Ke) (fin Ge)
        else patchySoft (fin f') (fin Ku) (fin Gu) (fin Ke) (fin Ge)) = (fin x', fin y') ∧
      x ≤ x' ∧ y ≤ y' ∧ Ku ≤ x ∧ Gu ≤ y ∧ x' ≤ Ke ∧ y' ≤ Ge := by
    by_cases hm : mode = "stiff"
    · rw [if_pos hm, if_pos hm, h.stiff f0 f1', h.stiff f0' f1]
      exact ⟨_, _, _, _, rfl, rfl,
        hsMean_mono_f f0 f1 ff (by linarith) (by linarith) hK,
        hsMean_mono_f f0 f1 ff (by linarith) (by linarith) hG,
        le_hsMean f0 f1' (by linarith) (by linarith) hK le_rfl,
        le_hsMean f0 f1' (by linarith) (by linarith) hG le_rfl,
        hsMean_le f0' f1 (by linarith) (by linarith) le_rfl hK,
        hsMean_le f0' f1 (by linarith) (by linarith) le_rfl hG⟩
    · rw [if_neg hm, if_neg hm, h.soft f0 f1', h.soft f0' f1]
      exact ⟨_, _, _, _, rfl, rfl,
        hsMean_mono_f f0 f1 ff (by linarith) (by linarith) hK,
        hsMean_mono_f f0 f1 ff (by linarith) (by linarith) hG,
        le_hsMean f0 f1' (by linarith) (by linarith) hK le_rfl,
        le_hsMean f0 f1' (by linarith) (by linarith) hG le_rfl,
        hsMean_le f0' f1 (by linarith) (by linarith) le_rfl hK,
        hsMean_le f0' f1 (by linarith) (by linarith) le_rfl hG⟩
  obtain ⟨x, y, x', y', e1, e2, hx, hy, ux, uy, xe, ye⟩ := inner
  have px : 0 < x := ku.trans_le ux
  have py : 0 < y := gu.trans_le uy
  have px' : 0 < x' := px.trans_le hx
  have py' : 0 < y' := py.trans_le hy
  have t0 : 0 ≤ phi / phic := div_nonneg h.phi_nonneg h.phic_pos.le
  have t1 : phi / phic ≤ 1 := (div_le_one h.phic_pos).mpr h.phi_le
  have t0' : 0 ≤ phi' / phic := div_nonneg (h.phi_nonneg.trans pp) h.phic_pos.le
  have t1' : phi' / phic ≤ 1 := (div_le_one h.phic_pos).mpr p1
  have tt : phi / phic ≤ phi' / phic := div_le_div_of_nonneg_right pp h.phic_pos.le
  have zb := hsBulk_pos py
  have zb' := hsBulk_pos py'
  have zs := hsShear_pos px py
  have zs' := hsShear_pos px' py'
  have zz := hsShear_mono px py hx hy
  have zzb : hsBulk y ≤ hsBulk y' := by unfold hsBulk; gcongr
  unfold pcm
  simp only [h.unc, h.cem, e1, e2]
  rw [patchyHS_eval k0 g0 h.phi_nonneg h.phi_le h.phic_pos px py,
    patchyHS_eval k0 g0 h.phi_nonneg h.phi_le h.phic_pos px' py',
    patchyHS_eval k0 g0 (h.phi_nonneg.trans pp) p1 h.phic_pos px py]
  refine ⟨_, _, _, _, _, _, rfl, rfl, rfl, ?_, ?_, ?_, ?_, ?_, ?_, ?_, ?_⟩
  · exact (hsMean_mono t0 t1 (by linarith) (by linarith) zzb).trans
      (hsMean_mono_ab t0 t1 (by linarith) (by linarith) hx le_rfl)
  · exact (hsMean_mono t0 t1 (by linarith) (by linarith) zz).trans
      (hsMean_mono_ab t0 t1 (by linarith) (by linarith) hy le_rfl)
  · rw [← hsMean_swap (f := phi' / phic), ← hsMean_swap (f := phi / phic)]
    exact hsMean_mono_f (by linarith) (by linarith) (by linarith) (by linarith) (by linarith)
      (by linarith)
  · rw [← hsMean_swap (f := phi' / phic), ← hsMean_swap (f := phi / phic)]
    exact hsMean_mono_f (by linarith) (by linarith) (by linarith) (by linarith) (by linarith)
      (by linarith)
  · exact le_hsMean t0' t1' (by linarith) (by linarith) ux (by linarith)
  · exact le_hsMean t0' t1' (by linarith) (by linarith) uy (by linarith)
  · exact hsMean_le t0 t1 (by linarith) (by linarith) (by linarith) le_rfl
  · exact hsMean_le t0 t1 (by linarith) (by linarith) (by linarith) le_rfl

theorem rpow_le_inv_sq {L p : ℝ} (h0 : 0 < L) (h1 : L ≤ 1) (hp : -2 ≤ p) : L ^ p ≤ 1 / L ^ 2 := by
  have := Real.rpow_le_rpow_of_exponent_ge h0 h1 hp
  rwa [Real.rpow_neg h0.le, show (2 : ℝ) = ((2 : ℕ) : ℝ) by norm_num, Real.rpow_natCast,
    ← one_div] at this

theorem cement_bound {Cn : ℝ} (c0 : 0 ≤ Cn) (c1 : Cn ≤ 9) :
    ccK 36.6 45 36.6 45 (0.4 - 0.1) 0.4 Cn 2 ≤ 20 ∧
    ccG 36.6 45 36.6 45 (0.4 - 0.1) 0.4 Cn 2 ≤ 45 := by
  have hpi := Real.pi_gt_three
  have hpi' := Real.pi_lt_d2
  have hn : nu 36.6 45 = 19.8 / 309.6 := by unfold nu; norm_num
  have ha : ccAlpha (0.4 - 0.1) 0.4 Cn 2 = 1 / 3 := by
    unfold ccAlpha
    rw [if_neg (by decide), show 2 * (0.4 - (0.4 - 0.1)) / (3 * (1 - 0.4)) = (1 / 3 : ℝ) ^ 2 by
      norm_num, ← Real.sqrt_eq_rpow, Real.sqrt_sq (by norm_num)]
  have hL : ccLn 36.6 45 36.6 45 = 2 * (289.8 / 309.6) ^ 2 / (270 / 309.6) / Real.pi := by
    unfold ccLn
    rw [hn]
    field_simp
    norm_num
  have l0 : 0.6 ≤ ccLn 36.6 45 36.6 45 := by
    rw [hL, le_div_iff₀ (by linarith)]
    nlinarith
  have l1 : ccLn 36.6 45 36.6 45 ≤ 1 := by
    rw [hL, div_le_one (by linarith)]
    norm_num
    linarith
  have lt0 : ccLt 45 45 = 1 / Real.pi := by unfold ccLt; field_simp
  have q : ∀ {L p : ℝ}, 0.6 ≤ L → L ≤ 1 → -2 ≤ p → L ^ p ≤ 2.8 := by
    intro L p h0 h1 hp
    refine (rpow_le_inv_sq (by linarith) h1 hp).trans ?_
    rw [div_le_iff₀ (by positivity)]
    nlinarith
  have qt : ∀ {p : ℝ}, -2 ≤ p → (ccLt 45 45) ^ p ≤ 10 := by
    intro p hp
    rw [lt0]
    refine (rpow_le_inv_sq (by positivity) ?_ hp).trans ?_
    · rw [div_le_one (by linarith)]; linarith
    · rw [div_pow, one_pow, one_div_one_div]; nlinarith
  have quad_le : ∀ {a b c x y z : ℝ}, 0 ≤ a → b ≤ y → c ≤ z → 0 ≤ x → quad a b c x ≤ y * x + z := by
    intro a b c x y z h1 h2 h3 h4
    unfold quad
    nlinarith [mul_nonneg h1 (sq_nonneg x), mul_le_mul_of_nonneg_right h2 h4]
  have Lp : 0 < ccLn 36.6 45 36.6 45 := by linarith
  have sn : quad (ccN1 (ccLn 36.6 45 36.6 45)) (ccN2 (ccLn 36.6 45 36.6 45))
      (ccN3 (ccLn 36.6 45 36.6 45)) (1 / 3) ≤ 0.6 * (1 / 3) + 0.001 := by
    refine quad_le (by unfold ccN1; positivity) ?_ ?_ (by norm_num)
    · unfold ccN2
      have := q (p := -0.89008) l0 l1 (by norm_num)
      linarith
    · unfold ccN3
      have := q (p := -1.9864) l0 l1 (by norm_num)
      linarith
  have Tp : 0 < ccLt 45 45 := by rw [lt0]; positivity
  have st : quad (ccT1 (nu 36.6 45) (ccLt 45 45)) (ccT2 (nu 36.6 45) (ccLt 45 45))
      (ccT3 (nu 36.6 45) (ccLt 45 45)) (1 / 3) ≤ 2.2 * (1 / 3) + 0.01 := by
    rw [hn]
    refine quad_le (by unfold ccT1; positivity) ?_ ?_ (by norm_num)
    · unfold ccT2
      have := qt (p := 0.0274 * (19.8 / 309.6) ^ 2 + 0.0529 * (19.8 / 309.6) - 0.8765) (by norm_num)
      linarith
    · unfold ccT3
      have := qt (p := 0.01867 * (19.8 / 309.6) ^ 2 + 0.4011 * (19.8 / 309.6) - 1.8186)
        (by norm_num)
      linarith
  have hK : ccK 36.6 45 36.6 45 (0.4 - 0.1) 0.4 Cn 2 ≤ 18 := by
    unfold ccK
    rw [ha]
    have := mul_le_mul_of_nonneg_left sn c0
    linarith
  refine ⟨by linarith, ?_⟩
  unfold ccG ccSt
  rw [ha]
  have := mul_le_mul_of_nonneg_left st c0
  linarith

/-- The hypotheses of the theorems above are met: quartz grains with quartz cement. -/
example : ∃ σ Ku Gu Ke Ge : ℝ, 0 < σ ∧
    Patchy σ 36.6 45 0.3 0.4 0.1 0.1 36.6 45 8.6 0 2 Ku Gu Ke Ge ∧ Ku ≤ Ke ∧ Gu ≤ Ge ∧ Ke ≤ 36.6 ∧ Ge ≤ 45 := by
  obtain ⟨bK, bG⟩ := cement_bound (Cn := 8.6) (by norm_num) (by norm_num)
  have hc : CementSystem 36.6 45 36.6 45 0.4 8.6 :=
    ⟨by norm_num, by norm_num, by norm_num, by norm_num, by norm_num, by norm_num⟩
  have ht : ThinCement (0.4 - 0.1) 0.4 8.6 2 := by unfold ThinCement; norm_num
  have pos := C63_positive 36.6 45 36.6 45 (0.4 - 0.1) 0.4 8.6 2 hc (by norm_num) ht
  have hp : Pack 36.6 45 0.4 8.6 1 :=
    ⟨by norm_num, by norm_num, by norm_num, by norm_num, by norm_num⟩
  obtain ⟨K, G, e1, -⟩ := C39_stress_scaling 36.6 45 0.4 8.6 1 0 1 hp zero_le_one
  have kp := C39_positive 36.6 45 0.4 8.6 1 0 hp le_rfl
  rw [e1, fl_zero, fin_lt, fin_lt] at kp
  rw [contactcement_eval (by norm_num) (by norm_num) (by norm_num) (by norm_num) (by norm_num)
    (by norm_num) (by norm_num), fl_zero, fin_lt, fin_lt] at pos
  obtain ⟨p1, p2⟩ := pos
  obtain ⟨k1, k2⟩ := kp
  have cem : cemented (fin 36.6) (fin 45) (fin 0.4) (fin 0.1) (fin 0.1) (fin 36.6) (fin 45) (fin 8.6)
      2 = (fin (ccK 36.6 45 36.6 45 (0.4 - 0.1) 0.4 8.6 2),
        fin (ccG 36.6 45 36.6 45 (0.4 - 0.1) 0.4 8.6 2)) := by
    unfold cemented
    have : PyNum.le (fin (0.1 : ℝ)) (fin 0.1) = true := by rw [fl_le]
    rw [if_pos this, fl_sub, contactcement_eval (by norm_num) (by norm_num) (by norm_num)
      (by norm_num) (by norm_num) (by norm_num) (by norm_num)]
  generalize ccK 36.6 45 36.6 45 (0.4 - 0.1) 0.4 8.6 2 = Ke at *
  generalize ccG 36.6 45 36.6 45 (0.4 - 0.1) 0.4 8.6 2 = Ge at *
  obtain ⟨t, t0, tK, tG⟩ : ∃ t : ℝ, 0 < t ∧ t * K < Ke ∧ t * G < Ge := by
    have m : 0 < min (Ke / K) (Ge / G) := lt_min (by positivity) (by positivity)
    refine ⟨min (Ke / K) (Ge / G) / 2, by positivity, ?_, ?_⟩
    · rw [← lt_div_iff₀ k1]; linarith [min_le_left (Ke / K) (Ge / G)]
    · rw [← lt_div_iff₀ k2]; linarith [min_le_right (Ke / K) (Ge / G)]
  obtain ⟨K', G', e1', e2⟩ := C39_stress_scaling 36.6 45 0.4 8.6 1 0 t hp t0.le
  obtain ⟨r1, r2⟩ := Prod.mk.inj (e1.symm.trans e1')
  obtain rfl := fin_inj.mp r1
  obtain rfl := fin_inj.mp r2
  exact ⟨t ^ 3 * 1, t * K, t * G, Ke, Ge, by positivity,
    ⟨e2, cem, by norm_num, by norm_num, by positivity, by positivity, p1, p2, tK.ne', tG.ne',
      by norm_num, by norm_num, by norm_num⟩, tK.le, tG.le, bK.trans (by norm_num), bG⟩

end RockPhy.Props
