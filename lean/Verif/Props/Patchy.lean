import Verif.Props.Cement
import Verif.Np

/-! # Properties C43, C44, C45 and C64 (patchy cement, shale mixing, diluting) -/

namespace RockPhy.Props

open Fl GM Spec

/-! ## C43 -/

/-- Everything `pcm` needs to know about its end members: the unconsolidated pack `(Ku, Gu)`, the
cemented pack `(Kc, Gc)`, the mineral, and a porosity in range. -/
structure Patchy (sigma K0 G0 phi phic v_cem v_ci Kc Gc Cn f_ : ℝ) (scheme : Int)
    (Ku Gu Ke Ge : ℝ) : Prop where
  unc : hertzmindlin (fin K0) (fin G0) (fin phic) (fin Cn) (fin sigma) (fin f_) = (fin Ku, fin Gu)
  cem : cemented (fin K0) (fin G0) (fin phic) (fin v_cem) (fin v_ci) (fin Kc) (fin Gc) (fin Cn) scheme
    = (fin Ke, fin Ge)
  K0_pos : 0 < K0
  G0_pos : 0 < G0
  Ku_pos : 0 < Ku
  Gu_pos : 0 < Gu
  Ke_pos : 0 < Ke
  Ge_pos : 0 < Ge
  K_ne : Ke ≠ Ku
  G_ne : Ge ≠ Gu
  phi_nonneg : 0 ≤ phi
  phi_le : phi ≤ phic
  phic_pos : 0 < phic

section

variable {sigma K0 G0 phi phic v_cem v_ci Kc Gc Cn f_ : ℝ} {scheme : Int} {Ku Gu Ke Ge f : ℝ}

theorem Patchy.stiff (h : Patchy sigma K0 G0 phi phic v_cem v_ci Kc Gc Cn f_ scheme Ku Gu Ke Ge)
    (f0 : 0 ≤ f) (f1 : f ≤ 1) :
    patchyStiff (fin f) (fin Ku) (fin Gu) (fin Ke) (fin Ge)
      = (fin (hsMean f Ke Ku (hsBulk Ge)), fin (hsMean f Ge Gu (hsShear Ke Ge))) := by
  rw [patchyStiff_eq, EM.HS_upper_eval f0 f1 h.Ke_pos h.Ku_pos h.Ge_pos h.Gu_pos h.K_ne h.G_ne]

theorem Patchy.soft (h : Patchy sigma K0 G0 phi phic v_cem v_ci Kc Gc Cn f_ scheme Ku Gu Ke Ge)
    (f0 : 0 ≤ f) (f1 : f ≤ 1) :
    patchySoft (fin f) (fin Ku) (fin Gu) (fin Ke) (fin Ge)
      = (fin (hsMean f Ke Ku (hsBulk Gu)), fin (hsMean f Ge Gu (hsShear Ku Gu))) := by
  rw [patchySoft_eq, EM.HS_lower_eval (by decide) f0 f1 h.Ke_pos h.Ku_pos h.Ge_pos h.Gu_pos h.K_ne
    h.G_ne]

end

variable (sigma K0 G0 phi phic v_cem v_ci Kc Gc Cn f_ : ℝ) (scheme : Int) (Ku Gu Ke Ge : ℝ)

/-- At the end-member porosity, cemented fraction 0 gives the unconsolidated pack and fraction 1
the cemented pack, in every mode. -/
theorem C43_end_members (mode : String)
    (h : Patchy sigma K0 G0 phic phic v_cem v_ci Kc Gc Cn f_ scheme Ku Gu Ke Ge) :
    pcm (fin 0) (fin sigma) (fin K0) (fin G0) (fin phic) (fin phic) (fin v_cem) (fin v_ci) (fin Kc)
      (fin Gc) (fin Cn) mode scheme (fin f_) = (fin Ku, fin Gu) ∧
    pcm (fin 1) (fin sigma) (fin K0) (fin G0) (fin phic) (fin phic) (fin v_cem) (fin v_ci) (fin Kc)
      (fin Gc) (fin Cn) mode scheme (fin f_) = (fin Ke, fin Ge) := by
  unfold pcm
  simp only [h.unc, h.cem, h.stiff le_rfl zero_le_one, h.stiff zero_le_one le_rfl,
    h.soft le_rfl zero_le_one, h.soft zero_le_one le_rfl, hsMean_f0, hsMean_one, ite_self,
    patchyHS_eval h.K0_pos h.G0_pos h.phi_nonneg le_rfl h.phic_pos h.Ku_pos h.Gu_pos,
    patchyHS_eval h.K0_pos h.G0_pos h.phi_nonneg le_rfl h.phic_pos h.Ke_pos h.Ge_pos,
    div_self h.phic_pos.ne', and_self]

/-- At zero porosity every model returns the mineral. -/
theorem C43_mineral (mode : String) (f : ℝ) (f0 : 0 ≤ f) (f1 : f ≤ 1)
    (h : Patchy sigma K0 G0 0 phic v_cem v_ci Kc Gc Cn f_ scheme Ku Gu Ke Ge) :
    pcm (fin f) (fin sigma) (fin K0) (fin G0) (fin 0) (fin phic) (fin v_cem) (fin v_ci) (fin Kc)
      (fin Gc) (fin Cn) mode scheme (fin f_) = (fin K0, fin G0) := by
  have b1 := hsBulk_pos h.Ge_pos
  have b2 := hsBulk_pos h.Gu_pos
  have s1 := hsShear_pos h.Ke_pos h.Ge_pos
  have s2 := hsShear_pos h.Ku_pos h.Gu_pos
  have ke := h.Ke_pos
  have ku := h.Ku_pos
  have ge := h.Ge_pos
  have gu := h.Gu_pos
  have pos : ∀ {a b z : ℝ}, 0 < a → 0 < b → 0 < z → 0 < hsMean f a b z := by
    intro a b z ha hb hz
    have : 0 < min a b := lt_min ha hb
    exact this.trans_le (le_hsMean f0 f1 (by linarith) (by linarith) (min_le_left _ _)
      (min_le_right _ _))
  unfold pcm
  simp only [h.unc, h.cem, h.stiff f0 f1, h.soft f0 f1]
  split
  · simp only [patchyHS_eval h.K0_pos h.G0_pos le_rfl h.phi_le h.phic_pos (pos ke ku b1)
      (pos ge gu s1), zero_div, hsMean_f0]
  · simp only [patchyHS_eval h.K0_pos h.G0_pos le_rfl h.phi_le h.phic_pos (pos ke ku b2)
      (pos ge gu s2), zero_div, hsMean_f0]

/-- A mode other than `'stiff'` is silently treated as soft. -/
theorem C43_unknown_mode (f σ K0 G0 φ φc v vi Kc Gc Cn f_ : Fl) (mode : String) (scheme : Int)
    (hm : mode ≠ "stiff") :
    pcm f σ K0 G0 φ φc v vi Kc Gc Cn mode scheme f_
      = pcm f σ K0 G0 φ φc v vi Kc Gc Cn "soft" scheme f_ := by
  unfold pcm
  dsimp only
  rw [if_neg hm, if_neg (by decide)]

/-- `vpcm` with `alpha = 0` is the stiff model, with `alpha = 1` the soft one. -/
theorem C43_vpcm_limits (f : ℝ) (f0 : 0 ≤ f) (f1 : f ≤ 1)
    (h : Patchy sigma K0 G0 phi phic v_cem v_ci Kc Gc Cn f_ scheme Ku Gu Ke Ge) :
    vpcm (fin 0) (fin f) (fin sigma) (fin K0) (fin G0) (fin phi) (fin phic) (fin v_cem) (fin v_ci)
      (fin Kc) (fin Gc) (fin Cn) scheme (fin f_)
      = pcm (fin f) (fin sigma) (fin K0) (fin G0) (fin phi) (fin phic) (fin v_cem) (fin v_ci)
      (fin Kc) (fin Gc) (fin Cn) "stiff" scheme (fin f_) ∧
    vpcm (fin 1) (fin f) (fin sigma) (fin K0) (fin G0) (fin phi) (fin phic) (fin v_cem) (fin v_ci)
      (fin Kc) (fin Gc) (fin Cn) scheme (fin f_)
      = pcm (fin f) (fin sigma) (fin K0) (fin G0) (fin phi) (fin phic) (fin v_cem) (fin v_ci)
      (fin Kc) (fin Gc) (fin Cn) "soft" scheme (fin f_) := by
  unfold pcm vpcm
  dsimp only
  rw [if_pos rfl, if_neg (by decide)]
  simp only [h.unc, h.cem, h.stiff f0 f1, h.soft f0 f1, fl]
  constructor
  · congr 2 <;> ring
  · congr 2 <;> ring

/-- For a cemented pack stiffer than the unconsolidated one and a mineral stiffer than both, a
larger `alpha` never stiffens the rock, so every `vpcm` result lies between the soft and the stiff
`pcm` result. -/
theorem C43_vpcm_monotone (f a a' : ℝ) (f0 : 0 ≤ f) (f1 : f ≤ 1) (a0 : 0 ≤ a) (aa : a ≤ a')
    (a1 : a' ≤ 1) (h : Patchy sigma K0 G0 phi phic v_cem v_ci Kc Gc Cn f_ scheme Ku Gu Ke Ge)
    (hK : Ku ≤ Ke) (hG : Gu ≤ Ge) :
    (vpcm (fin a') (fin f) (fin sigma) (fin K0) (fin G0) (fin phi) (fin phic) (fin v_cem) (fin v_ci)
      (fin Kc) (fin Gc) (fin Cn) scheme (fin f_)).1
      ≤ (vpcm (fin a) (fin f) (fin sigma) (fin K0) (fin G0) (fin phi) (fin phic) (fin v_cem)
        (fin v_ci) (fin Kc) (fin Gc) (fin Cn) scheme (fin f_)).1 ∧
    (vpcm (fin a') (fin f) (fin sigma) (fin K0) (fin G0) (fin phi) (fin phic) (fin v_cem) (fin v_ci)
      (fin Kc) (fin Gc) (fin Cn) scheme (fin f_)).2
      ≤ (vpcm (fin a) (fin f) (fin sigma) (fin K0) (fin G0) (fin phi) (fin phic) (fin v_cem)
        (fin v_ci) (fin Kc) (fin Gc) (fin Cn) scheme (fin f_)).2 := by
  have b1 := hsBulk_pos h.Ge_pos
  have b2 := hsBulk_pos h.Gu_pos
  have s1 := hsShear_pos h.Ke_pos h.Ge_pos
  have s2 := hsShear_pos h.Ku_pos h.Gu_pos
  have ke := h.Ke_pos
  have ku := h.Ku_pos
  have ge := h.Ge_pos
  have gu := h.Gu_pos
  have k0 := h.K0_pos
  have g0 := h.G0_pos
  have pos : ∀ {a b z : ℝ}, 0 < a → 0 < b → 0 < z → 0 < hsMean f a b z := by
    intro a b z ha hb hz
    have : 0 < min a b := lt_min ha hb
    exact this.trans_le (le_hsMean f0 f1 (by linarith) (by linarith) (min_le_left _ _)
      (min_le_right _ _))
  have p1 := pos ke ku b1
  have p2 := pos ke ku b2
  have p3 := pos ge gu s1
  have p4 := pos ge gu s2
  have o1 : hsMean f Ke Ku (hsBulk Gu) ≤ hsMean f Ke Ku (hsBulk Ge) :=
    hsMean_mono f0 f1 (by linarith) (by linarith) (by unfold hsBulk; gcongr)
  have o2 : hsMean f Ge Gu (hsShear Ku Gu) ≤ hsMean f Ge Gu (hsShear Ke Ge) :=
    hsMean_mono f0 f1 (by linarith) (by linarith) (hsShear_mono ku gu hK hG)
  unfold vpcm
  simp only [h.unc, h.cem, h.stiff f0 f1, h.soft f0 f1, fl]
  generalize hsMean f Ke Ku (hsBulk Gu) = ks at *
  generalize hsMean f Ke Ku (hsBulk Ge) = kS at *
  generalize hsMean f Ge Gu (hsShear Ku Gu) = gs at *
  generalize hsMean f Ge Gu (hsShear Ke Ge) = gS at *
  have mixpos : ∀ {x y t : ℝ}, 0 < x → 0 < y → 0 ≤ t → t ≤ 1 → 0 < x * (1 - t) + y * t := by
    intro x y t hx hy ht0 ht1
    rcases ht0.eq_or_lt with rfl | ht
    · simpa using hx
    · have := mul_pos hy ht
      have := mul_nonneg hx.le (sub_nonneg.mpr ht1)
      linarith
  have a0' := a0.trans aa
  have a1' := aa.trans a1
  rw [patchyHS_eval k0 g0 h.phi_nonneg h.phi_le h.phic_pos (mixpos p1 p2 a0' a1)
      (mixpos p3 p4 a0' a1),
    patchyHS_eval k0 g0 h.phi_nonneg h.phi_le h.phic_pos (mixpos p1 p2 a0 a1')
      (mixpos p3 p4 a0 a1'), fin_le, fin_le]
  have q1 := mixpos p1 p2 a0' a1
  have q2 := mixpos p3 p4 a0' a1
  have q3 := mixpos p1 p2 a0 a1'
  have q4 := mixpos p3 p4 a0 a1'
  have m1 : kS * (1 - a') + ks * a' ≤ kS * (1 - a) + ks * a := by nlinarith
  have m2 : gS * (1 - a') + gs * a' ≤ gS * (1 - a) + gs * a := by nlinarith
  generalize kS * (1 - a') + ks * a' = x' at *
  generalize kS * (1 - a) + ks * a = x at *
  generalize gS * (1 - a') + gs * a' = y' at *
  generalize gS * (1 - a) + gs * a = y at *
  have t0 : 0 ≤ phi / phic := div_nonneg h.phi_nonneg h.phic_pos.le
  have t1 : phi / phic ≤ 1 := (div_le_one h.phic_pos).mpr h.phi_le
  have z1 := hsBulk_pos q2
  have z2 := hsShear_pos q1 q2
  constructor
  · exact (hsMean_mono t0 t1 (by linarith) (by linarith) (by unfold hsBulk; gcongr)).trans
      (hsMean_mono_ab t0 t1 (by linarith [hsBulk_pos q4]) (by linarith [hsBulk_pos q4]) m1 le_rfl)
  · have zz := hsShear_mono q1 q2 m1 m2
    exact (hsMean_mono t0 t1 (by linarith) (by linarith) zz).trans
      (hsMean_mono_ab t0 t1 (by linarith) (by linarith) m2 le_rfl)

/-- The switch between the two cement models at `v_cem = v_ci` is continuous: the increasing
cement branch evaluated there gives the contact-cement branch. -/
theorem C43_threshold (K0 G0 Kb Gb : ℝ) (Kc Gc Cn : Fl) (phic v_ci : ℝ) (s : Int)
    (hb : contactcement (fin K0) (fin G0) Kc Gc (fin phic - fin v_ci) (fin phic) Cn s
      = (fin Kb, fin Gb))
    (hK0 : 0 < K0) (hG0 : 0 < G0) (hp : v_ci < phic) (hK : 0 < Kb) (hG : 0 < Gb) :
    MUHS (fin K0) (fin G0) Kc Gc (fin phic - fin v_ci) (fin phic - fin v_ci) (fin phic) Cn s
      = cemented (fin K0) (fin G0) (fin phic) (fin v_ci) (fin v_ci) Kc Gc Cn s := by
  unfold cemented
  have : PyNum.le (fin v_ci) (fin v_ci) = true := by rw [fl_le]
  rw [if_pos this, hb]
  rw [fl_sub] at hb ⊢
  exact (C42_MUHS K0 G0 Kb Gb 0 (phic - v_ci) Kc Gc (fin phic) Cn s hb hK0 hG0 le_rfl
    (by linarith) (by linarith) hK hG).2.1

/-- Equal end members are not handled: the code divides by their difference. -/
theorem C43_equal_end_members (f K G : ℝ) :
    (patchyStiff (fin f) (fin K) (fin G) (fin K) (fin G)).1 = bad ∧
    (patchySoft (fin f) (fin K) (fin G) (fin K) (fin G)).1 = bad := by
  unfold patchyStiff patchySoft
  simp only [fl_sub, sub_self, fl_inv_zero, fl]
  simp

/-- The hypotheses of the `C43` theorems are met: quartz grains with quartz cement, under a stress
low enough for the uncemented pack to be softer than the cemented one. -/
example : ∃ σ Ku Gu Ke Ge : ℝ, 0 < σ ∧
    Patchy σ 36.6 45 0.3 0.4 0.1 0.1 36.6 45 8.6 0 2 Ku Gu Ke Ge ∧ Ku ≤ Ke ∧ Gu ≤ Ge := by
  have hc : CementSystem 36.6 45 36.6 45 0.4 8.6 :=
    ⟨by norm_num, by norm_num, by norm_num, by norm_num, by norm_num, by norm_num⟩
  have ht : ThinCement (0.4 - 0.1) 0.4 8.6 2 := by unfold ThinCement; norm_num
  have pos := C63_positive 36.6 45 36.6 45 (0.4 - 0.1) 0.4 8.6 2 hc (by norm_num) ht
  have hp : Pack 36.6 45 0.4 8.6 1 :=
    ⟨by norm_num, by norm_num, by norm_num, by norm_num, by norm_num⟩
  obtain ⟨K, G, e1, -⟩ := C39_stress_scaling 36.6 45 0.4 8.6 1 0 1 hp zero_le_one
  have kp := C39_positive 36.6 45 0.4 8.6 1 0 hp le_rfl
  rw [e1, fl_zero, fin_lt, fin_lt] at kp
  rw [contactcement_eval (by norm_num) (by norm_num) (by norm_num) (by norm_num) (by norm_num)
    (by norm_num) (by norm_num), fl_zero, fin_lt, fin_lt] at pos
  obtain ⟨p1, p2⟩ := pos
  obtain ⟨k1, k2⟩ := kp
  have cem : cemented (fin 36.6) (fin 45) (fin 0.4) (fin 0.1) (fin 0.1) (fin 36.6) (fin 45) (fin 8.6)
      2 = (fin (ccK 36.6 45 36.6 45 (0.4 - 0.1) 0.4 8.6 2),
        fin (ccG 36.6 45 36.6 45 (0.4 - 0.1) 0.4 8.6 2)) := by
    unfold cemented
    have : PyNum.le (fin (0.1 : ℝ)) (fin 0.1) = true := by rw [fl_le]
    rw [if_pos this, fl_sub, contactcement_eval (by norm_num) (by norm_num) (by norm_num)
      (by norm_num) (by norm_num) (by norm_num) (by norm_num)]
  generalize ccK 36.6 45 36.6 45 (0.4 - 0.1) 0.4 8.6 2 = Ke at *
  generalize ccG 36.6 45 36.6 45 (0.4 - 0.1) 0.4 8.6 2 = Ge at *
  obtain ⟨t, t0, tK, tG⟩ : ∃ t : ℝ, 0 < t ∧ t * K < Ke ∧ t * G < Ge := by
    have m : 0 < min (Ke / K) (Ge / G) := lt_min (by positivity) (by positivity)
    refine ⟨min (Ke / K) (Ge / G) / 2, by positivity, ?_, ?_⟩
    · rw [← lt_div_iff₀ k1]; linarith [min_le_left (Ke / K) (Ge / G)]
    · rw [← lt_div_iff₀ k2]; linarith [min_le_right (Ke / K) (Ge / G)]
  obtain ⟨K', G', e1', e2⟩ := C39_stress_scaling 36.6 45 0.4 8.6 1 0 t hp t0.le
  obtain ⟨r1, r2⟩ := Prod.mk.inj (e1.symm.trans e1')
  obtain rfl := fin_inj.mp r1
  obtain rfl := fin_inj.mp r2
  exact ⟨t ^ 3 * 1, t * K, t * G, Ke, Ge, by positivity,
    ⟨e2, cem, by norm_num, by norm_num, by positivity, by positivity, p1, p2, tK.ne', tG.ne',
      by norm_num, by norm_num, by norm_num⟩, tK.le, tG.le⟩

/-- At the end member porosity. -/
example {σ K0 G0 φ φc v vi Kc Gc Cn f_ : ℝ} {s : Int} {Ku Gu Ke Ge : ℝ}
    (h : Patchy σ K0 G0 φ φc v vi Kc Gc Cn f_ s Ku Gu Ke Ge) :
    Patchy σ K0 G0 φc φc v vi Kc Gc Cn f_ s Ku Gu Ke Ge :=
  { h with phi_nonneg := h.phic_pos.le, phi_le := le_rfl }

/-! ## C44 -/

/-- Clean sand and pure shale porosities at the ends, on both branches. -/
theorem C44_endpoints (s sh : ℝ) (h0 : 0 ≤ s) (h1 : s ≤ 1) :
    ThomasStieber (fin s) (fin sh) (fin 0) = (fin s, fin s) ∧
    ThomasStieber (fin s) (fin sh) (fin 1) = (fin sh, fin sh) := by
  unfold ThomasStieber
  simp only [fl, maximum_fin]
  constructor
  · refine Prod.ext (fin_inj.mpr ?_) (fin_inj.mpr ?_)
    · rw [max_eq_left (by linarith)]; ring
    · ring
  · refine Prod.ext (fin_inj.mpr ?_) (fin_inj.mpr ?_)
    · rw [max_eq_right (by linarith)]; ring
    · ring

/-- Which of the two dispersed branches applies: shale fills the sand pores up to
`vsh = phi_sand`; beyond that, sand grains float in shale. The dispersed porosity never exceeds
the laminated one, and the pore space is non-negative. -/
theorem C44_dispersed (s sh v : ℝ) (h0 : 0 ≤ s) (h1 : s ≤ 1) (hsh : 0 ≤ sh) (v0 : 0 ≤ v)
    (v1 : v ≤ 1) :
    ∃ d l : ℝ, ThomasStieber (fin s) (fin sh) (fin v) = (fin d, fin l) ∧
      (v ≤ s → d = s - (1 - sh) * v) ∧ (s ≤ v → d = sh * v) ∧ l = (1 - v) * s + v * sh ∧
      0 ≤ d ∧ d ≤ l := by
  unfold ThomasStieber
  simp only [fl, maximum_fin]
  refine ⟨_, _, rfl, fun h => max_eq_left (by linarith), fun h => max_eq_right (by linarith),
    by ring, ?_, ?_⟩
  · exact le_max_of_le_right (by positivity)
  · refine max_le ?_ ?_
    · nlinarith
    · nlinarith

example : (0 : ℝ) ≤ 0.3 ∧ (0.3 : ℝ) ≤ 1 ∧ (0 : ℝ) ≤ 0.2 ∧ (0 : ℝ) ≤ 0.25 ∧ (0.25 : ℝ) ≤ 1 := by
  norm_num

/-! ## C45 -/

/-- Shaly sand is the upper Hashin-Shtrikman bound with the sand as the stiff phase; its ends are
the sand and the shale-filled sand. -/
theorem C45_shaly_sand (phis C Ks Gs Kc Gc : ℝ) (hp : 0 < phis) (hC : 0 ≤ C) (hCp : C ≤ phis)
    (hKs : 0 < Ks) (hGs : 0 < Gs) (hKc : 0 < Kc) (hGc : 0 < Gc) :
    (Ks ≠ Kc → Gs ≠ Gc → shaly_sand (fin phis) (fin C) (fin Ks) (fin Gs) (fin Kc) (fin Gc)
      = EM.HS (fin (1 - C / phis)) (fin Ks) (fin Kc) (fin Gs) (fin Gc) "upper") ∧
    shaly_sand (fin phis) (fin 0) (fin Ks) (fin Gs) (fin Kc) (fin Gc) = (fin Ks, fin Gs) ∧
    shaly_sand (fin phis) (fin phis) (fin Ks) (fin Gs) (fin Kc) (fin Gc) = (fin Kc, fin Gc) := by
  have zb := hsBulk_pos hGs
  have zs := hsShear_pos hKs hGs
  have ev : ∀ C : ℝ, 0 ≤ C → C ≤ phis →
      shaly_sand (fin phis) (fin C) (fin Ks) (fin Gs) (fin Kc) (fin Gc)
        = (fin (hsMean (1 - C / phis) Ks Kc (hsBulk Gs)),
           fin (hsMean (1 - C / phis) Gs Gc (hsShear Ks Gs))) := by
    intro C h0 h1
    have t0 : 0 ≤ 1 - C / phis := sub_nonneg.mpr ((div_le_one hp).mpr h1)
    have t1 : 1 - C / phis ≤ 1 := by have : 0 ≤ C / phis := by positivity
                                     linarith
    have e1 := interp_bulk t0 t1 hGs.le hKs hKc
    have e2 := interp_shear t0 t1 zs.le hGs hGc
    have c1 : ∀ x y : Fl, -x + y = y - x := by
      intro x y; cases x <;> cases y <;> simp only [fl]
      rw [fin_inj]; ring
    have c2 : (-4 : Fl) / 3 * fin Gs = -(4 * fin Gs / 3) := by fl_eval []; rw [fin_inj]; ring
    have c3 : (4 : Fl) / 3 * fin Gs = 4 * fin Gs / 3 := by fl_eval []; rw [fin_inj]; ring
    have c4 : (1 : Fl) - fin (1 - C / phis) = fin (C / phis) := by
      simp only [fl, fin_inj]; ring
    rw [c1, c4] at e2
    rw [c2, c3, c1, c4] at e1
    unfold shaly_sand
    dsimp only
    have c5 : (1 : Fl) - fin (C / phis) = fin (1 - C / phis) := by simp only [fl]
    rw [frac_eval hp, aux_eval' hKs hGs, c5, e1, e2]
  refine ⟨fun hK hG => ?_, ?_, ?_⟩
  · have t0 : 0 ≤ 1 - C / phis := sub_nonneg.mpr ((div_le_one hp).mpr hCp)
    have t1 : 1 - C / phis ≤ 1 := by have : 0 ≤ C / phis := by positivity
                                     linarith
    rw [ev C hC hCp, EM.HS_upper_eval t0 t1 hKs hKc hGs hGc hK hG]
  · rw [ev 0 le_rfl hp.le, zero_div, sub_zero, hsMean_one, hsMean_one]
  · rw [ev phis hp.le le_rfl, div_self hp.ne', sub_self, hsMean_f0, hsMean_f0]

/-- The shear modulus of `silty_shale` is the lower bound; at `C = 1` it returns the shale. -/
theorem C45_silty_shale (C Kq Gq Ks Gs : ℝ) (hC : 0 ≤ C) (hC1 : C ≤ 1) (hKq : 0 < Kq)
    (hGq : 0 < Gq) (hKs : 0 < Ks) (hGs : 0 < Gs) :
    (silty_shale (fin 1) (fin Kq) (fin Gq) (fin Ks) (fin Gs) = (fin Ks, fin Gs)) ∧
    (Ks ≠ Kq → Gs ≠ Gq → (silty_shale (fin C) (fin Kq) (fin Gq) (fin Ks) (fin Gs)).2
      = (EM.HS (fin (1 - C)) (fin Kq) (fin Ks) (fin Gq) (fin Gs) "lower").2) := by
  have zs := hsShear_pos hKs hGs
  have sh : ∀ C : ℝ, 0 ≤ C → C ≤ 1 →
      (silty_shale (fin C) (fin Kq) (fin Gq) (fin Ks) (fin Gs)).2
        = fin (hsMean C Gs Gq (hsShear Ks Gs)) := by
    intro C h0 h1
    have e2 := interp_shear h0 h1 zs.le hGs hGq
    have c1 : ∀ x y : Fl, -x + y = y - x := by
      intro x y; cases x <;> cases y <;> simp only [fl]
      rw [fin_inj]; ring
    rw [c1] at e2
    unfold silty_shale
    dsimp only
    rw [aux_eval' hKs hGs, e2]
  refine ⟨Prod.ext ?_ ?_, fun hK hG => ?_⟩
  · unfold silty_shale
    have n : 1 / (Ks + 4 * Gs / 3) + (1 - 1) / (Kq + 4 * Gq / 3) ≠ 0 := by
      rw [sub_self, zero_div, add_zero]; positivity
    have n' : (1 / (Ks + 4 * Gs / 3) + (1 - 1) / (Kq + 4 * Gq / 3))⁻¹ = Ks + 4 * Gs / 3 := by
      rw [sub_self, zero_div, add_zero, one_div, inv_inv]
    fl_eval [n']
    rw [fin_inj]; ring
  · rw [sh 1 zero_le_one le_rfl, hsMean_one]
  · rw [sh C hC hC1, EM.HS_lower_eval (by decide) (by linarith) (by linarith) hKq hKs hGq hGs hK.symm
      hG.symm]
    exact congrArg fin hsMean_swap.symm

/-- The bulk modulus of `silty_shale` should be the quartz one without shale; it is off by
`4/3 (Gq - Gsh)`, because one of the two terms uses the quartz shear modulus. -/
theorem C45_silty_shale_violated (Kq Gq Ks Gs : ℝ) (hKq : 0 < Kq) (hGq : 0 < Gq) (hKs : 0 < Ks)
    (hGs : 0 < Gs) (hne : Gq ≠ Gs) :
    (silty_shale (fin 0) (fin Kq) (fin Gq) (fin Ks) (fin Gs)).1
      = fin (Kq + 4 / 3 * (Gq - Gs)) ∧ Kq + 4 / 3 * (Gq - Gs) ≠ Kq := by
  constructor
  · unfold silty_shale
    have n : 0 / (Ks + 4 * Gs / 3) + (1 - 0) / (Kq + 4 * Gq / 3) ≠ 0 := by
      rw [sub_zero, zero_div, zero_add]; positivity
    have n' : (0 / (Ks + 4 * Gs / 3) + (1 - 0) / (Kq + 4 * Gq / 3))⁻¹ = Kq + 4 * Gq / 3 := by
      rw [sub_zero, zero_div, zero_add, one_div, inv_inv]
    fl_eval [n']
    rw [fin_inj]; ring
  · intro h
    apply hne
    linarith

/-- It can even exceed both end members (and the Voigt average): quartz with a soft shale. -/
theorem C45_silty_shale_out_of_bounds :
    ∃ K : ℝ, (silty_shale (fin 0) (fin 36.6) (fin 45) (fin 20) (fin 8)).1 = fin K ∧
      36.6 < K ∧ 20 < K := by
  obtain ⟨e, -⟩ := C45_silty_shale_violated 36.6 45 20 8 (by norm_num) (by norm_num) (by norm_num)
    (by norm_num) (by norm_num)
  exact ⟨_, e, by norm_num, by norm_num⟩

example : (0 : ℝ) < 0.3 ∧ (0.1 : ℝ) ≤ 0.3 ∧ (20 : ℝ) ≠ 36.6 ∧ (8 : ℝ) ≠ 45 := by norm_num

/-! ## C64 -/

/-- `np.isnan`. -/
def npIsNan : Np → Bool
  | .nan => true
  | _ => false

/-- Between zero and the crushing stress the diluting factor decreases from `k` to zero. -/
theorem C64_in_range (k σ0 σ m : ℝ) (hk : 0 ≤ k) (h0 : 0 < σ0) (hσ : 0 ≤ σ) (hσ0 : σ ≤ σ0)
    (hm : 0 < m) :
    ∃ a : ℝ, diluting npIsNan (.fin k) (.fin σ0) (.fin σ) (.fin m) = Np.fin a ∧ 0 ≤ a ∧ a ≤ k ∧
      (σ = 0 → a = k) ∧ (σ = σ0 → a = 0) := by
  have d0 : 0 ≤ 1 - σ / σ0 := sub_nonneg.mpr ((div_le_one h0).mpr hσ0)
  have d1 : 1 - σ / σ0 ≤ 1 := by have : 0 ≤ σ / σ0 := by positivity
                                 linarith
  have e : (Np.fin (1 - σ / σ0)) **. (Np.fin m) = Np.fin ((1 - σ / σ0) ^ m) := by
    refine if_pos ?_
    rcases d0.eq_or_lt with h | h
    · exact Or.inr (Or.inl ⟨h.symm, hm.le⟩)
    · exact Or.inl h
  have e2 : diluting npIsNan (.fin k) (.fin σ0) (.fin σ) (.fin m)
      = Np.fin (k * (1 - σ / σ0) ^ m) := by
    unfold diluting
    rw [Np.np_div h0.ne', Np.np_one, Np.np_sub, e, Np.np_mul]
    rfl
  refine ⟨_, e2, by positivity, ?_, fun h => ?_, fun h => ?_⟩
  · have := Real.rpow_le_one d0 d1 hm.le
    nlinarith
  · rw [h, zero_div, sub_zero, Real.one_rpow, mul_one]
  · rw [h, div_self h0.ne', sub_self, Real.zero_rpow hm.ne', mul_zero]

/-- More stress below the crushing stress strictly lowers the diluting factor. -/
theorem C64_decreasing (k σ0 σ σ' m : ℝ) (hk : 0 < k) (h0 : 0 < σ0) (h : σ < σ') (hσ0 : σ' ≤ σ0)
    (hm : 0 < m) :
    ∃ a a' : ℝ, diluting npIsNan (.fin k) (.fin σ0) (.fin σ) (.fin m) = Np.fin a ∧
      diluting npIsNan (.fin k) (.fin σ0) (.fin σ') (.fin m) = Np.fin a' ∧ a' < a := by
  have val : ∀ s, s ≤ σ0 → diluting npIsNan (.fin k) (.fin σ0) (.fin s) (.fin m)
      = Np.fin (k * (1 - s / σ0) ^ m) := by
    intro s hs
    have d0 : 0 ≤ 1 - s / σ0 := sub_nonneg.mpr ((div_le_one h0).mpr hs)
    have e : (Np.fin (1 - s / σ0)) **. (Np.fin m) = Np.fin ((1 - s / σ0) ^ m) := by
      refine if_pos ?_
      rcases d0.eq_or_lt with h | h
      · exact Or.inr (Or.inl ⟨h.symm, hm.le⟩)
      · exact Or.inl h
    unfold diluting
    rw [Np.np_div h0.ne', Np.np_one, Np.np_sub, e, Np.np_mul]
    rfl
  refine ⟨_, _, val σ (h.le.trans hσ0), val σ' hσ0, ?_⟩
  have d0 : 0 ≤ 1 - σ' / σ0 := sub_nonneg.mpr ((div_le_one h0).mpr hσ0)
  have d1 : 1 - σ' / σ0 < 1 - σ / σ0 := by gcongr
  exact mul_lt_mul_of_pos_left (Real.rpow_lt_rpow d0 d1 hm) hk

example : (0 : ℝ) < 0.9 ∧ (0 : ℝ) < 40 ∧ (5 : ℝ) < 20 ∧ (20 : ℝ) ≤ 40 ∧ (0 : ℝ) < 2.5 := by
  norm_num

/-- Above the crushing stress the factor is zero if the exponent is not an integer. -/
theorem C64_above_noninteger (k σ0 σ m : ℝ) (h0 : 0 < σ0) (hσ : σ0 < σ) (hm : ∀ n : ℤ, m ≠ n) :
    diluting npIsNan (.fin k) (.fin σ0) (.fin σ) (.fin m) = Np.fin 0 := by
  have d : 1 - σ / σ0 < 0 := sub_neg.mpr ((one_lt_div h0).mpr hσ)
  have e : (Np.fin (1 - σ / σ0)) **. (Np.fin m) = Np.nan := by
    refine (if_neg ?_).trans (if_neg d.ne)
    rintro (h | ⟨h, _⟩ | ⟨_, n, h⟩)
    · linarith
    · linarith
    · exact hm n h
  unfold diluting
  rw [Np.np_div h0.ne', Np.np_one, Np.np_sub, e]
  exact (if_pos rfl).trans Np.np_zero

/-- The value above the crushing stress for an exponent that is a natural number. -/
theorem diluting_above_nat (k σ0 σ : ℝ) (n : ℕ) (h0 : 0 < σ0) (hσ : σ0 < σ) :
    diluting npIsNan (.fin k) (.fin σ0) (.fin σ) (.fin (n : ℝ))
      = Np.fin (k * (1 - σ / σ0) ^ n) := by
  have d : 1 - σ / σ0 < 0 := sub_neg.mpr ((one_lt_div h0).mpr hσ)
  have e : (Np.fin (1 - σ / σ0)) **. (Np.fin (n : ℝ)) = Np.fin ((1 - σ / σ0) ^ (n : ℝ)) :=
    if_pos (Or.inr (Or.inr ⟨d, (n : ℤ), by push_cast; ring⟩))
  unfold diluting
  rw [Np.np_div h0.ne', Np.np_one, Np.np_sub, e, Np.np_mul, Real.rpow_natCast]
  rfl

/-- But for an even exponent it is positive and grows again with stress instead of staying at
zero. -/
theorem C64_above_even_violated (k σ0 σ σ' : ℝ) (n : ℕ) (hn : n ≠ 0) (hk : 0 < k) (h0 : 0 < σ0)
    (hσ : σ0 < σ) (h : σ < σ') :
    ∃ a a' : ℝ, diluting npIsNan (.fin k) (.fin σ0) (.fin σ) (.fin ((2 * n : ℕ) : ℝ)) = Np.fin a ∧
      diluting npIsNan (.fin k) (.fin σ0) (.fin σ') (.fin ((2 * n : ℕ) : ℝ)) = Np.fin a' ∧
      0 < a ∧ a < a' := by
  have d : 1 - σ / σ0 < 0 := sub_neg.mpr ((one_lt_div h0).mpr hσ)
  refine ⟨_, _, diluting_above_nat k σ0 σ _ h0 hσ, diluting_above_nat k σ0 σ' _ h0 (hσ.trans h),
    mul_pos hk ((even_two_mul n).pow_pos d.ne), mul_lt_mul_of_pos_left ?_ hk⟩
  have d1 : 1 - σ' / σ0 < 1 - σ / σ0 := by gcongr
  rw [pow_mul, pow_mul]
  exact pow_lt_pow_left₀ (by nlinarith) (sq_nonneg _) hn

/-- And for an odd exponent it is negative there. -/
theorem C64_above_odd_violated (k σ0 σ : ℝ) (n : ℕ) (hk : 0 < k) (h0 : 0 < σ0) (hσ : σ0 < σ) :
    ∃ a : ℝ, diluting npIsNan (.fin k) (.fin σ0) (.fin σ) (.fin ((2 * n + 1 : ℕ) : ℝ)) = Np.fin a ∧
      a < 0 := by
  have d : 1 - σ / σ0 < 0 := sub_neg.mpr ((one_lt_div h0).mpr hσ)
  exact ⟨_, diluting_above_nat k σ0 σ _ h0 hσ,
    mul_neg_of_pos_of_neg hk ((odd_two_mul_add_one n).pow_neg d)⟩

example : (1 : ℕ) ≠ 0 ∧ (0 : ℝ) < 0.9 ∧ (0 : ℝ) < 40 ∧ (40 : ℝ) < 50 ∧ (50 : ℝ) < 60 := by norm_num

example : ∀ n : ℤ, (2.5 : ℝ) ≠ n := by
  intro n h
  have h2 : (5 : ℝ) = ((2 * n : ℤ) : ℝ) := by push_cast; linarith
  have : (5 : ℤ) = 2 * n := by exact_mod_cast h2
  omega

end RockPhy.Props
