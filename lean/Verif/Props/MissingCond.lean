import Verif.Props.Missing

/-!
# C110: missing values that need a condition, missing samples in logs, and values that replace them
-/

namespace RockPhy.Props

open Spec HasNaN

variable {α : Type} [HasNaN α]

/-! ## Bounds -/

theorem C110_EM_HS_upper (f K1 K2 G1 G2 : α) :
    (G1 = nan → (EM.HS f K1 K2 G1 G2 "upper").1 = nan)
    ∧ (K1 = nan → (EM.HS f K1 K2 G1 G2 "upper").2 = nan)
    ∧ (∀ y, (EM.HS f K1 K2 G1 y "upper").1 = (EM.HS f K1 K2 G1 G2 "upper").1)
    ∧ (∀ y, (EM.HS f K1 y G1 G2 "upper").2 = (EM.HS f K1 K2 G1 G2 "upper").2) := by
  refine ⟨?_, ?_, fun _ => rfl, fun _ => rfl⟩
  · nan_any [EM.HS, if_true]
  · nan_any [EM.HS, if_true]

theorem C110_EM_HS_lower (f K1 K2 G1 G2 : α) {bound : String} (h : bound ≠ "upper") :
    (G2 = nan → (EM.HS f K1 K2 G1 G2 bound).1 = nan)
    ∧ (K2 = nan → (EM.HS f K1 K2 G1 G2 bound).2 = nan)
    ∧ (∀ y, (EM.HS f K1 K2 y G2 bound).1 = (EM.HS f K1 K2 G1 G2 bound).1)
    ∧ (∀ y, (EM.HS f y K2 G1 G2 bound).2 = (EM.HS f K1 K2 G1 G2 bound).2) := by
  simp only [EM.HS, if_neg h]
  refine ⟨?_, ?_, fun _ => trivial, fun _ => trivial⟩
  · nan_any []
  · nan_any []

/-! ## Inclusions: the shear modulus of a spherical inclusion does not enter the bulk factor -/

theorem C110_EM_PQ_spheroid (Km Gm Ki Gi alpha : α) (h : PyNum.eq alpha 1 = false) :
    (Gi = nan → (EM.PQ Km Gm Ki Gi alpha).1 = nan) ∧ (Ki = nan → (EM.PQ Km Gm Ki Gi alpha).2 = nan) := by
  refine ⟨?_, ?_⟩
  · nan_any [EM.PQ, EM.PQ_core, h]
  · nan_any [EM.PQ, EM.PQ_core, h]

theorem C110_EM_PQ_sphere (Km Gm Ki Gi alpha : α) (h : PyNum.eq alpha 1 = true) :
    (∀ y, (EM.PQ Km Gm Ki y alpha).1 = (EM.PQ Km Gm Ki Gi alpha).1)
    ∧ ∀ y, (EM.PQ Km Gm y Gi alpha).2 = (EM.PQ Km Gm Ki Gi alpha).2 := by
  simp only [EM.PQ, h, if_true]
  exact ⟨fun _ => rfl, fun _ => rfl⟩

theorem C110_EM_DEM_spheroid (K_eff G_eff t Gi Ki alpha : α) (h : PyNum.eq alpha 1 = false) :
    (Gi = nan → (EM.DEM K_eff G_eff t Gi Ki alpha).1 = nan)
    ∧ (Ki = nan → (EM.DEM K_eff G_eff t Gi Ki alpha).2 = nan) := by
  refine ⟨?_, ?_⟩
  · nan_any [EM.DEM, EM.PQ, EM.PQ_core, h]
  · nan_any [EM.DEM, EM.PQ, EM.PQ_core, h]

/-! ## Fluids -/

/-- A missing saturation or exponent of `Brie`, unless the power hides it. -/
theorem C110_Fluid_Brie_power (Kw Kgas Sw e : α) :
    (Sw = nan → PyNum.eq e 0 = false → Fluid.Brie Kw Kgas Sw e = nan)
    ∧ (e = nan → PyNum.eq Sw 1 = false → Fluid.Brie Kw Kgas Sw e = nan) := by
  refine ⟨fun h h1 => ?_, fun h h1 => ?_⟩
  · subst h; nan_eval [Fluid.Brie]
  · subst h; nan_eval [Fluid.Brie]

/-- `Brie` returns a number for a missing saturation if the exponent is zero. -/
theorem C110_Fluid_Brie_violated :
    Fluid.Brie (.fin 2) (.fin 1) (nan : Np) (.fin 0) = .fin 2 := by
  have e : PyNum.rpow Np.nan (.fin 0) = .fin 1 := if_pos rfl
  show (Np.fin 2 - .fin 1) * PyNum.rpow Np.nan (.fin 0) + .fin 1 = _
  rw [e, Np.np_sub, Np.np_mul, Np.np_add]
  norm_num

theorem C110_BW_rho_K_go_default (P T den G : α) (h : P = nan) :
    (BW.rho_K_go P T den G none).1 = nan := by
  subst h; nan_eval [BW.rho_K_go]

theorem C110_BW_rho_K_go_given (P T den G r y : α) :
    (BW.rho_K_go y T den G (some r)).1 = (BW.rho_K_go P T den G (some r)).1 := rfl

theorem C110_BW_co2_brine_saturation (temperature pressure salinity Sco2 : α) (bw : Bool)
    (h : Sco2 = nan) :
    (BW.co2_brine temperature pressure salinity Sco2 none bw).2 = nan
    ∧ ∀ e, PyNum.eq e 0 = false →
      (BW.co2_brine temperature pressure salinity Sco2 (some e) bw).2 = nan := by
  subst h
  refine ⟨?_, fun e he => ?_⟩
  · nan_eval [BW.co2_brine]
  · nan_eval [BW.co2_brine, Fluid.Brie]

theorem C110_BW_v_water (T P : α) (h : T = nan ∨ P = nan) : BW.v_water T P = nan := by
  have key : ∀ (l : List α), nan ∈ l → lsum l = nan := by
    intro l hl
    induction l with
    | nil => exact absurd hl (by simp)
    | cons a l ih =>
      rcases List.mem_cons.mp hl with e | e
      · rw [← e]; exact nan_add _
      · show a + lsum l = nan
        rw [ih e, add_nan]
  apply key
  rw [List.mem_flatMap]
  refine ⟨1, by simp, List.mem_map.mpr ⟨1, by simp, ?_⟩⟩
  rcases h with h | h <;> subst h
  · rw [npow_nan _ (by decide), mul_nan, nan_mul]
  · rw [npow_nan _ (by decide), mul_nan]

/-! ## A missing shale modulus -/

theorem C110_QI_matrix_modulus_shale (vsh phi_c phi_0 M_sh M_g M_c : α) (h : M_sh = nan) :
    (PyNum.eq vsh 0 = false → ∀ v, QI.matrix_modulus vsh phi_c phi_0 M_sh M_g M_c = .ok v → v = nan)
    ∧ (PyNum.eq vsh 0 = true → ∀ y, QI.matrix_modulus vsh phi_c phi_0 y M_g M_c
        = QI.matrix_modulus vsh phi_c phi_0 M_sh M_g M_c) := by
  refine ⟨fun e => ?_, fun e y => ?_⟩
  · subst h
    nan_except [QI.matrix_modulus, EM.VRH, e]
  · simp only [QI.matrix_modulus, e, if_true]

/-! ## Logs -/

theorem lsum_nan {l : List α} (h : nan ∈ l) : lsum l = nan := by
  induction l with
  | nil => exact absurd h (by simp)
  | cons a l ih =>
    rcases List.mem_cons.mp h with e | e
    · rw [← e]; exact nan_add _
    · show a + lsum l = nan
      rw [ih e, add_nan]

theorem dot_nan {x y : List α} (h : nan ∈ x ∨ nan ∈ y) : ∀ v, dot x y = .ok v → v = nan := by
  intro v e
  unfold dot at e
  split at e
  · rename_i hl
    rw [ok_eq e]
    apply lsum_nan
    clear e
    induction x generalizing y with
    | nil =>
      cases y with
      | nil => simp at h
      | cons b y => simp at hl
    | cons a x ih =>
      cases y with
      | nil => simp at hl
      | cons b y =>
        rw [List.zipWith_cons_cons, List.mem_cons]
        rcases h with h | h
        · rcases List.mem_cons.mp h with e | e
          · left; rw [← e, nan_mul]
          · right; exact ih (.inl e) (by simpa using hl)
        · rcases List.mem_cons.mp h with e | e
          · left; rw [← e, mul_nan]
          · right; exact ih (.inr e) (by simpa using hl)
  · exact absurd e (by simp)

/-- One missing fraction or modulus makes all three averages missing. -/
theorem C110_EM_VRH (volumes M : List α) (h : nan ∈ volumes ∨ nan ∈ M) :
    ∀ v, EM.VRH volumes M = .ok v → v = (nan, nan, nan) := by
  intro v e
  unfold EM.VRH at e
  cases h1 : dot volumes M with
  | error r => rw [h1] at e; cases e
  | ok a =>
    cases h2 : dot volumes (M.map fun m => 1 / m) with
    | error r => rw [h1] at e; simp only [Bind.bind, Except.bind] at e; rw [h2] at e; cases e
    | ok b =>
      have ha : a = nan := dot_nan h a h1
      have hb : b = nan := by
        refine dot_nan (h.imp id fun hm => ?_) b h2
        exact List.mem_map.mpr ⟨nan, hm, div_nan _⟩
      rw [h1] at e
      simp only [Bind.bind, Except.bind] at e
      rw [h2] at e
      subst ha hb
      rw [ok_eq e]
      simp only [nn]

/-- One missing sample makes the whole normalised log missing. -/
theorem C110_QI_normalize (density : List α) (h : nan ∈ density) :
    QI.normalize density = .ok (density.map fun _ => nan) := by
  have mx : ∀ a b : α, a = nan ∨ b = nan → maximum a b = nan := by
    intro a b h
    revert h
    nan_any [maximum]
  have fold : ∀ (l : List α) (a : α), a = nan ∨ nan ∈ l → l.foldl maximum a = nan := by
    intro l
    induction l with
    | nil => intro a h; simpa using h
    | cons b l ih =>
      intro a h
      rw [List.foldl_cons]
      apply ih
      rcases h with h | h
      · exact .inl (mx _ _ (.inl h))
      · rcases List.mem_cons.mp h with e | e
        · exact .inl (mx _ _ (.inr e.symm))
        · exact .inr e
  cases density with
  | nil => exact absurd h (by simp)
  | cons a l =>
    have e : l.foldl maximum a = nan := fold l a ((List.mem_cons.mp h).imp Eq.symm id)
    simp only [QI.normalize, QI.npmax, Bind.bind, Except.bind, pure, Except.pure, e, nn]

/-- With normalisation (the default), one missing density makes every elastic impedance of the log
missing; a missing P velocity all P impedances, a missing S velocity all S impedances. -/
theorem C110_AVO_EI_ref (Vp Vs rho : List α) (theta SP : α) :
    (nan ∈ rho → ∀ r ∈ AVO.EI_ref Vp Vs rho theta SP true, r = (nan, nan, nan, nan, nan))
    ∧ (nan ∈ Vp → ∀ r ∈ AVO.EI_ref Vp Vs rho theta SP true, r.1 = nan ∧ r.2.1 = nan)
    ∧ (nan ∈ Vs → ∀ r ∈ AVO.EI_ref Vp Vs rho theta SP true,
        r.2.2.1 = nan ∧ r.2.2.2.1 = nan ∧ r.2.2.2.2 = nan) := by
  have m : ∀ l : List α, nan ∈ l → AVO.mean l = nan := by
    intro l h
    rw [AVO.mean, lsum_nan h, nan_div]
  refine ⟨fun h r hr => ?_, fun h r hr => ?_, fun h r hr => ?_⟩ <;>
    simp only [AVO.EI_ref, m _ h, if_true, List.mem_map] at hr <;>
    obtain ⟨⟨a, b, c⟩, _, rfl⟩ := hr <;>
    nan_eval [AVO.EI_ref_entry, and_self]

/-- One sample of `EI_ref` (with or without normalisation): references and S velocity, and the angle and
the velocity ratio unless the (normalised) S velocity is exactly 1. -/
theorem C110_AVO_EI_ref_sample (ipn isn mVp mVs mrho : α) (norm : Bool) (Vp Vs rho theta SP : α) :
    let r := AVO.EI_ref_entry ipn isn mVp mVs mrho norm Vp Vs rho theta SP
    (ipn = nan → r.1 = nan ∧ r.2.1 = nan)
    ∧ (isn = nan ∨ Vs = nan → r.2.2.1 = nan ∧ r.2.2.2.1 = nan ∧ r.2.2.2.2 = nan)
    ∧ (rho = nan → r.2.2.2.2 = nan)
    ∧ (theta = nan ∨ SP = nan → PyNum.eq (if norm then Vs / mVs else Vs) 1 = false →
        r.1 = nan ∧ r.2.1 = nan ∧ r.2.2.1 = nan)
    ∧ (theta = nan ∨ Vp = nan → PyNum.eq (if norm then Vs / mVs else Vs) 1 = false →
        r.2.2.1 = nan ∧ r.2.2.2.1 = nan ∧ r.2.2.2.2 = nan) := by
  refine ⟨?_, ?_, ?_, ?_, ?_⟩
  · rintro rfl; refine ⟨?_, ?_⟩ <;> cases norm <;> nan_eval [AVO.EI_ref_entry]
  · rintro (rfl | rfl) <;> refine ⟨?_, ?_, ?_⟩ <;> cases norm <;> nan_eval [AVO.EI_ref_entry]
  · rintro rfl; cases norm <;> nan_eval [AVO.EI_ref_entry]
  · rintro (rfl | rfl) h <;> refine ⟨?_, ?_, ?_⟩ <;> cases norm <;>
      simp only [reduceIte, Bool.false_eq_true] at h <;>
      nan_eval [AVO.EI_ref_entry, reduceIte, Bool.false_eq_true]
  · rintro (rfl | rfl) h <;> refine ⟨?_, ?_, ?_⟩ <;> cases norm <;>
      simp only [reduceIte, Bool.false_eq_true] at h <;>
      nan_eval [AVO.EI_ref_entry, reduceIte, Bool.false_eq_true]

/-! ## Samples that are dropped or replaced -/

/-- A missing depth is dropped: the velocities no longer line up with the depths. -/
theorem C110_Empirical_yu_segment_trend (l m : List α) :
    Empirical.yu_segment_trend (l ++ nan :: m) = Empirical.yu_segment_trend (l ++ m) := by
  simp [Empirical.yu_segment_trend, nan_le, lt_nan]

theorem C110_Empirical_Japsen (l m : List α) :
    Empirical.Japsen (l ++ nan :: m) = Empirical.Japsen (l ++ m) := by
  simp [Empirical.Japsen, nan_lt, le_nan]

/-- A missing stress, crushing stress or scale gives the number zero. -/
theorem C110_GM_diluting (isnan : α → Bool) (hn : isnan nan = true) (k sigma0 sigma m : α)
    (hm : PyNum.eq m 0 = false) (h : k = nan ∨ sigma0 = nan ∨ sigma = nan) :
    GM.diluting isnan k sigma0 sigma m = 0 := by
  revert h
  nan_any [GM.diluting, hn, if_true]

/-- The screening curve of contact cement is not cut off if the cement porosity is missing: it is the
curve for any cement porosity that does not exceed the porosity. -/
theorem C110_QI_screening_uncut (Dqz Kqz Gqz Dsh Ksh Gsh Dc Kc Gc Db Kb phib_p phi_c sigma vsh : α)
    (scheme : Int) (f Cn phi : α) (h : PyNum.lt phi phib_p = false) :
    (QI.screening_entry Dqz Kqz Gqz Dsh Ksh Gsh Dc Kc Gc Db Kb nan phi_c sigma vsh scheme f Cn
        phi).map (fun r => (r.2.2.1, r.2.2.2.2.2))
      = (QI.screening_entry Dqz Kqz Gqz Dsh Ksh Gsh Dc Kc Gc Db Kb phib_p phi_c sigma vsh scheme f Cn
        phi).map (fun r => (r.2.2.1, r.2.2.2.2.2)) := by
  unfold QI.screening_entry
  cases EM.VRH [vsh, 1 - vsh] [Ksh, Kqz] <;> cases EM.VRH [vsh, 1 - vsh] [Gsh, Gqz] <;>
    cases QI.matrix_modulus vsh phi_c phi Ksh Kqz Kc <;>
    cases QI.den_matrix vsh phi_c phi Dsh Dqz Dc <;>
    simp only [Bind.bind, Except.bind, pure, Except.pure, Except.map, lt_nan, h]

/-! ## Non-vacuity -/

/-- The rules are consistent: reals with infinities obey them. -/
example : Nonempty (HasNaN Np) := ⟨inferInstance⟩

/-- Without a missing value the result is a number. -/
example : Fluid.Brie (.fin 2) (.fin 1) (.fin 1) (.fin 1 : Np) ≠ nan := by
  have e : PyNum.rpow (Np.fin 1) (.fin 1) = .fin ((1 : ℝ) ^ (1 : ℝ)) := if_pos (.inl one_pos)
  show (Np.fin 2 - .fin 1) * PyNum.rpow (Np.fin 1) (.fin 1) + .fin 1 ≠ Np.nan
  rw [e, Np.np_sub, Np.np_mul, Np.np_add]
  exact fun h => nomatch h

/-- A log of three samples, the second missing. -/
example : Empirical.yu_segment_trend [Np.fin 1000, nan, .fin 3000]
    = Empirical.yu_segment_trend [Np.fin 1000, .fin 3000] :=
  C110_Empirical_yu_segment_trend [Np.fin 1000] [Np.fin 3000]

end RockPhy.Props
