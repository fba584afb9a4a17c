import Verif.Lemmas.Continuity
import Verif.Model.EM
import Verif.Model.GM
import Verif.Model.QI
import Verif.Model.AVO
import Verif.Model.Anisotropy
import Verif.Model.BW
import Verif.Model.Fluid
import Verif.Model.Emp
import Verif.Model.Perm
import Verif.Lemmas.Utils
import Verif.Lemmas.GM

/-!
# C109: results vary continuously with the inputs

`IsContinuous f` (`Verif/Spec/Continuity.lean`): when the arguments of `f` depend continuously on a
parameter from any topological space, so does the result, at every value of the parameter at which
the result is defined.  Functions that need a condition, and functions that jump, are in
`Verif/Props/ContinuityCond.lean`.
-/

namespace RockPhy.Props

open Spec Spec.Vary Fl

/-! ## `utils` -/

theorem C109_utils_V : IsContinuous (utils.V (α := Fl)) := by
  vary_def utils.V []

theorem C109_utils_poi : IsContinuous (utils.poi (α := Fl)) := by
  vary_def utils.poi []

theorem C109_utils_lame : IsContinuous (utils.lame (α := Fl)) := by
  vary_def utils.lame []

theorem C109_utils_M_from_V : IsContinuous (utils.M_from_V (α := Fl)) := by
  vary_def utils.M_from_V []

theorem C109_utils_write_HTI_matrix : IsContinuous (utils.write_HTI_matrix (α := Fl)) := by
  vary_def utils.write_HTI_matrix []

theorem C109_utils_write_VTI_compliance : IsContinuous (utils.write_VTI_compliance (α := Fl)) := by
  vary_def utils.write_VTI_compliance []

theorem C109_utils_write_VTI_matrix : IsContinuous (utils.write_VTI_matrix (α := Fl)) := by
  vary_def utils.write_VTI_matrix []

theorem C109_utils_write_matrix : IsContinuous (utils.write_matrix (α := Fl)) := by
  vary_def utils.write_matrix []

theorem C109_utils_write_iso : IsContinuous (utils.write_iso (α := Fl)) := by
  vary_def utils.write_iso []

theorem C109_utils_crack_por : IsContinuous (utils.crack_por (α := Fl)) := by
  vary_def utils.crack_por []

theorem C109_utils_v_to_c_VTI : IsContinuous (utils.v_to_c_VTI (α := Fl)) := by
  vary_def utils.v_to_c_VTI [C109_utils_write_VTI_matrix]


/-! ## `EM` -/

theorem C109_EM_VRH : IsContinuous (EM.VRH (α := Fl)) := by
  vary_def EM.VRH []

theorem C109_EM_cripor : IsContinuous (EM.cripor (α := Fl)) := by
  vary_def EM.cripor []

theorem C109_EM_cripor_reuss : IsContinuous (EM.cripor_reuss (α := Fl)) := by
  vary_def EM.cripor_reuss [C109_EM_VRH]

theorem C109_EM_HS : IsContinuous (EM.HS (α := Fl)) := by
  vary_def EM.HS []

theorem cont_EM_Eshelby_Cheng_consts : IsContinuous (EM.Eshelby_Cheng_consts (α := Fl)) := by
  intro X _
  vary_intro
  unfold EM.Eshelby_Cheng_consts EM.Eshelby_Cheng_moduli EM.Eshelby_Cheng_S
  dsimp only
  vary []

theorem C109_EM_Eshelby_Cheng : IsContinuous (EM.Eshelby_Cheng (α := Fl)) := by
  vary_def EM.Eshelby_Cheng [C109_utils_write_VTI_matrix, cont_EM_Eshelby_Cheng_consts]

theorem cont_EM_hudson_kapa : IsContinuous (EM.hudson_kapa (α := Fl)) := by
  vary_def EM.hudson_kapa []

theorem cont_EM_hudson_M : IsContinuous (EM.hudson_M (α := Fl)) := by
  vary_def EM.hudson_M []

theorem cont_EM_hudson_U1 : IsContinuous (EM.hudson_U1 (α := Fl)) := by
  vary_def EM.hudson_U1 [cont_EM_hudson_M]

theorem cont_EM_hudson_U3 : IsContinuous (EM.hudson_U3 (α := Fl)) := by
  vary_def EM.hudson_U3 [cont_EM_hudson_kapa]

theorem cont_EM_hudson_consts : IsContinuous (EM.hudson_consts (α := Fl)) := by
  vary_def EM.hudson_consts [cont_EM_hudson_U1, cont_EM_hudson_U3]

theorem cont_EM_hudson_matrix : IsContinuous (EM.hudson_matrix (α := Fl)) := by
  intro X _ c hc
  refine elim_int ?_
  intro axis
  change Varies fun x => if axis = 3 then
      (Except.ok (utils.write_VTI_matrix (c x).1 (c x).2.2.1 (c x).2.1 (c x).2.2.2.1 (c x).2.2.2.2)
        : Except PyErr (Mat6 Fl))
    else if axis = 1 then
      .ok (utils.write_HTI_matrix (c x).2.2.1 (c x).1 (c x).2.1 (c x).2.2.2.2 (c x).2.2.2.1)
    else .error .UnboundLocalError
  vary [C109_utils_write_HTI_matrix, C109_utils_write_VTI_matrix]

theorem C109_EM_hudson : IsContinuous (EM.hudson (α := Fl)) := by
  vary_def EM.hudson [cont_EM_hudson_consts, cont_EM_hudson_matrix]

theorem C109_EM_hudson_rand : IsContinuous (EM.hudson_rand (α := Fl)) := by
  vary_def EM.hudson_rand [cont_EM_hudson_U1, cont_EM_hudson_U3]

theorem C109_EM_hudson_ortho : IsContinuous (EM.hudson_ortho (α := Fl)) := by
  vary_def EM.hudson_ortho [C109_utils_write_matrix, cont_EM_hudson_U1, cont_EM_hudson_U3]

theorem C109_EM_hudson_cone : IsContinuous (EM.hudson_cone (α := Fl)) := by
  vary_def EM.hudson_cone [C109_utils_write_matrix, cont_EM_hudson_U1, cont_EM_hudson_U3]

theorem cont_EM_PQ_core : IsContinuous (EM.PQ_core (α := Fl)) := by
  vary_def EM.PQ_core []

theorem cont_EM_PQ_sphere : IsContinuous (EM.PQ_sphere (α := Fl)) := by
  vary_def EM.PQ_sphere []

theorem cont_EM_mean : IsContinuous (EM.mean (α := Fl)) := by
  vary_def EM.mean []

theorem C109_EM_Swiss_cheese : IsContinuous (EM.Swiss_cheese (α := Fl)) := by
  vary_def EM.Swiss_cheese []

theorem cont_EM_SC_step : IsContinuous (EM.SC_step (α := Fl)) := by
  vary_def EM.SC_step []

theorem C109_EM_SC : IsContinuous (EM.SC (α := Fl)) := by
  intro X _ phi hphi Ks hKs Gs hGs
  refine elim_nat ?_
  intro n
  induction n with
  | zero => exact pair hKs hGs
  | succ n ih => exact cont_EM_SC_step X _ hphi _ hKs _ hGs _ ih

theorem C109_EM_Dilute_crack : IsContinuous (EM.Dilute_crack (α := Fl)) := by
  vary_def EM.Dilute_crack []

theorem C109_EM_OConnell_Budiansky : IsContinuous (EM.OConnell_Budiansky (α := Fl)) := by
  vary_def EM.OConnell_Budiansky []

theorem C109_EM_OC_R_funcs : IsContinuous (EM.OC_R_funcs (α := Fl)) := by
  vary_def EM.OC_R_funcs []

theorem C109_EM_SC_dilute : IsContinuous (EM.SC_dilute (α := Fl)) := by
  vary_def EM.SC_dilute []

theorem cont_EM_SC_flex_step : IsContinuous (EM.SC_flex_step (α := Fl)) := by
  vary_def EM.SC_flex_step []

theorem C109_EM_SC_flex : IsContinuous (EM.SC_flex (α := Fl)) := by
  intro X _ f hf
  refine elim_nat ?_
  intro n Km hKm Ki hKi Gm hGm Gi hGi
  induction n with
  | zero => exact pair hKm hKm
  | succ n ih => exact cont_EM_SC_flex_step X _ hf _ hKm _ hKi _ hGm _ hGi _ ih

theorem C109_EM_MT_average : IsContinuous (EM.MT_average (α := Fl)) := by
  vary_def EM.MT_average []


/-! ## `GM` -/

theorem cont_maximum : IsContinuous (maximum (α := Fl)) := by
  intro X _ A hA B hB
  refine lift2 (op := maximum) Set.univ (fun p => max p.1 p.2) (fun _ => ?_) (fun a => ?_)
    (fun a b _ => ?_) (fun _ _ h => absurd trivial h)
    (fun _ ⟨_, _, _, _, _, h⟩ => h (by fun_prop)) hA hB
  · rename_i b; cases b <;> rfl
  · cases a <;> rfl
  · unfold maximum
    simp only [fl]
    rcases le_or_gt a b with h | h
    · rw [if_pos h, max_eq_right h]
    · rw [if_neg (not_le.mpr h), if_pos h, max_eq_left h.le]

theorem cont_minimum : IsContinuous (minimum (α := Fl)) := by
  intro X _ A hA B hB
  refine lift2 (op := minimum) Set.univ (fun p => min p.1 p.2) (fun _ => ?_) (fun a => ?_)
    (fun a b _ => ?_) (fun _ _ h => absurd trivial h)
    (fun _ ⟨_, _, _, _, _, h⟩ => h (by fun_prop)) hA hB
  · rename_i b; cases b <;> rfl
  · cases a <;> rfl
  · unfold minimum
    simp only [fl]
    rcases le_or_gt a b with h | h
    · rw [if_pos h, min_eq_left h]
    · rw [if_neg (not_le.mpr h), if_pos h, min_eq_right h.le]

theorem C109_GM_ThomasStieber : IsContinuous (GM.ThomasStieber (α := Fl)) := by
  vary_def GM.ThomasStieber [cont_maximum]

theorem C109_GM_silty_shale : IsContinuous (GM.silty_shale (α := Fl)) := by
  vary_def GM.silty_shale []

theorem C109_GM_shaly_sand : IsContinuous (GM.shaly_sand (α := Fl)) := by
  vary_def GM.shaly_sand []

theorem quotient_ne_zero {a : Fl} (h : a ≠ fin 0) (b : Fl) : a / b ≠ fin 0 := by
  intro e
  cases a with
  | bad => exact bad_ne_fin e
  | fin a =>
    cases b with
    | bad => rw [fl_div_bad] at e; exact bad_ne_fin e
    | fin b =>
      by_cases hb : b = 0
      · rw [hb, fl_div_zero] at e; exact bad_ne_fin e
      · rw [fl_div hb, fin_inj] at e
        exact h (congrArg fin ((div_eq_zero_iff.mp e).resolve_right hb))

theorem no_cement_power (a b c : Fl) {e : ℝ} (he : e < 0) : (2 * fin 0 * a * b / c) **. fin e = bad := by
  have z : fin 0 **. fin e = bad := by
    refine if_neg ?_
    rintro (h | h | h)
    · exact lt_irrefl _ h
    · linarith [h.2]
    · exact lt_irrefl _ h.1
  cases a with
  | bad => simp only [fl]
  | fin a =>
    cases b with
    | bad => simp only [fl]
    | fin b =>
      cases c with
      | bad => simp only [fl]
      | fin c =>
        by_cases hc : c = 0
        · simp only [hc, fl, fl_div_zero]
        · simp only [fl, mul_zero, zero_mul]
          rw [fl_div hc, zero_div, z]

/-- Cement without stiffness: the powers of the stiffness ratio are undefined. -/
theorem contactcement_no_cement (K0 G0 Kc phi phic Cn : Fl) (scheme : Int) :
    GM.contactcement K0 G0 Kc (fin 0) phi phic Cn scheme = (bad, bad) := by
  have l : ∀ a b c : Fl, (2 * fin 0 * a * b / c) **. (-1.9864) = bad := fun a b c => by
    have := no_cement_power a b c (e := -1.9864) (by norm_num)
    rwa [show (fin (-1.9864) : Fl) = -1.9864 from by simp only [fl]] at this
  unfold GM.contactcement
  dsimp only
  simp only [l, fl_mul_bad, fl_add_bad, fl_bad_add]

theorem C109_GM_contactcement : IsContinuous (GM.contactcement (α := Fl)) := by
  intro X _ K0 hK0 G0 hG0 Kc hKc Gc hGc phi hphi phic hphic Cn hCn
  refine elim_int ?_
  intro scheme
  have key : ∀ (Y : Type) [TopologicalSpace Y] (K0 G0 Kc Gc phi phic Cn : Y → Fl), Varies K0 →
      Varies G0 → Varies Kc → Varies Gc → Varies phi → Varies phic → Varies Cn →
      (∀ y, Gc y ≠ fin 0) → Varies fun y =>
        GM.contactcement (K0 y) (G0 y) (Kc y) (Gc y) (phi y) (phic y) (Cn y) scheme := by
    intro Y _ K0 G0 Kc Gc phi phic Cn _ _ _ _ _ _ _ h
    unfold GM.contactcement
    dsimp only
    vary []
    all_goals
      rename_i y hy
      exact absurd hy (quotient_ne_zero (h y) _)
  have c1 := key {x // Gc x ≠ fin 0} (fun x => K0 x.1) (fun x => G0 x.1) (fun x => Kc x.1)
    (fun x => Gc x.1) (fun x => phi x.1) (fun x => phic x.1) (fun x => Cn x.1)
    (comp continuous_subtype_val hK0) (comp continuous_subtype_val hG0)
    (comp continuous_subtype_val hKc) (comp continuous_subtype_val hGc)
    (comp continuous_subtype_val hphi) (comp continuous_subtype_val hphic)
    (comp continuous_subtype_val hCn) (fun y => y.2)
  exact ⟨restrict (fun x => Gc x ≠ fin 0) (fun x hx => by
      beta_reduce; rw [not_not.mp hx, contactcement_no_cement]) c1.1,
    restrict (fun x => Gc x ≠ fin 0) (fun x hx => by
      beta_reduce; rw [not_not.mp hx, contactcement_no_cement]) c1.2⟩

theorem C109_GM_hertzmindlin : IsContinuous (GM.hertzmindlin (α := Fl)) := by
  vary_def GM.hertzmindlin []

theorem C109_GM_softsand : IsContinuous (GM.softsand (α := Fl)) := by
  vary_def GM.softsand [C109_GM_hertzmindlin]

theorem C109_GM_Walton : IsContinuous (GM.Walton (α := Fl)) := by
  vary_def GM.Walton []

theorem C109_GM_johnson : IsContinuous (GM.johnson (α := Fl)) := by
  vary_def GM.johnson [C109_utils_poi, C109_utils_write_VTI_matrix]

theorem C109_GM_stiffsand : IsContinuous (GM.stiffsand (α := Fl)) := by
  vary_def GM.stiffsand [C109_GM_hertzmindlin]

theorem C109_GM_constantcement : IsContinuous (GM.constantcement (α := Fl)) := by
  vary_def GM.constantcement [C109_GM_contactcement]

theorem C109_GM_MUHS : IsContinuous (GM.MUHS (α := Fl)) := by
  vary_def GM.MUHS [C109_GM_contactcement]

theorem cont_GM_patchyStiff : IsContinuous (GM.patchyStiff (α := Fl)) := by
  vary_def GM.patchyStiff []

theorem cont_GM_patchySoft : IsContinuous (GM.patchySoft (α := Fl)) := by
  vary_def GM.patchySoft []

theorem cont_GM_patchyHS : IsContinuous (GM.patchyHS (α := Fl)) := by
  vary_def GM.patchyHS []

/-! ## `Fluid` -/

theorem C109_Fluid_Biot_HF : IsContinuous (Fluid.Biot_HF (α := Fl)) := by
  vary_def Fluid.Biot_HF []

theorem C109_Fluid_Geertsma_Smit_HF : IsContinuous (Fluid.Geertsma_Smit_HF (α := Fl)) := by
  vary_def Fluid.Geertsma_Smit_HF []

theorem C109_Fluid_Geertsma_Smit_LF : IsContinuous (Fluid.Geertsma_Smit_LF (α := Fl)) := by
  vary_def Fluid.Geertsma_Smit_LF []

theorem C109_Fluid_Gassmann : IsContinuous (Fluid.Gassmann (α := Fl)) := by
  vary_def Fluid.Gassmann []

theorem C109_Fluid_Gassmann_sub : IsContinuous (Fluid.Gassmann_sub (α := Fl)) := by
  vary_def Fluid.Gassmann_sub []

theorem C109_Fluid_vels : IsContinuous (Fluid.vels (α := Fl)) := by
  vary_def Fluid.vels [C109_Fluid_Gassmann]

theorem C109_Fluid_Gassmann_vels : IsContinuous (Fluid.Gassmann_vels (α := Fl)) := by
  vary_def Fluid.Gassmann_vels [C109_Fluid_Gassmann_sub]

theorem C109_Fluid_Gassmann_approx : IsContinuous (Fluid.Gassmann_approx (α := Fl)) := by
  vary_def Fluid.Gassmann_approx []

theorem cont_Fluid_rows3 : IsContinuous (Fluid.rows3 (α := Fl)) := by
  vary_def Fluid.rows3 []

theorem C109_Fluid_Mavko_Jizba : IsContinuous (Fluid.Mavko_Jizba (α := Fl)) := by
  vary_def Fluid.Mavko_Jizba [C109_utils_V, C109_utils_M_from_V, C109_Fluid_Gassmann]

theorem C109_Fluid_Squirt_anisotropic : IsContinuous (Fluid.Squirt_anisotropic (α := Fl)) := by
  vary_def Fluid.Squirt_anisotropic []


/-! ## `Anisotropy` -/

theorem C109_Anisotropy_Thomsen : IsContinuous (Anisotropy.Thomsen (α := Fl)) := by
  vary_def Anisotropy.Thomsen []

theorem C109_Anisotropy_Thomsen_Tsvankin : IsContinuous (Anisotropy.Thomsen_Tsvankin (α := Fl)) := by
  vary_def Anisotropy.Thomsen_Tsvankin []

theorem C109_Anisotropy_Backus : IsContinuous (Anisotropy.Backus (α := Fl)) := by
  vary_def Anisotropy.Backus []

theorem cont_Anisotropy_diff : IsContinuous (Anisotropy.diff (α := Fl)) := by
  vary_def Anisotropy.diff []

theorem C109_Anisotropy_Backus_log : IsContinuous (Anisotropy.Backus_log (α := Fl)) := by
  vary_def Anisotropy.Backus_log [C109_Anisotropy_Backus, cont_Anisotropy_diff]
  rename_i A hA
  change Varies fun x => dot _ _ >>= fun den =>
    (pure ((A x).1, (A x).2.1, (A x).2.2.1, (A x).2.2.2.1, (A x).2.2.2.2, den) : Except PyErr _)
  vary []

theorem C109_Anisotropy_vel_azi_HTI : IsContinuous (Anisotropy.vel_azi_HTI (α := Fl)) := by
  vary_def Anisotropy.vel_azi_HTI []

theorem C109_Anisotropy_vel_azi_VTI : IsContinuous (Anisotropy.vel_azi_VTI (α := Fl)) := by
  vary_def Anisotropy.vel_azi_VTI []

theorem cont_Anisotropy_bondMatrix : IsContinuous (Anisotropy.bondMatrix (α := Fl)) := by
  vary_def Anisotropy.bondMatrix []

theorem C109_Anisotropy_Bond_trans : IsContinuous (Anisotropy.Bond_trans (α := Fl)) := by
  vary_def Anisotropy.Bond_trans [cont_Anisotropy_bondMatrix]


/-! ## `AVO` -/

theorem cont_AVO_AVO_HTI_entry : IsContinuous (AVO.AVO_HTI_entry (α := Fl)) := by
  vary_def AVO.AVO_HTI_entry []

theorem C109_AVO_AVO_HTI : IsContinuous (AVO.AVO_HTI (α := Fl)) := by
  vary_def AVO.AVO_HTI [cont_AVO_AVO_HTI_entry]

theorem C109_AVO_Aki_Richards : IsContinuous (AVO.Aki_Richards (α := Fl)) := by
  vary_def AVO.Aki_Richards []

theorem C109_AVO_zoeppritz : IsContinuous (AVO.zoeppritz (α := Fl)) := by
  vary_def AVO.zoeppritz []

theorem C109_AVO_AVO_abe : IsContinuous (AVO.AVO_abe (α := Fl)) := by
  vary_def AVO.AVO_abe []

theorem cont_AVO_mean : IsContinuous (AVO.mean (α := Fl)) := by
  vary_def AVO.mean []

theorem C109_AVO_AVO_ortho : IsContinuous (AVO.AVO_ortho (α := Fl)) := by
  vary_def AVO.AVO_ortho []


/-! ## `BW` -/

theorem C109_BW_dz_dp : IsContinuous (BW.dz_dp (α := Fl)) := by
  vary_def BW.dz_dp []

theorem C109_BW_pseudo_p_t : IsContinuous (BW.pseudo_p_t (α := Fl)) := by
  vary_def BW.pseudo_p_t []

theorem cont_BW_rho_K_reduced : IsContinuous (BW.rho_K_reduced (α := Fl)) := by
  vary_def BW.rho_K_reduced [C109_BW_dz_dp]

theorem C109_BW_rho_K_co2 : IsContinuous (BW.rho_K_co2 (α := Fl)) := by
  vary_def BW.rho_K_co2 [cont_BW_rho_K_reduced]

theorem C109_BW_rho_K_gas : IsContinuous (BW.rho_K_gas (α := Fl)) := by
  vary_def BW.rho_K_gas [C109_BW_pseudo_p_t, cont_BW_rho_K_reduced]

theorem C109_BW_rho_K_oil : IsContinuous (BW.rho_K_oil (α := Fl)) := by
  vary_def BW.rho_K_oil []

theorem C109_BW_rho_K_go : IsContinuous (BW.rho_K_go (α := Fl)) := by
  intro X _ P hP T hT den hden G hG
  refine elim_option ?_ ?_
  · unfold BW.rho_K_go
    dsimp only
    vary []
  · intro R hR
    unfold BW.rho_K_go
    dsimp only
    vary []

theorem C109_BW_v_water : IsContinuous (BW.v_water (α := Fl)) := by
  intro X _ T hT P hP
  unfold BW.v_water
  refine lsum' (flatMap_fin _ fun i => map_fin _ fun j => ?_)
  vary []

theorem C109_BW_rho_K_water : IsContinuous (BW.rho_K_water (α := Fl)) := by
  vary_def BW.rho_K_water [C109_BW_v_water]

theorem C109_BW_v_brine : IsContinuous (BW.v_brine (α := Fl)) := by
  vary_def BW.v_brine [C109_BW_v_water]

theorem C109_BW_rho_K_brine : IsContinuous (BW.rho_K_brine (α := Fl)) := by
  vary_def BW.rho_K_brine [C109_BW_rho_K_water, C109_BW_v_brine]

/-! ## `Empirical` -/

theorem C109_Empirical_krief : IsContinuous (Empirical.krief (α := Fl)) := by
  vary_def Empirical.krief []
  rename_i x h
  rw [h]
  exact fun e => bad_ne_fin ((fl_div_zero _).symm.trans e)

theorem C109_Empirical_esti_VS : IsContinuous (Empirical.esti_VS (α := Fl)) := by
  vary_def Empirical.esti_VS []

theorem C109_Empirical_han : IsContinuous (Empirical.han (α := Fl)) := by
  vary_def Empirical.han []

theorem C109_Empirical_ehrenberg : IsContinuous (Empirical.ehrenberg (α := Fl)) := by
  vary_def Empirical.ehrenberg []

theorem C109_Empirical_ramm_porosity : IsContinuous (Empirical.ramm_porosity (α := Fl)) := by
  vary_def Empirical.ramm_porosity []

theorem setMask_select (l : List Fl) (f g : Fl → Fl) :
    Empirical.setMask (l.map f) (List.zipWith (fun x y => PyNum.lt y x) (l.map f) (l.map g))
      (Empirical.getMask (l.map g) (List.zipWith (fun x y => PyNum.lt y x) (l.map f) (l.map g)))
    = .ok (l.map fun z => if PyNum.lt (g z) (f z) then g z else f z) := by
  induction l with
  | nil => rfl
  | cons a l ih =>
    simp only [List.map_cons, List.zipWith_cons_cons]
    cases h : PyNum.lt (g a) (f a)
    · simp only [Empirical.getMask, Empirical.setMask, ih]; rfl
    · simp only [Empirical.getMask, Empirical.setMask, ih]; rfl

theorem C109_Empirical_ramm_porosity_segment :
    IsContinuous (Empirical.ramm_porosity_segment (α := Fl)) := by
  intro X _ Z hZ
  unfold Empirical.ramm_porosity_segment
  simp only [setMask_select]
  refine ok (map_mem hZ fun G _ hG => ?_)
  refine lift1 (op := fun z => if PyNum.lt (25 - 0.013 * (z - 2500)) (45 * exp (-0.00025 * z)) then
      25 - 0.013 * (z - 2500) else 45 * exp (-0.00025 * z)) Set.univ
    (fun z => min (25 - 0.013 * (z - 2500)) (45 * Real.exp (-0.00025 * z))) ?_ (fun a _ => ?_)
    (fun _ h => absurd trivial h) (by fun_prop) hG
  · simp only [fl]; rfl
  · simp only [fl]
    rcases lt_or_ge (25 - 0.013 * (a - 2500)) (45 * Real.exp (-0.00025 * a)) with h | h
    · rw [if_pos h, min_eq_left h.le]
    · rw [if_neg (not_lt.mpr h), min_eq_right h]

theorem C109_Empirical_empirical_StPeter : IsContinuous (Empirical.empirical_StPeter (α := Fl)) := by
  vary_def Empirical.empirical_StPeter []

theorem C109_Empirical_Scherbaum : IsContinuous (Empirical.Scherbaum (α := Fl)) := by
  vary_def Empirical.Scherbaum []

theorem C109_Empirical_Sclater : IsContinuous (Empirical.Sclater (α := Fl)) := by
  vary_def Empirical.Sclater []

theorem C109_Empirical_Storvoll : IsContinuous (Empirical.Storvoll (α := Fl)) := by
  vary_def Empirical.Storvoll []

theorem C109_Empirical_Hillis : IsContinuous (Empirical.Hillis (α := Fl)) := by
  vary_def Empirical.Hillis []

theorem C109_Empirical_hjelstuen : IsContinuous (Empirical.hjelstuen (α := Fl)) := by
  vary_def Empirical.hjelstuen []

theorem C109_Empirical_Cp : IsContinuous (Empirical.Cp (α := Fl)) := by
  vary_def Empirical.Cp []


/-! ## `Permeability` -/

theorem C109_Permeability_Kozeny_Carman : IsContinuous (Permeability.Kozeny_Carman (α := Fl)) := by
  vary_def Permeability.Kozeny_Carman []

theorem C109_Permeability_Kozeny_Carman_Percolation : IsContinuous (Permeability.Kozeny_Carman_Percolation (α := Fl)) := by
  vary_def Permeability.Kozeny_Carman_Percolation []

theorem C109_Permeability_Owolabi : IsContinuous (Permeability.Owolabi (α := Fl)) := by
  vary_def Permeability.Owolabi []

theorem C109_Permeability_Perm_logs : IsContinuous (Permeability.Perm_logs (α := Fl)) := by
  vary_def Permeability.Perm_logs []

theorem C109_Permeability_Panda_Lake : IsContinuous (Permeability.Panda_Lake (α := Fl)) := by
  vary_def Permeability.Panda_Lake []

theorem C109_Permeability_Panda_Lake_cem : IsContinuous (Permeability.Panda_Lake_cem (α := Fl)) := by
  vary_def Permeability.Panda_Lake_cem []

theorem C109_Permeability_Revil : IsContinuous (Permeability.Revil (α := Fl)) := by
  vary_def Permeability.Revil []

theorem C109_Permeability_Fredrich : IsContinuous (Permeability.Fredrich (α := Fl)) := by
  vary_def Permeability.Fredrich []

theorem C109_Permeability_Bloch : IsContinuous (Permeability.Bloch (α := Fl)) := by
  vary_def Permeability.Bloch []
  simp only [fl]; norm_num

theorem C109_Permeability_Bernabe : IsContinuous (Permeability.Bernabe (α := Fl)) := by
  vary_def Permeability.Bernabe []


/-! ## `QI` -/

theorem C109_QI_den_matrix : IsContinuous (QI.den_matrix (α := Fl)) := by
  vary_def QI.den_matrix [C109_EM_VRH]

theorem cont_QI_linspace : IsContinuous (QI.linspace (α := Fl)) := by
  intro X _ a ha b hb
  refine elim_nat ?_
  intro n
  unfold QI.linspace
  refine map_fin _ fun i => ?_
  vary []

theorem cont_QI_npmax : IsContinuous (QI.npmax (α := Fl)) := by
  intro X _ L hL
  obtain ⟨Gs, h1, h2⟩ := hL
  simp only [h2]
  match Gs with
  | [] => exact err _
  | G :: Gs =>
    refine ok ?_
    have : ∀ (Gs : List (X → Fl)) (G : X → Fl), Varies G → (∀ H ∈ Gs, Varies H) →
        Varies fun x => (Gs.map (· x)).foldl maximum (G x) := by
      intro Gs
      induction Gs with
      | nil => exact fun G hG _ => hG
      | cons H Gs ih =>
        exact fun G hG hs => ih (fun x => maximum (G x) (H x)) (cont_maximum X _ hG _ (hs H (by simp)))
          fun K hK => hs K (by simp [hK])
    exact this Gs G (h1 G (by simp)) fun H hH => h1 H (by simp [hH])

theorem cont_QI_npmin : IsContinuous (QI.npmin (α := Fl)) := by
  intro X _ L hL
  obtain ⟨Gs, h1, h2⟩ := hL
  simp only [h2]
  match Gs with
  | [] => exact err _
  | G :: Gs =>
    refine ok ?_
    have : ∀ (Gs : List (X → Fl)) (G : X → Fl), Varies G → (∀ H ∈ Gs, Varies H) →
        Varies fun x => (Gs.map (· x)).foldl minimum (G x) := by
      intro Gs
      induction Gs with
      | nil => exact fun G hG _ => hG
      | cons H Gs ih =>
        exact fun G hG hs => ih (fun x => minimum (G x) (H x)) (cont_minimum X _ hG _ (hs H (by simp)))
          fun K hK => hs K (by simp [hK])
    exact this Gs G (h1 G (by simp)) fun H hH => h1 H (by simp [hH])

theorem C109_QI_normalize : IsContinuous (QI.normalize (α := Fl)) := by
  vary_def QI.normalize [cont_QI_npmax]

theorem npnan_bad : (QI.npnan : Fl) = bad := by
  unfold QI.npnan; rw [fl_zero]; exact fl_div_zero _

theorem C109_QI_cst_vels : IsContinuous (QI.cst_vels (α := Fl)) := by
  vary_def QI.cst_vels [C109_GM_constantcement, C109_Fluid_vels, C109_QI_den_matrix]
  all_goals exact cut npnan_bad (by vary [])

theorem C109_QI_cal_v_const : IsContinuous (QI.cal_v_const (α := Fl)) := by
  vary_def QI.cal_v_const [C109_EM_VRH, C109_GM_constantcement, C109_Fluid_vels, C109_Empirical_Cp]

theorem cont_QI_rpt_entry : IsContinuous (QI.rpt_entry (α := Fl)) := by
  vary_def QI.rpt_entry [C109_Fluid_vels]

/-! ## What this says in terms of real functions -/

/-- If the result, at parameters in `D`, is the real number `g x`, then `g` is continuous on `D`. -/
theorem C109_real_continuousOn {X : Type} [TopologicalSpace X] {F : X → Fl} (h : Varies F) {g : X → ℝ}
    {D : Set X} (e : ∀ x ∈ D, F x = fin (g x)) : ContinuousOn g D := by
  intro x hx
  rw [ContinuousWithinAt, Metric.tendsto_nhds]
  intro ε hε
  filter_upwards [(h x _ (e x hx) ε hε).filter_mono nhdsWithin_le_nhds, self_mem_nhdsWithin] with y hy hD
  exact hy _ (e y hD)

/-- Inputs that converge, with results that are defined, have results that converge. -/
theorem C109_limit {X : Type} [TopologicalSpace X] {F : X → Fl} (h : Varies F) {u : ℕ → X} {x : X}
    {g : X → ℝ} (hu : Filter.Tendsto u Filter.atTop (nhds x)) (e : ∀ n, F (u n) = fin (g (u n)))
    (ex : F x = fin (g x)) : Filter.Tendsto (fun n => g (u n)) Filter.atTop (nhds (g x)) := by
  rw [Metric.tendsto_nhds]
  intro ε hε
  filter_upwards [hu.eventually (h x _ ex ε hε)] with n hn
  exact hn _ (e n)

/-- The Hertz-Mindlin moduli as functions of all six arguments. -/
example : ContinuousOn (fun q : ℝ × ℝ × ℝ × ℝ × ℝ × ℝ =>
      GM.hmK q.1 q.2.1 q.2.2.1 q.2.2.2.1 q.2.2.2.2.1) {q | 0 < q.1 ∧ 0 < q.2.1 ∧ 0 ≤ q.2.2.2.2.1} := by
  have c : ∀ g : ℝ × ℝ × ℝ × ℝ × ℝ × ℝ → ℝ, Continuous g → Varies fun q => fin (g q) :=
    fun g hg => of_continuous hg
  refine C109_real_continuousOn (C109_GM_hertzmindlin _ _ (c (·.1) (by fun_prop)) _
    (c (·.2.1) (by fun_prop)) _ (c (·.2.2.1) (by fun_prop)) _ (c (·.2.2.2.1) (by fun_prop)) _
    (c (·.2.2.2.2.1) (by fun_prop)) _ (c (·.2.2.2.2.2) (by fun_prop))).1 ?_
  intro q hq
  beta_reduce
  rw [GM.hertzmindlin_eval hq.1 hq.2.1 hq.2.2]

/-- The velocity as a function of moduli and density. -/
example : ContinuousOn (fun q : ℝ × ℝ × ℝ => √((q.1 + 4 / 3 * q.2.1) / q.2.2) * 1e3)
    {q | 0 < q.2.2 ∧ 0 ≤ q.2.1 ∧ 0 ≤ q.1} := by
  have c : ∀ g : ℝ × ℝ × ℝ → ℝ, Continuous g → Varies fun q => fin (g q) :=
    fun g hg => of_continuous hg
  refine C109_real_continuousOn (C109_utils_V _ _ (c (·.1) (by fun_prop)) _
    (c (·.2.1) (by fun_prop)) _ (c (·.2.2) (by fun_prop))).1 ?_
  intro q hq
  beta_reduce
  rw [utils.V_eval hq.1 hq.2.1 (by linarith [hq.2.1, hq.2.2])]

end RockPhy.Props
