import Verif.Lemmas.Units
import Verif.Model.EM
import Verif.Model.GM
import Verif.Model.AVO
import Verif.Model.Anisotropy
import Verif.Model.Perm
import Verif.Model.Emp
import Verif.Model.QI
import Verif.Model.Dispersion

/-!
# C108: results do not depend on the system of units

Every theorem says: arguments converted to other units give the converted result.  The arguments
are arbitrary values, undefined ones included.
-/

namespace RockPhy.Props

open Spec Units

/-- `utils`. -/
theorem C108_utils (U : Units) :
    (∀ K G rho, utils.V (U.stress K) (U.stress G) (U.density rho)
      = on2 U.velocity (utils.V K G rho)) ∧
    (∀ K G, utils.poi (U.stress K) (U.stress G) = utils.poi K G) ∧
    (∀ K G, utils.lame (U.stress K) (U.stress G) = U.stress (utils.lame K G)) ∧
    (∀ den vp vs, utils.M_from_V (U.density den) (U.velocity vp) (U.velocity vs)
      = on2 U.stress (utils.M_from_V den vp vs)) ∧
    (∀ C11 C33 C13 C44 C55, utils.write_HTI_matrix (U.stress C11) (U.stress C33) (U.stress C13)
        (U.stress C44) (U.stress C55)
      = onM U.stress (utils.write_HTI_matrix C11 C33 C13 C44 C55)) ∧
    (∀ S11 S12 S13 S33 S44, utils.write_VTI_compliance (U.compliance S11) (U.compliance S12)
        (U.compliance S13) (U.compliance S33) (U.compliance S44)
      = onM U.compliance (utils.write_VTI_compliance S11 S12 S13 S33 S44)) ∧
    (∀ C11 C33 C13 C44 C66, utils.write_VTI_matrix (U.stress C11) (U.stress C33) (U.stress C13)
        (U.stress C44) (U.stress C66)
      = onM U.stress (utils.write_VTI_matrix C11 C33 C13 C44 C66)) ∧
    (∀ C11 C22 C33 C12 C13 C23 C44 C55 C66, utils.write_matrix (U.stress C11) (U.stress C22)
        (U.stress C33) (U.stress C12) (U.stress C13) (U.stress C23) (U.stress C44) (U.stress C55)
        (U.stress C66)
      = onM U.stress (utils.write_matrix C11 C22 C33 C12 C13 C23 C44 C55 C66)) ∧
    (∀ K G, utils.write_iso (U.stress K) (U.stress G) = onM U.stress (utils.write_iso K G)) ∧
    (∀ Vp0 Vp45 Vp90 Vs0 Vsh90 den, utils.v_to_c_VTI (U.velocity Vp0) (U.velocity Vp45)
        (U.velocity Vp90) (U.velocity Vs0) (U.velocity Vsh90) (U.density den)
      = onM U.stress (utils.v_to_c_VTI Vp0 Vp45 Vp90 Vs0 Vsh90 den)) := by
  refine ⟨?_, ?_, ?_, ?_, ?_, ?_, ?_, ?_, ?_, ?_⟩ <;> intros
  · un_eval [utils.V]
  · un_eval [utils.poi]
  · un_eval [utils.lame]
  · un_eval [utils.M_from_V]
  · un_mat [utils.write_HTI_matrix]
  · un_mat [utils.write_VTI_compliance]
  · un_mat [utils.write_VTI_matrix]
  · un_mat [utils.write_matrix]
  · un_mat [utils.write_iso]
  · un_mat [utils.v_to_c_VTI, utils.write_VTI_matrix]

/-- Averages and bounds.  The Voigt-Reuss-Hill averages are those of any quantity. -/
theorem C108_bounds (U : Units) :
    (∀ (a b c : ℤ) (volumes M : List Fl), EM.VRH volumes (M.map (U.conv a b c))
      = (EM.VRH volumes M).map (on3 (U.conv a b c))) ∧
    (∀ K0 G0 phi phic, EM.cripor (U.stress K0) (U.stress G0) phi phic
      = on2 U.stress (EM.cripor K0 G0 phi phic)) ∧
    (∀ (a b c : ℤ) (M0 Mf phic : Fl) (den : Bool),
      EM.cripor_reuss (U.conv a b c M0) (U.conv a b c Mf) phic den
        = (EM.cripor_reuss M0 Mf phic den).map (U.conv a b c)) ∧
    (∀ f K1 K2 G1 G2 bound, EM.HS f (U.stress K1) (U.stress K2) (U.stress G1) (U.stress G2) bound
      = on2 U.stress (EM.HS f K1 K2 G1 G2 bound)) ∧
    (∀ phi Kg Gg, Empirical.krief phi (U.stress Kg) (U.stress Gg)
      = on3 U.stress (Empirical.krief phi Kg Gg)) := by
  have hV : ∀ (a b c : ℤ) (volumes M : List Fl), EM.VRH volumes (M.map (U.conv a b c))
      = (EM.VRH volumes M).map (on3 (U.conv a b c)) := by
    intro a b c volumes M
    have h1 : (M.map (U.conv a b c)).map (fun m => 1 / m)
        = (M.map (fun m => 1 / m)).map (U.conv (-a) (-b) (-c)) := by
      simp only [List.map_map, Function.comp_def, div_conv]
    unfold EM.VRH
    rw [h1, dot_map, dot_map]
    cases dot volumes M with
    | error e => rfl
    | ok v => cases dot volumes (M.map fun m => 1 / m) with
      | error e => rfl
      | ok r =>
        show Except.ok _ = Except.ok _
        un_eval []
  refine ⟨hV, ?_, ?_, ?_, ?_⟩
  · intros; un_eval [EM.cripor]
  · intro a b c M0 Mf phic den
    unfold EM.cripor_reuss
    rw [show [U.conv a b c M0, U.conv a b c Mf] = [M0, Mf].map (U.conv a b c) from rfl, hV]
    cases EM.VRH [1 - phic, phic] [M0, Mf] with
    | error e => rfl
    | ok v => cases den <;> rfl
  · intro f K1 K2 G1 G2 bound
    by_cases h : bound = "upper"
    · subst h; un_eval [EM.HS, if_true]
    · simp only [EM.HS, if_neg h]; un_eval []
  · intros; un_eval [Empirical.krief]

/-- Cracks. -/
theorem C108_cracks (U : Units) :
    (∀ K G phi alpha Kf, EM.Eshelby_Cheng_consts (U.stress K) (U.stress G) phi alpha (U.stress Kf)
      = on5 U.stress (EM.Eshelby_Cheng_consts K G phi alpha Kf)) ∧
    (∀ K G Ki Gi alpha crd order axis, EM.hudson (U.stress K) (U.stress G) (U.stress Ki)
        (U.stress Gi) alpha crd order axis
      = (EM.hudson K G Ki Gi alpha crd order axis).map (onM U.stress)) ∧
    (∀ K G Ki Gi alpha crd, EM.hudson_rand (U.stress K) (U.stress G) (U.stress Ki) (U.stress Gi)
        alpha crd = on2 U.stress (EM.hudson_rand K G Ki Gi alpha crd)) ∧
    (∀ K G Ki Gi alpha crd, EM.hudson_ortho (U.stress K) (U.stress G) (U.stress Ki) (U.stress Gi)
        alpha crd = onM U.stress (EM.hudson_ortho K G Ki Gi alpha crd)) ∧
    (∀ K G Ki Gi alpha crd theta, EM.hudson_cone (U.stress K) (U.stress G) (U.stress Ki)
        (U.stress Gi) alpha crd theta
      = onM U.stress (EM.hudson_cone K G Ki Gi alpha crd theta)) ∧
    (∀ Ks Gs cd, EM.Dilute_crack (U.stress Ks) (U.stress Gs) cd
      = on2 U.stress (EM.Dilute_crack Ks Gs cd)) ∧
    (∀ K0 G0 crd, EM.OConnell_Budiansky (U.stress K0) (U.stress G0) crd
      = on2 U.stress (EM.OConnell_Budiansky K0 G0 crd)) ∧
    (∀ fsolve K0 G0 Kfl crd alpha, EM.OConnell_Budiansky_fl fsolve (U.stress K0) (U.stress G0)
        (U.stress Kfl) crd alpha
      = on2 U.stress (EM.OConnell_Budiansky_fl fsolve K0 G0 Kfl crd alpha)) := by
  refine ⟨?_, ?_, ?_, ?_, ?_, ?_, ?_, ?_⟩
  · intros; un_eval [EM.Eshelby_Cheng_consts, EM.Eshelby_Cheng_moduli, EM.Eshelby_Cheng_S]
  · intro K G Ki Gi alpha crd order axis
    have hc : EM.hudson_consts (U.stress K) (U.stress G) (U.stress Ki) (U.stress Gi) alpha crd order
        = (EM.hudson_consts K G Ki Gi alpha crd order).map (on5 U.stress) := by
      unfold EM.hudson_consts
      split_ifs <;> simp only [Except.map]
      all_goals un_eval [EM.hudson_U1, EM.hudson_U3, EM.hudson_M, EM.hudson_kapa]
    unfold EM.hudson
    rw [hc]
    cases EM.hudson_consts K G Ki Gi alpha crd order with
    | error e => rfl
    | ok c =>
      obtain ⟨C11, C13, C33, C44, C66⟩ := c
      show EM.hudson_matrix (on5 U.stress (C11, C13, C33, C44, C66)) axis
        = (EM.hudson_matrix (C11, C13, C33, C44, C66) axis).map _
      unfold EM.hudson_matrix
      split_ifs
      · exact congrArg Except.ok ((C108_utils U).2.2.2.2.2.2.1 _ _ _ _ _)
      · exact congrArg Except.ok ((C108_utils U).2.2.2.2.1 _ _ _ _ _)
      · rfl
  · intros; un_eval [EM.hudson_rand, EM.hudson_U1, EM.hudson_U3, EM.hudson_M, EM.hudson_kapa]
  · intros
    rw [EM.hudson_ortho, EM.hudson_ortho, ← (C108_utils U).2.2.2.2.2.2.2.1]
    un_eval [EM.hudson_U1, EM.hudson_U3, EM.hudson_M, EM.hudson_kapa]
  · intros
    rw [EM.hudson_cone, EM.hudson_cone, ← (C108_utils U).2.2.2.2.2.2.2.1]
    un_eval [EM.hudson_U1, EM.hudson_U3, EM.hudson_M, EM.hudson_kapa]
  · intros; un_eval [EM.Dilute_crack]
  · intros; un_eval [EM.OConnell_Budiansky]
  · intros; un_eval [EM.OConnell_Budiansky_fl]

/-- The polarisation factors are numbers without dimension. -/
theorem C108_PQ (U : Units) (Km Gm Ki Gi alpha : Fl) :
    EM.PQ (U.stress Km) (U.stress Gm) (U.stress Ki) (U.stress Gi) alpha = EM.PQ Km Gm Ki Gi alpha := by
  un_eval [EM.PQ, EM.PQ_core, EM.PQ_sphere]

/-- Inclusions. -/
theorem C108_inclusions (U : Units) :
    (∀ Ks Gs phi, EM.Swiss_cheese (U.stress Ks) (U.stress Gs) phi
      = on2 U.stress (EM.Swiss_cheese Ks Gs phi)) ∧
    (∀ phi Ks Gs iter_n, EM.SC phi (U.stress Ks) (U.stress Gs) iter_n
      = on2 U.stress (EM.SC phi Ks Gs iter_n)) ∧
    (∀ Km Gm Ki Gi f mode, EM.SC_dilute (U.stress Km) (U.stress Gm) (U.stress Ki) (U.stress Gi) f
        mode = EM.SC_dilute Km Gm Ki Gi f mode) ∧
    (∀ f iter_n Km Ki Gm Gi, EM.SC_flex f iter_n (U.stress Km) (U.stress Ki) (U.stress Gm)
        (U.stress Gi) = on2 U.stress (EM.SC_flex f iter_n Km Ki Gm Gi)) ∧
    (∀ f Kmat Gmat K1 G1 K2 G2, EM.MT_average f (U.stress Kmat) (U.stress Gmat) (U.stress K1)
        (U.stress G1) (U.stress K2) (U.stress G2)
      = on2 U.stress (EM.MT_average f Kmat Gmat K1 G1 K2 G2)) ∧
    (∀ K_eff G_eff t Gi Ki alpha, EM.DEM (U.stress K_eff) (U.stress G_eff) t (U.stress Gi)
        (U.stress Ki) alpha = on2 U.stress (EM.DEM K_eff G_eff t Gi Ki alpha)) := by
  refine ⟨?_, ?_, ?_, ?_, ?_, ?_⟩
  · intros; un_eval [EM.Swiss_cheese]
  · intro phi Ks Gs n
    induction n with
    | zero => rfl
    | succ n ih =>
      show EM.SC_step _ _ _ (EM.SC _ _ _ n) = on2 _ (EM.SC_step _ _ _ (EM.SC _ _ _ n))
      rw [ih]; un_eval [EM.SC_step]
  · intros; un_eval [EM.SC_dilute]
  · intro f n Km Ki Gm Gi
    induction n with
    | zero => rfl
    | succ n ih =>
      show EM.SC_flex_step _ _ _ _ _ (EM.SC_flex _ n _ _ _ _)
        = on2 _ (EM.SC_flex_step _ _ _ _ _ (EM.SC_flex _ n _ _ _ _))
      rw [ih]; un_eval [EM.SC_flex_step]
  · intros; un_eval [EM.MT_average]
  · intros; un_eval [EM.DEM, C108_PQ]

/-- Granular media.  The confining stress is converted like the moduli; that its unit is a thousandth
of theirs is a fixed ratio. -/
theorem C108_GM (U : Units) :
    (∀ C Kq Gq Ksh Gsh, GM.silty_shale C (U.stress Kq) (U.stress Gq) (U.stress Ksh) (U.stress Gsh)
      = on2 U.stress (GM.silty_shale C Kq Gq Ksh Gsh)) ∧
    (∀ phis C Kss Gss Kcc Gcc, GM.shaly_sand phis C (U.stress Kss) (U.stress Gss) (U.stress Kcc)
        (U.stress Gcc) = on2 U.stress (GM.shaly_sand phis C Kss Gss Kcc Gcc)) ∧
    (∀ K0 G0 Kc Gc phi phic Cn scheme, GM.contactcement (U.stress K0) (U.stress G0) (U.stress Kc)
        (U.stress Gc) phi phic Cn scheme
      = on2 U.stress (GM.contactcement K0 G0 Kc Gc phi phic Cn scheme)) ∧
    (∀ K0 G0 phic Cn sigma f, GM.hertzmindlin (U.stress K0) (U.stress G0) phic Cn (U.stress sigma) f
      = on2 U.stress (GM.hertzmindlin K0 G0 phic Cn sigma f)) ∧
    (∀ K0 G0 phi phic Cn sigma f, GM.softsand (U.stress K0) (U.stress G0) phi phic Cn
        (U.stress sigma) f = on2 U.stress (GM.softsand K0 G0 phi phic Cn sigma f)) ∧
    (∀ K0 G0 phi phic Cn sigma f, GM.stiffsand (U.stress K0) (U.stress G0) phi phic Cn
        (U.stress sigma) f = on2 U.stress (GM.stiffsand K0 G0 phi phic Cn sigma f)) ∧
    (∀ K0 G0 phic Cn sigma f, GM.Walton (U.stress K0) (U.stress G0) phic Cn (U.stress sigma) f
      = on2 U.stress (GM.Walton K0 G0 phic Cn sigma f)) ∧
    (∀ phi_b K0 G0 Kc Gc phi phic Cn scheme, GM.constantcement phi_b (U.stress K0) (U.stress G0)
        (U.stress Kc) (U.stress Gc) phi phic Cn scheme
      = on2 U.stress (GM.constantcement phi_b K0 G0 Kc Gc phi phic Cn scheme)) ∧
    (∀ K0 G0 Kc Gc phi phi_b phic Cn scheme, GM.MUHS (U.stress K0) (U.stress G0) (U.stress Kc)
        (U.stress Gc) phi phi_b phic Cn scheme
      = on2 U.stress (GM.MUHS K0 G0 Kc Gc phi phi_b phic Cn scheme)) ∧
    (∀ roots K0 G0 phi Cn sigma a_R, GM.Digby roots (U.stress K0) (U.stress G0) phi Cn
        (U.stress sigma) a_R
      = ((GM.Digby roots K0 G0 phi Cn sigma a_R).1.map U.stress,
         (GM.Digby roots K0 G0 phi Cn sigma a_R).2.map U.stress)) ∧
    (∀ f sigma K0 G0 phi phic v_cem v_ci Kc Gc Cn mode scheme f_, GM.pcm f (U.stress sigma)
        (U.stress K0) (U.stress G0) phi phic v_cem v_ci (U.stress Kc) (U.stress Gc) Cn mode scheme f_
      = on2 U.stress (GM.pcm f sigma K0 G0 phi phic v_cem v_ci Kc Gc Cn mode scheme f_)) ∧
    (∀ isnan k sigma0 sigma m, GM.diluting isnan k (U.stress sigma0) (U.stress sigma) m
      = GM.diluting isnan k sigma0 sigma m) ∧
    (∀ alpha f sigma K0 G0 phi phic v_cem v_ci Kc Gc Cn scheme f_, GM.vpcm alpha f (U.stress sigma)
        (U.stress K0) (U.stress G0) phi phic v_cem v_ci (U.stress Kc) (U.stress Gc) Cn scheme f_
      = on2 U.stress (GM.vpcm alpha f sigma K0 G0 phi phic v_cem v_ci Kc Gc Cn scheme f_)) := by
  have hcc : ∀ K0 G0 Kc Gc phi phic Cn scheme, GM.contactcement (U.stress K0) (U.stress G0)
        (U.stress Kc) (U.stress Gc) phi phic Cn scheme
      = on2 U.stress (GM.contactcement K0 G0 Kc Gc phi phic Cn scheme) := by
    intros; un_eval [GM.contactcement]
  have hhm : ∀ K0 G0 phic Cn sigma f, GM.hertzmindlin (U.stress K0) (U.stress G0) phic Cn
        (U.stress sigma) f = on2 U.stress (GM.hertzmindlin K0 G0 phic Cn sigma f) := by
    intros; un_eval [GM.hertzmindlin]
  have hmu : ∀ K0 G0 Kc Gc phi phi_b phic Cn scheme, GM.MUHS (U.stress K0) (U.stress G0)
        (U.stress Kc) (U.stress Gc) phi phi_b phic Cn scheme
      = on2 U.stress (GM.MUHS K0 G0 Kc Gc phi phi_b phic Cn scheme) := by
    intros; un_eval [GM.MUHS, hcc]
  have hce : ∀ K0 G0 phic v_cem v_ci Kc Gc Cn scheme, GM.cemented (U.stress K0) (U.stress G0) phic
        v_cem v_ci (U.stress Kc) (U.stress Gc) Cn scheme
      = on2 U.stress (GM.cemented K0 G0 phic v_cem v_ci Kc Gc Cn scheme) := by
    intros; unfold GM.cemented
    split
    · exact hcc ..
    · exact hmu ..
  have hst : ∀ f a b c d, GM.patchyStiff f (U.stress a) (U.stress b) (U.stress c) (U.stress d)
      = on2 U.stress (GM.patchyStiff f a b c d) := by
    intros; un_eval [GM.patchyStiff]
  have hso : ∀ f a b c d, GM.patchySoft f (U.stress a) (U.stress b) (U.stress c) (U.stress d)
      = on2 U.stress (GM.patchySoft f a b c d) := by
    intros; un_eval [GM.patchySoft]
  have hhs : ∀ K0 G0 phi phic Kp Gp, GM.patchyHS (U.stress K0) (U.stress G0) phi phic (U.stress Kp)
        (U.stress Gp) = on2 U.stress (GM.patchyHS K0 G0 phi phic Kp Gp) := by
    intros; un_eval [GM.patchyHS]
  refine ⟨?_, ?_, hcc, hhm, ?_, ?_, ?_, ?_, hmu, ?_, ?_, ?_, ?_⟩
  · intros; un_eval [GM.silty_shale]
  · intros; un_eval [GM.shaly_sand]
  · intros; un_eval [GM.softsand, hhm]
  · intros; un_eval [GM.stiffsand, hhm]
  · intros; un_eval [GM.Walton]
  · intros; un_eval [GM.constantcement, hcc]
  · intros; un_eval [GM.Digby, List.map_map, Function.comp_def]
  · intro f sigma K0 G0 phi phic v_cem v_ci Kc Gc Cn mode scheme f_
    unfold GM.pcm
    simp only [hhm, hce, on2, hst, hso]
    split
    · simp only [hhs, on2]
    · simp only [hhs, on2]
  · intros; un_eval [GM.diluting]
  · intros; un_eval [GM.vpcm, hhm, hce, hst, hso, hhs]

/-- Fluids in pores. -/
theorem C108_Fluid (U : Units) :
    (∀ Kw Kgas Sw e, Fluid.Brie (U.stress Kw) (U.stress Kgas) Sw e
      = U.stress (Fluid.Brie Kw Kgas Sw e)) ∧
    (∀ K_dry G_dry K_mat Kf phi, Fluid.Gassmann (U.stress K_dry) (U.stress G_dry) (U.stress K_mat)
        (U.stress Kf) phi = on2 U.stress (Fluid.Gassmann K_dry G_dry K_mat Kf phi)) ∧
    (∀ phi K0 Ksat1 Kfl1 Kfl2, Fluid.Gassmann_sub phi (U.stress K0) (U.stress Ksat1) (U.stress Kfl1)
        (U.stress Kfl2) = U.stress (Fluid.Gassmann_sub phi K0 Ksat1 Kfl1 Kfl2)) ∧
    (∀ Msat1 M0 Mfl1 phi Mfl2, Fluid.Gassmann_approx (U.stress Msat1) (U.stress M0) (U.stress Mfl1)
        phi (U.stress Mfl2) = U.stress (Fluid.Gassmann_approx Msat1 M0 Mfl1 phi Mfl2)) ∧
    (∀ K_dry G_dry K0 D0 Kf Df phi, Fluid.vels (U.stress K_dry) (U.stress G_dry) (U.stress K0)
        (U.density D0) (U.stress Kf) (U.density Df) phi
      = (U.velocity (Fluid.vels K_dry G_dry K0 D0 Kf Df phi).1,
         U.velocity (Fluid.vels K_dry G_dry K0 D0 Kf Df phi).2.1,
         U.density (Fluid.vels K_dry G_dry K0 D0 Kf Df phi).2.2)) ∧
    (∀ Vp1 Vs1 rho1 rhofl1 Kfl1 rhofl2 Kfl2 K0 phi, Fluid.Gassmann_vels (U.velocity Vp1)
        (U.velocity Vs1) (U.density rho1) (U.density rhofl1) (U.stress Kfl1) (U.density rhofl2)
        (U.stress Kfl2) (U.stress K0) phi
      = on2 U.velocity (Fluid.Gassmann_vels Vp1 Vs1 rho1 rhofl1 Kfl1 rhofl2 Kfl2 K0 phi)) ∧
    (∀ Vp_hs Vs_hs Vpdry Vsdry K0 rhodry rhofl Kfl phi, Fluid.Mavko_Jizba (U.velocity Vp_hs)
        (U.velocity Vs_hs) (U.velocity Vpdry) (U.velocity Vsdry) (U.stress K0) (U.density rhodry)
        (U.density rhofl) (U.stress Kfl) phi
      = (U.stress (Fluid.Mavko_Jizba Vp_hs Vs_hs Vpdry Vsdry K0 rhodry rhofl Kfl phi).1,
         U.stress (Fluid.Mavko_Jizba Vp_hs Vs_hs Vpdry Vsdry K0 rhodry rhofl Kfl phi).2.1,
         on2 U.velocity
           (Fluid.Mavko_Jizba Vp_hs Vs_hs Vpdry Vsdry K0 rhodry rhofl Kfl phi).2.2)) ∧
    (∀ (Sdry Sdry_hp : Fin 5 → Fl) (i : Fin 5), Fluid.Squirt_anisotropic
        (fun j => U.compliance (Sdry j)) (fun j => U.compliance (Sdry_hp j)) i
      = U.compliance (Fluid.Squirt_anisotropic Sdry Sdry_hp i)) := by
  refine ⟨?_, ?_, ?_, ?_, ?_, ?_, ?_, ?_⟩
  · intros; un_eval [Fluid.Brie]
  · intros; un_eval [Fluid.Gassmann]
  · intros; un_eval [Fluid.Gassmann_sub]
  · intros; un_eval [Fluid.Gassmann_approx]
  · intros; un_eval [Fluid.vels, Fluid.Gassmann]
  · intros; un_eval [Fluid.Gassmann_vels, Fluid.Gassmann_sub]
  · intros; un_eval [Fluid.Mavko_Jizba, Fluid.Gassmann, utils.M_from_V, utils.V]
  · intro Sdry Sdry_hp i
    fin_cases i <;> un_eval [Fluid.Squirt_anisotropic, Fin.isValue, Fin.zero_eta, Fin.mk_one,
      Fin.reduceFinMk, Matrix.cons_val]

/-- Waves in porous rocks, with the viscosity and the permeability in the same units. -/
theorem C108_dispersion (U : Units) :
    (∀ Kdry Gdry K0 Kfl rho0 rhofl phi alpha, Fluid.Biot_HF (U.stress Kdry) (U.stress Gdry)
        (U.stress K0) (U.stress Kfl) (U.density rho0) (U.density rhofl) phi alpha
      = on3 U.velocity (Fluid.Biot_HF Kdry Gdry K0 Kfl rho0 rhofl phi alpha)) ∧
    (∀ Kdry Gdry K0 Kfl rho0 rhofl phi alpha, Fluid.Geertsma_Smit_HF (U.stress Kdry) (U.stress Gdry)
        (U.stress K0) (U.stress Kfl) (U.density rho0) (U.density rhofl) phi alpha
      = on2 U.velocity (Fluid.Geertsma_Smit_HF Kdry Gdry K0 Kfl rho0 rhofl phi alpha)) ∧
    (∀ Vp0 Vpinf freq phi rhofl kapa eta, Fluid.Geertsma_Smit_LF (U.velocity Vp0) (U.velocity Vpinf)
        (U.freq freq) phi (U.density rhofl) (U.perm kapa) (U.viscosity eta)
      = U.velocity (Fluid.Geertsma_Smit_LF Vp0 Vpinf freq phi rhofl kapa eta)) ∧
    (∀ jv0 jv1 Kdry Gdry K0 Kfl rho0 rhofl eta phi kapa a alpha freq, Fluid.Biot jv0 jv1
        (U.stress Kdry) (U.stress Gdry) (U.stress K0) (U.stress Kfl) (U.density rho0)
        (U.density rhofl) (U.viscosity eta) phi (U.perm kapa) (U.len a) alpha (U.freq freq)
      = (let r := Fluid.Biot jv0 jv1 Kdry Gdry K0 Kfl rho0 rhofl eta phi kapa a alpha freq
         (U.velocity r.1, U.velocity r.2.1, U.velocity r.2.2.1, r.2.2.2))) ∧
    (∀ Kdry Gdry K0 phi rho0 rhofl1 rhofl2 Kfl1 Kfl2 eta1 eta2 kapa a sg freq,
      Fluid.White_Dutta_Ode (U.stress Kdry) (U.stress Gdry) (U.stress K0) phi (U.density rho0)
        (U.density rhofl1) (U.density rhofl2) (U.stress Kfl1) (U.stress Kfl2) (U.viscosity eta1)
        (U.viscosity eta2) (U.perm kapa) (U.len a) sg (U.freq freq)
      = (let r := Fluid.White_Dutta_Ode Kdry Gdry K0 phi rho0 rhofl1 rhofl2 Kfl1 Kfl2 eta1 eta2 kapa
           a sg freq
         (U.velocity r.1, U.conv 0 (-1) 0 r.2.1, U.convC 1 (-1) (-2) r.2.2))) := by
  refine ⟨?_, ?_, ?_, ?_, ?_⟩
  · intros; un_eval [Fluid.Biot_HF]
  · intros; un_eval [Fluid.Geertsma_Smit_HF]
  · intros; un_eval [Fluid.Geertsma_Smit_LF]
  · intros; un_eval [Fluid.Biot, Fluid.Biot_waves]
  · intros
    un_eval [Fluid.White_Dutta_Ode, Fluid.Gassmann, Fluid.White_KE, Fluid.White_Z1, Fluid.White_Z2,
      Fluid.White_wave]

/-- Anisotropic rocks. -/
theorem C108_Anisotropy (U : Units) :
    (∀ C11 C33 C13 C44 C66 den theta, Anisotropy.Thomsen (U.stress C11) (U.stress C33) (U.stress C13)
        (U.stress C44) (U.stress C66) (U.density den) theta
      = (let r := Anisotropy.Thomsen C11 C33 C13 C44 C66 den theta
         (U.velocity r.1, U.velocity r.2.1, U.velocity r.2.2.1, r.2.2.2))) ∧
    (∀ C11 C22 C33 C12 C13 C23 C44 C55 C66, Anisotropy.Thomsen_Tsvankin (U.stress C11) (U.stress C22)
        (U.stress C33) (U.stress C12) (U.stress C13) (U.stress C23) (U.stress C44) (U.stress C55)
        (U.stress C66) = Anisotropy.Thomsen_Tsvankin C11 C22 C33 C12 C13 C23 C44 C55 C66) ∧
    (∀ C Den azimuth, Anisotropy.vel_azi_HTI (onM U.stress C) (U.density Den) azimuth
      = on3 U.velocity (Anisotropy.vel_azi_HTI C Den azimuth)) ∧
    (∀ C Den azimuth, Anisotropy.vel_azi_VTI (onM U.stress C) (U.density Den) azimuth
      = on3 U.velocity (Anisotropy.vel_azi_VTI C Den azimuth)) ∧
    (∀ C theta axis, Anisotropy.Bond_trans (onM U.stress C) theta axis
      = (Anisotropy.Bond_trans C theta axis).map (onM U.stress)) := by
  refine ⟨?_, ?_, ?_, ?_, ?_⟩
  · intros; un_eval [Anisotropy.Thomsen]
  · intros; un_eval [Anisotropy.Thomsen_Tsvankin]
  · intros; un_eval [Anisotropy.vel_azi_HTI]
  · intros; un_eval [Anisotropy.vel_azi_VTI]
  · intro C theta axis
    have h : ∀ M : Mat6 Fl, matmul6 (matmul6 M (onM U.stress C)) M.transpose
        = onM U.stress (matmul6 (matmul6 M C) M.transpose) := by
      intro M; funext i j; un_eval [matmul6]
    unfold Anisotropy.Bond_trans
    split_ifs
    · exact congrArg Except.ok (h _)
    · exact congrArg Except.ok (h _)
    · rfl

/-- Reflection coefficients are numbers without dimension. -/
theorem C108_AVO (U : Units) :
    (∀ theta vp1 vp2 vs1 vs2 den1 den2, AVO.Aki_Richards theta (U.velocity vp1) (U.velocity vp2)
        (U.velocity vs1) (U.velocity vs2) (U.density den1) (U.density den2)
      = AVO.Aki_Richards theta vp1 vp2 vs1 vs2 den1 den2) ∧
    (∀ vp1 vs1 rho1 vp2 vs2 rho2 theta, AVO.zoeppritz (U.velocity vp1) (U.velocity vs1)
        (U.density rho1) (U.velocity vp2) (U.velocity vs2) (U.density rho2) theta
      = AVO.zoeppritz vp1 vs1 rho1 vp2 vs2 rho2 theta) ∧
    (∀ vp1 vs1 d1 vp2 vs2 d2, AVO.AVO_abe (U.velocity vp1) (U.velocity vs1) (U.density d1)
        (U.velocity vp2) (U.velocity vs2) (U.density d2) = AVO.AVO_abe vp1 vs1 d1 vp2 vs2 d2) ∧
    (∀ D1 D2 C1 C2 theta azimuth, AVO.AVO_HTI (U.density D1) (U.density D2) (onM U.stress C1)
        (onM U.stress C2) theta azimuth = AVO.AVO_HTI D1 D2 C1 C2 theta azimuth) ∧
    (∀ a1 b1 e11 d11 e12 d12 g1 rho1 a2 b2 e21 d21 e22 d22 g2 rho2 the, AVO.AVO_ortho (U.velocity a1)
        (U.velocity b1) e11 d11 e12 d12 g1 (U.density rho1) (U.velocity a2) (U.velocity b2) e21 d21
        e22 d22 g2 (U.density rho2) the
      = AVO.AVO_ortho a1 b1 e11 d11 e12 d12 g1 rho1 a2 b2 e21 d21 e22 d22 g2 rho2 the) := by
  refine ⟨?_, ?_, ?_, ?_, ?_⟩
  · intros; un_eval [AVO.Aki_Richards]
  · intros; un_eval [AVO.zoeppritz]
  · intros; un_eval [AVO.AVO_abe]
  · intros; un_eval [AVO.AVO_HTI, AVO.AVO_HTI_entry]
  · intros; un_eval [AVO.AVO_ortho]

/-- Permeability from a grain size or from the sizes of pores. -/
theorem C108_Permeability (U : Units) :
    (∀ phi d, Permeability.Kozeny_Carman phi (U.len d)
      = U.perm (Permeability.Kozeny_Carman phi d)) ∧
    (∀ phi phic d B, Permeability.Kozeny_Carman_Percolation phi phic (U.len d) B
      = U.perm (Permeability.Kozeny_Carman_Percolation phi phic d B)) ∧
    (∀ d C S tau phi, Permeability.Panda_Lake (U.len d) C S tau phi
      = U.perm (Permeability.Panda_Lake d C S tau phi)) ∧
    (∀ phi d, Permeability.Panda_Lake_cem phi (U.len d)
      = U.perm (Permeability.Panda_Lake_cem phi d)) ∧
    (∀ phi d, Permeability.Revil phi (U.len d) = U.perm (Permeability.Revil phi d)) ∧
    (∀ phi crf w r, Permeability.Bernabe phi crf (U.len w) (U.len r)
      = U.perm (Permeability.Bernabe phi crf w r)) := by
  refine ⟨?_, ?_, ?_, ?_, ?_, ?_⟩ <;> intros
  · un_eval [Permeability.Kozeny_Carman]
  · un_eval [Permeability.Kozeny_Carman_Percolation]
  · un_eval [Permeability.Panda_Lake]
  · un_eval [Permeability.Panda_Lake_cem]
  · un_eval [Permeability.Revil]
  · un_eval [Permeability.Bernabe]

/-- `Fredrich` returns the inverse of an area: its result is not a permeability. -/
theorem C108_Fredrich (U : Units) (phi d b : Fl) :
    Permeability.Fredrich phi (U.len d) b = U.conv 0 (-2) 0 (Permeability.Fredrich phi d b) := by
  un_eval [Permeability.Fredrich]

end RockPhy.Props
