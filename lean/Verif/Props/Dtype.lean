import Verif.Dtype
import Verif.Model.EM
import Verif.Lemmas.Residuals
import Verif.Model.GM
import Verif.Model.BW
import Verif.Model.AVO
import Verif.Model.Anisotropy
import Verif.Model.Perm
import Verif.Model.Emp
import Verif.Model.QI
import Mathlib.Tactic.Field

/-!
# C99: integer arrays
-/

namespace RockPhy.Props

open Dt

/-- Two results as floats. -/
def fl2 (p : Dt × Dt) : Fl × Fl := (p.1.toFl, p.2.toFl)
/-- Three results as floats. -/
def fl3 (p : Dt × Dt × Dt) : Fl × Fl × Fl := (p.1.toFl, fl2 p.2)
/-- Four results as floats. -/
def fl4 (p : Dt × Dt × Dt × Dt) : Fl × Fl × Fl × Fl := (p.1.toFl, fl3 p.2)
/-- Five results as floats. -/
def fl5 (p : Dt × Dt × Dt × Dt × Dt) : Fl × Fl × Fl × Fl × Fl := (p.1.toFl, fl4 p.2)
/-- Six results as floats. -/
def fl6 (p : Dt × Dt × Dt × Dt × Dt × Dt) : Fl × Fl × Fl × Fl × Fl × Fl := (p.1.toFl, fl5 p.2)
/-- Seven results as floats. -/
def fl7 (p : Dt × Dt × Dt × Dt × Dt × Dt × Dt) : Fl × Fl × Fl × Fl × Fl × Fl × Fl :=
  (p.1.toFl, fl6 p.2)
/-- A matrix of floats. -/
def flM (C : Mat6 Dt) : Mat6 Fl := fun i j => (C i j).toFl

/-- Compare a formula on integer arrays with the same formula on floats. -/
local macro "dt_eval" "[" ls:Lean.Parser.Tactic.simpLemma,* "]" : tactic =>
  `(tactic| simp (disch := first | exact isInt_sci _ _ _ | simp only [dt, Bool.and_false,
      Bool.false_and, Bool.and_true, Bool.true_and]) only
    [dt, fl2, fl3, fl4, fl5, fl6, fl7, flM, apply_ite toFl, $ls,*])

/-- `utils`. -/
theorem C99_utils :
    (∀ K G rho : Dt, fl2 (utils.V K G rho)
      = utils.V K.toFl G.toFl rho.toFl) ∧
    (∀ K G : Dt, (utils.poi K G).toFl
      = utils.poi K.toFl G.toFl) ∧
    (∀ K G : Dt, (utils.lame K G).toFl
      = utils.lame K.toFl G.toFl) ∧
    (∀ den vp vs : Dt, fl2 (utils.M_from_V den vp vs)
      = utils.M_from_V den.toFl vp.toFl vs.toFl) ∧
    (∀ C11 C33 C13 C44 C55 : Dt, flM (utils.write_HTI_matrix C11 C33 C13 C44 C55)
      = utils.write_HTI_matrix C11.toFl C33.toFl C13.toFl C44.toFl C55.toFl) ∧
    (∀ S11 S12 S13 S33 S44 : Dt, flM (utils.write_VTI_compliance S11 S12 S13 S33 S44)
      = utils.write_VTI_compliance S11.toFl S12.toFl S13.toFl S33.toFl S44.toFl) ∧
    (∀ C11 C33 C13 C44 C66 : Dt, flM (utils.write_VTI_matrix C11 C33 C13 C44 C66)
      = utils.write_VTI_matrix C11.toFl C33.toFl C13.toFl C44.toFl C66.toFl) ∧
    (∀ C11 C22 C33 C12 C13 C23 C44 C55 C66 : Dt, flM (utils.write_matrix C11 C22 C33 C12 C13 C23 C44 C55 C66)
      = utils.write_matrix C11.toFl C22.toFl C33.toFl C12.toFl C13.toFl C23.toFl C44.toFl C55.toFl C66.toFl) ∧
    (∀ K G : Dt, flM (utils.write_iso K G)
      = utils.write_iso K.toFl G.toFl) ∧
    (∀ crd alpha : Dt, (utils.crack_por crd alpha).toFl
      = utils.crack_por crd.toFl alpha.toFl) ∧
    (∀ Vp0 Vp45 Vp90 Vs0 Vsh90 den : Dt, flM (utils.v_to_c_VTI Vp0 Vp45 Vp90 Vs0 Vsh90 den)
      = utils.v_to_c_VTI Vp0.toFl Vp45.toFl Vp90.toFl Vs0.toFl Vsh90.toFl den.toFl) := by
  refine ⟨?_, ?_, ?_, ?_, ?_, ?_, ?_, ?_, ?_, ?_, ?_⟩
  · intros; dt_eval [utils.V]
  · intros; dt_eval [utils.poi]
  · intros; dt_eval [utils.lame]
  · intros; dt_eval [utils.M_from_V]
  · intros; funext i j
    fin_cases i <;> fin_cases j <;> dt_eval [utils.write_HTI_matrix, Fin.isValue, Fin.zero_eta, Fin.mk_one, Fin.reduceFinMk, Matrix.cons_val]
  · intros; funext i j
    fin_cases i <;> fin_cases j <;> dt_eval [utils.write_VTI_compliance, Fin.isValue, Fin.zero_eta, Fin.mk_one, Fin.reduceFinMk, Matrix.cons_val]
  · intros; funext i j
    fin_cases i <;> fin_cases j <;> dt_eval [utils.write_VTI_matrix, Fin.isValue, Fin.zero_eta, Fin.mk_one, Fin.reduceFinMk, Matrix.cons_val]
  · intros; funext i j
    fin_cases i <;> fin_cases j <;> dt_eval [utils.write_matrix, Fin.isValue, Fin.zero_eta, Fin.mk_one, Fin.reduceFinMk, Matrix.cons_val]
  · intros; funext i j
    fin_cases i <;> fin_cases j <;> dt_eval [utils.write_iso, Fin.isValue, Fin.zero_eta, Fin.mk_one, Fin.reduceFinMk, Matrix.cons_val]
  · intros; dt_eval [utils.crack_por]
  · intros; funext i j
    fin_cases i <;> fin_cases j <;> dt_eval [utils.v_to_c_VTI, utils.write_VTI_matrix, Fin.isValue, Fin.zero_eta, Fin.mk_one, Fin.reduceFinMk, Matrix.cons_val]

/-- `Empirical`. -/
theorem C99_Empirical :
    (∀ phi Kg Gg : Dt, fl3 (Empirical.krief phi Kg Gg)
      = Empirical.krief phi.toFl Kg.toFl Gg.toFl) ∧
    (∀ Vp vsh : Dt, (Empirical.esti_VS Vp vsh).toFl
      = Empirical.esti_VS Vp.toFl vsh.toFl) ∧
    (∀ phi C : Dt, fl2 (Empirical.han phi C)
      = Empirical.han phi.toFl C.toFl) ∧
    (∀ Z : Dt, (Empirical.ehrenberg Z).toFl
      = Empirical.ehrenberg Z.toFl) ∧
    (∀ Z : Dt, (Empirical.Scherbaum Z).toFl
      = Empirical.Scherbaum Z.toFl) ∧
    (∀ phi : Dt, (Empirical.Sclater phi).toFl
      = Empirical.Sclater phi.toFl) ∧
    (∀ Z : Dt, (Empirical.Storvoll Z).toFl
      = Empirical.Storvoll Z.toFl) ∧
    (∀ Z : Dt, (Empirical.Hillis Z).toFl
      = Empirical.Hillis Z.toFl) ∧
    (∀ Z : Dt, (Empirical.hjelstuen Z).toFl
      = Empirical.hjelstuen Z.toFl) ∧
    (∀ phi : Dt, (Empirical.Cp phi).toFl
      = Empirical.Cp phi.toFl) := by
  refine ⟨?_, ?_, ?_, ?_, ?_, ?_, ?_, ?_, ?_, ?_⟩
  · intros; dt_eval [Empirical.krief]
  · intros; dt_eval [Empirical.esti_VS]
  · intros; dt_eval [Empirical.han]
  · intros; dt_eval [Empirical.ehrenberg]
  · intros; dt_eval [Empirical.Scherbaum]
  · intros; dt_eval [Empirical.Sclater]
  · intros; dt_eval [Empirical.Storvoll]
  · intros; dt_eval [Empirical.Hillis]
  · intros; dt_eval [Empirical.hjelstuen]
  · intros; dt_eval [Empirical.Cp]

/-- `Permeability`. -/
theorem C99_Permeability :
    (∀ phi d : Dt, (Permeability.Kozeny_Carman phi d).toFl
      = Permeability.Kozeny_Carman phi.toFl d.toFl) ∧
    (∀ phi phic d B : Dt, (Permeability.Kozeny_Carman_Percolation phi phic d B).toFl
      = Permeability.Kozeny_Carman_Percolation phi.toFl phic.toFl d.toFl B.toFl) ∧
    (∀ phi Swi : Dt, fl2 (Permeability.Owolabi phi Swi)
      = Permeability.Owolabi phi.toFl Swi.toFl) ∧
    (∀ phi Swi : Dt, fl4 (Permeability.Perm_logs phi Swi)
      = Permeability.Perm_logs phi.toFl Swi.toFl) ∧
    (∀ d C S tau phi : Dt, (Permeability.Panda_Lake d C S tau phi).toFl
      = Permeability.Panda_Lake d.toFl C.toFl S.toFl tau.toFl phi.toFl) ∧
    (∀ phi d : Dt, (Permeability.Panda_Lake_cem phi d).toFl
      = Permeability.Panda_Lake_cem phi.toFl d.toFl) ∧
    (∀ phi d : Dt, (Permeability.Revil phi d).toFl
      = Permeability.Revil phi.toFl d.toFl) ∧
    (∀ phi d b : Dt, (Permeability.Fredrich phi d b).toFl
      = Permeability.Fredrich phi.toFl d.toFl b.toFl) ∧
    (∀ S C D : Dt, fl2 (Permeability.Bloch S C D)
      = Permeability.Bloch S.toFl C.toFl D.toFl) ∧
    (∀ phi crf w r : Dt, (Permeability.Bernabe phi crf w r).toFl
      = Permeability.Bernabe phi.toFl crf.toFl w.toFl r.toFl) := by
  refine ⟨?_, ?_, ?_, ?_, ?_, ?_, ?_, ?_, ?_, ?_⟩
  · intros; dt_eval [Permeability.Kozeny_Carman]
  · intros; dt_eval [Permeability.Kozeny_Carman_Percolation]
  · intros; dt_eval [Permeability.Owolabi]
  · intros; dt_eval [Permeability.Perm_logs]
  · intros; dt_eval [Permeability.Panda_Lake]
  · intros; dt_eval [Permeability.Panda_Lake_cem]
  · intros; dt_eval [Permeability.Revil]
  · intros; dt_eval [Permeability.Fredrich]
  · intros; dt_eval [Permeability.Bloch]
  · intros; dt_eval [Permeability.Bernabe]

/-- `EM`. -/
theorem C99_EM :
    (∀ K0 G0 phi phic : Dt, fl2 (EM.cripor K0 G0 phi phic)
      = EM.cripor K0.toFl G0.toFl phi.toFl phic.toFl) ∧
    (∀ K G phi alpha Kf : Dt, fl5 (EM.Eshelby_Cheng_consts K G phi alpha Kf)
      = EM.Eshelby_Cheng_consts K.toFl G.toFl phi.toFl alpha.toFl Kf.toFl) ∧
    (∀ K G Ki Gi alpha crd : Dt, fl2 (EM.hudson_rand K G Ki Gi alpha crd)
      = EM.hudson_rand K.toFl G.toFl Ki.toFl Gi.toFl alpha.toFl crd.toFl) ∧
    (∀ K G Ki Gi alpha crd theta : Dt, flM (EM.hudson_cone K G Ki Gi alpha crd theta)
      = EM.hudson_cone K.toFl G.toFl Ki.toFl Gi.toFl alpha.toFl crd.toFl theta.toFl) ∧
    (∀ Ks Gs phi : Dt, fl2 (EM.Swiss_cheese Ks Gs phi)
      = EM.Swiss_cheese Ks.toFl Gs.toFl phi.toFl) ∧
    (∀ Ks Gs cd : Dt, fl2 (EM.Dilute_crack Ks Gs cd)
      = EM.Dilute_crack Ks.toFl Gs.toFl cd.toFl) ∧
    (∀ K0 G0 crd : Dt, fl2 (EM.OConnell_Budiansky K0 G0 crd)
      = EM.OConnell_Budiansky K0.toFl G0.toFl crd.toFl) ∧
    (∀ f Kmat Gmat K1 G1 K2 G2 : Dt, fl2 (EM.MT_average f Kmat Gmat K1 G1 K2 G2)
      = EM.MT_average f.toFl Kmat.toFl Gmat.toFl K1.toFl G1.toFl K2.toFl G2.toFl) := by
  refine ⟨?_, ?_, ?_, ?_, ?_, ?_, ?_, ?_⟩
  · intros; dt_eval [EM.cripor]
  · intros; dt_eval [EM.Eshelby_Cheng_consts, EM.Eshelby_Cheng_S, EM.Eshelby_Cheng_moduli]
  · intros; dt_eval [EM.hudson_rand, EM.hudson_U1, EM.hudson_U3, EM.hudson_M, EM.hudson_kapa]
  · intros; funext i j
    fin_cases i <;> fin_cases j <;> dt_eval [EM.hudson_cone, EM.hudson_U1, EM.hudson_U3, EM.hudson_M, EM.hudson_kapa, utils.write_matrix, Fin.isValue, Fin.zero_eta, Fin.mk_one, Fin.reduceFinMk, Matrix.cons_val]
  · intros; dt_eval [EM.Swiss_cheese]
  · intros; dt_eval [EM.Dilute_crack]
  · intros; dt_eval [EM.OConnell_Budiansky]
  · intros; dt_eval [EM.MT_average]

/-- `GM`. -/
theorem C99_GM :
    (∀ phi_sand phi_sh vsh : Dt, fl2 (GM.ThomasStieber phi_sand phi_sh vsh)
      = GM.ThomasStieber phi_sand.toFl phi_sh.toFl vsh.toFl) ∧
    (∀ C Kq Gq Ksh Gsh : Dt, fl2 (GM.silty_shale C Kq Gq Ksh Gsh)
      = GM.silty_shale C.toFl Kq.toFl Gq.toFl Ksh.toFl Gsh.toFl) ∧
    (∀ phis C Kss Gss Kcc Gcc : Dt, fl2 (GM.shaly_sand phis C Kss Gss Kcc Gcc)
      = GM.shaly_sand phis.toFl C.toFl Kss.toFl Gss.toFl Kcc.toFl Gcc.toFl) ∧
    (∀ K0 G0 Kc Gc phi phic Cn : Dt, ∀ scheme : Int, fl2 (GM.contactcement K0 G0 Kc Gc phi phic Cn scheme)
      = GM.contactcement K0.toFl G0.toFl Kc.toFl Gc.toFl phi.toFl phic.toFl Cn.toFl scheme) ∧
    (∀ K0 G0 phic Cn sigma f : Dt, fl2 (GM.hertzmindlin K0 G0 phic Cn sigma f)
      = GM.hertzmindlin K0.toFl G0.toFl phic.toFl Cn.toFl sigma.toFl f.toFl) ∧
    (∀ K0 G0 phi phic Cn sigma f : Dt, fl2 (GM.softsand K0 G0 phi phic Cn sigma f)
      = GM.softsand K0.toFl G0.toFl phi.toFl phic.toFl Cn.toFl sigma.toFl f.toFl) ∧
    (∀ K0 G0 phic Cn sigma f : Dt, fl2 (GM.Walton K0 G0 phic Cn sigma f)
      = GM.Walton K0.toFl G0.toFl phic.toFl Cn.toFl sigma.toFl f.toFl) ∧
    (∀ K0 G0 phi phic Cn sigma f : Dt, fl2 (GM.stiffsand K0 G0 phi phic Cn sigma f)
      = GM.stiffsand K0.toFl G0.toFl phi.toFl phic.toFl Cn.toFl sigma.toFl f.toFl) ∧
    (∀ K0 G0 phi phic Kp Gp : Dt, fl2 (GM.patchyHS K0 G0 phi phic Kp Gp)
      = GM.patchyHS K0.toFl G0.toFl phi.toFl phic.toFl Kp.toFl Gp.toFl) := by
  refine ⟨?_, ?_, ?_, ?_, ?_, ?_, ?_, ?_, ?_⟩
  · intros; dt_eval [GM.ThomasStieber, maximum]
  · intros; dt_eval [GM.silty_shale]
  · intros; dt_eval [GM.shaly_sand]
  · intros; dt_eval [GM.contactcement]
  · intros; dt_eval [GM.hertzmindlin]
  · intros; dt_eval [GM.softsand, GM.hertzmindlin]
  · intros; dt_eval [GM.Walton]
  · intros; dt_eval [GM.stiffsand, GM.hertzmindlin]
  · intros; dt_eval [GM.patchyHS]

/-- `BW`. -/
theorem C99_BW :
    (∀ P T G : Dt, fl2 (BW.rho_K_co2 P T G)
      = BW.rho_K_co2 P.toFl T.toFl G.toFl) ∧
    (∀ P T G : Dt, fl2 (BW.rho_K_gas P T G)
      = BW.rho_K_gas P.toFl T.toFl G.toFl) ∧
    (∀ P T den : Dt, fl2 (BW.rho_K_oil P T den)
      = BW.rho_K_oil P.toFl T.toFl den.toFl) := by
  refine ⟨?_, ?_, ?_⟩
  · intros; dt_eval [BW.rho_K_co2, BW.rho_K_reduced, BW.dz_dp]
  · intros; dt_eval [BW.rho_K_gas, BW.rho_K_reduced, BW.dz_dp, BW.pseudo_p_t]
  · intros; dt_eval [BW.rho_K_oil]

/-- `Fluid`. -/
theorem C99_Fluid :
    (∀ Vp0 Vpinf freq phi rhofl kapa eta : Dt, (Fluid.Geertsma_Smit_LF Vp0 Vpinf freq phi rhofl kapa eta).toFl
      = Fluid.Geertsma_Smit_LF Vp0.toFl Vpinf.toFl freq.toFl phi.toFl rhofl.toFl kapa.toFl eta.toFl) ∧
    (∀ K_dry G_dry K_mat Kf phi : Dt, fl2 (Fluid.Gassmann K_dry G_dry K_mat Kf phi)
      = Fluid.Gassmann K_dry.toFl G_dry.toFl K_mat.toFl Kf.toFl phi.toFl) ∧
    (∀ phi K0 Ksat1 Kfl1 Kfl2 : Dt, (Fluid.Gassmann_sub phi K0 Ksat1 Kfl1 Kfl2).toFl
      = Fluid.Gassmann_sub phi.toFl K0.toFl Ksat1.toFl Kfl1.toFl Kfl2.toFl) ∧
    (∀ K_dry G_dry K0 D0 Kf Df phi : Dt, fl3 (Fluid.vels K_dry G_dry K0 D0 Kf Df phi)
      = Fluid.vels K_dry.toFl G_dry.toFl K0.toFl D0.toFl Kf.toFl Df.toFl phi.toFl) ∧
    (∀ Vp1 Vs1 rho1 rhofl1 Kfl1 rhofl2 Kfl2 K0 phi : Dt, fl2 (Fluid.Gassmann_vels Vp1 Vs1 rho1 rhofl1 Kfl1 rhofl2 Kfl2 K0 phi)
      = Fluid.Gassmann_vels Vp1.toFl Vs1.toFl rho1.toFl rhofl1.toFl Kfl1.toFl rhofl2.toFl Kfl2.toFl K0.toFl phi.toFl) ∧
    (∀ Msat1 M0 Mfl1 phi Mfl2 : Dt, (Fluid.Gassmann_approx Msat1 M0 Mfl1 phi Mfl2).toFl
      = Fluid.Gassmann_approx Msat1.toFl M0.toFl Mfl1.toFl phi.toFl Mfl2.toFl) ∧
    (∀ Vp_hs Vs_hs Vpdry Vsdry K0 rhodry rhofl Kfl phi : Dt, fl4 (Fluid.Mavko_Jizba Vp_hs Vs_hs Vpdry Vsdry K0 rhodry rhofl Kfl phi)
      = Fluid.Mavko_Jizba Vp_hs.toFl Vs_hs.toFl Vpdry.toFl Vsdry.toFl K0.toFl rhodry.toFl rhofl.toFl Kfl.toFl phi.toFl) := by
  refine ⟨?_, ?_, ?_, ?_, ?_, ?_, ?_⟩
  · intros; dt_eval [Fluid.Geertsma_Smit_LF]
  · intros; dt_eval [Fluid.Gassmann]
  · intros; dt_eval [Fluid.Gassmann_sub]
  · intros; dt_eval [Fluid.vels, Fluid.Gassmann]
  · intros; dt_eval [Fluid.Gassmann_vels, Fluid.Gassmann_sub]
  · intros; dt_eval [Fluid.Gassmann_approx]
  · intros; dt_eval [Fluid.Mavko_Jizba, utils.M_from_V, utils.V, Fluid.Gassmann]

/-- `AVO`. -/
theorem C99_AVO :
    (∀ theta vp1 vp2 vs1 vs2 den1 den2 : Dt, fl4 (AVO.Aki_Richards theta vp1 vp2 vs1 vs2 den1 den2)
      = AVO.Aki_Richards theta.toFl vp1.toFl vp2.toFl vs1.toFl vs2.toFl den1.toFl den2.toFl) ∧
    (∀ vp1 vs1 rho1 vp2 vs2 rho2 theta : Dt, fl2 (AVO.zoeppritz vp1 vs1 rho1 vp2 vs2 rho2 theta)
      = AVO.zoeppritz vp1.toFl vs1.toFl rho1.toFl vp2.toFl vs2.toFl rho2.toFl theta.toFl) ∧
    (∀ vp1 vs1 d1 vp2 vs2 d2 : Dt, fl5 (AVO.AVO_abe vp1 vs1 d1 vp2 vs2 d2)
      = AVO.AVO_abe vp1.toFl vs1.toFl d1.toFl vp2.toFl vs2.toFl d2.toFl) ∧
    (∀ a1 b1 e11 d11 e12 d12 g1 rho1 a2 b2 e21 d21 e22 d22 g2 rho2 the : Dt, fl2 (AVO.AVO_ortho a1 b1 e11 d11 e12 d12 g1 rho1 a2 b2 e21 d21 e22 d22 g2 rho2 the)
      = AVO.AVO_ortho a1.toFl b1.toFl e11.toFl d11.toFl e12.toFl d12.toFl g1.toFl rho1.toFl a2.toFl b2.toFl e21.toFl d21.toFl e22.toFl d22.toFl g2.toFl rho2.toFl the.toFl) := by
  refine ⟨?_, ?_, ?_, ?_⟩
  · intros; dt_eval [AVO.Aki_Richards]
  · intros; dt_eval [AVO.zoeppritz]
  · intros; dt_eval [AVO.AVO_abe]
  · intros; dt_eval [AVO.AVO_ortho]

/-- `Anisotropy`. -/
theorem C99_Anisotropy :
    (∀ C11 C33 C13 C44 C66 den theta : Dt, fl6 (Anisotropy.Thomsen C11 C33 C13 C44 C66 den theta)
      = Anisotropy.Thomsen C11.toFl C33.toFl C13.toFl C44.toFl C66.toFl den.toFl theta.toFl) ∧
    (∀ C11 C22 C33 C12 C13 C23 C44 C55 C66 : Dt, fl7 (Anisotropy.Thomsen_Tsvankin C11 C22 C33 C12 C13 C23 C44 C55 C66)
      = Anisotropy.Thomsen_Tsvankin C11.toFl C22.toFl C33.toFl C12.toFl C13.toFl C23.toFl C44.toFl C55.toFl C66.toFl) := by
  refine ⟨?_, ?_⟩
  · intros; dt_eval [Anisotropy.Thomsen]
  · intros; dt_eval [Anisotropy.Thomsen_Tsvankin]


example : fl2 (utils.V (int 36) (int 45) (flt 2.65))
    = utils.V (int 36).toFl (int 45).toFl (flt 2.65).toFl := C99_utils.1 _ _ _

/-! ### Functions with branches, loops or arrays -/

theorem PQ_theta_toFl (a : Dt) : (EM.PQ_theta a).toFl = EM.PQ_theta a.toFl := by
  unfold EM.PQ_theta
  rw [apply_ite toFl, lt_toFl, toFl_one]
  split <;> dt_eval []

theorem PQ_core_toFl (Km Gm Ki Gi a t : Dt) : fl2 (EM.PQ_core Km Gm Ki Gi a t)
    = EM.PQ_core Km.toFl Gm.toFl Ki.toFl Gi.toFl a.toFl t.toFl := by
  dt_eval [EM.PQ_core]

theorem PQ_toFl (Km Gm Ki Gi a : Dt) : fl2 (EM.PQ Km Gm Ki Gi a)
    = EM.PQ Km.toFl Gm.toFl Ki.toFl Gi.toFl a.toFl := by
  unfold EM.PQ
  rw [apply_ite fl2, eq_toFl, toFl_one, PQ_core_toFl, PQ_theta_toFl]
  split
  · dt_eval [EM.PQ_sphere]
  · rfl

theorem SC_toFl (phi Ks Gs : Dt) (n : ℕ) :
    fl2 (EM.SC phi Ks Gs n) = EM.SC phi.toFl Ks.toFl Gs.toFl n := by
  induction n with
  | zero => rfl
  | succ n ih =>
    rw [EM.SC, EM.SC, ← ih]
    dt_eval [EM.SC_step]

theorem SC_flex_toFl (f Km Ki Gm Gi : Dt) (n : ℕ) : fl2 (EM.SC_flex f n Km Ki Gm Gi)
    = EM.SC_flex f.toFl n Km.toFl Ki.toFl Gm.toFl Gi.toFl := by
  induction n with
  | zero => rfl
  | succ n ih =>
    rw [EM.SC_flex, EM.SC_flex, ← ih]
    dt_eval [EM.SC_flex_step]

theorem SC_dilute_toFl (Km Gm Ki Gi f : Dt) (mode : String) :
    (EM.SC_dilute Km Gm Ki Gi f mode).map fl2
      = EM.SC_dilute Km.toFl Gm.toFl Ki.toFl Gi.toFl f.toFl mode := by
  unfold EM.SC_dilute
  split_ifs <;> dt_eval [Except.map]

theorem toFl_dot (x y : List Dt) :
    (dot x y).map toFl = dot (x.map toFl) (y.map toFl) := by
  unfold dot
  simp only [List.length_map]
  split
  · simp only [Except.map, toFl_lsum, List.map_zipWith, List.zipWith_map, toFl_mul]
  · rfl

theorem isInt_lsum_cons (a : Dt) (l : List Dt) (h : a.isInt = false) :
    (lsum (a :: l)).isInt = false := by
  show (a + lsum l).isInt = false
  rw [isInt_add, h, Bool.false_and]

theorem toFl_lsum_mul (x y : List Dt) : lsum ((List.zipWith (· * ·) x y).map toFl)
    = lsum (List.zipWith (· * ·) (x.map toFl) (y.map toFl)) := by
  simp only [List.map_zipWith, List.zipWith_map, toFl_mul]

theorem toFl_bzip_mul (x y : List Dt) : (bzip (· * ·) x y).map (List.map toFl)
    = bzip (· * ·) (x.map toFl) (y.map toFl) := by
  unfold bzip
  simp only [List.length_map]
  split_ifs with h
  · simp only [Except.map, List.map_zipWith, List.zipWith_map, toFl_mul]
  · match x, y with
    | [], [] => rfl
    | [], [_] => rfl
    | [], _ :: _ :: _ => rfl
    | [_], [] => rfl
    | [_], [_] => exact absurd rfl h
    | [a], b :: c :: y => simp [Except.map, toFl_mul, Function.comp_def]
    | _ :: _ :: _, [] => rfl
    | a :: b :: x, [c] => simp [Except.map, toFl_mul, Function.comp_def]
    | _ :: _ :: _, _ :: _ :: _ => rfl

theorem map_one_div (x : List Dt) :
    (x.map fun m => 1 / m).map toFl = (x.map toFl).map fun m => 1 / m := by
  simp only [List.map_map, Function.comp_def, toFl_div, toFl_one]

theorem VRH_toFl (v M : List Dt) (h : v ≠ []) :
    (EM.VRH v M).map fl3 = EM.VRH (v.map toFl) (M.map toFl) := by
  obtain ⟨a, v, rfl⟩ := List.exists_cons_of_ne_nil h
  by_cases hl : (a :: v).length = M.length
  · obtain ⟨b, M, rfl⟩ : ∃ b M', M = b :: M' := by
      cases M with
      | nil => exact absurd hl (by simp)
      | cons b M => exact ⟨b, M, rfl⟩
    have i : (lsum (List.zipWith (· * ·) (a :: v) ((b :: M).map fun m => 1 / m))).isInt = false :=
      isInt_lsum_cons _ _ (by simp only [dt, Bool.and_false])
    unfold EM.VRH dot
    simp only [List.length_map, hl, if_true, except_ok_bind, except_pure]
    simp only [Except.map, fl3, fl2, dt, toFl_inv i, toFl_lsum_mul, map_one_div]
  · unfold EM.VRH dot
    simp only [List.length_map, hl, if_false, fl, Except.map]

theorem contactcement_toFl (K0 G0 Kc Gc phi phic Cn : Dt) (scheme : ℤ) :
    fl2 (GM.contactcement K0 G0 Kc Gc phi phic Cn scheme)
      = GM.contactcement K0.toFl G0.toFl Kc.toFl Gc.toFl phi.toFl phic.toFl Cn.toFl scheme := by
  dt_eval [GM.contactcement]

theorem constantcement_toFl (phi_b K0 G0 Kc Gc phi phic Cn : Dt) (scheme : ℤ) :
    fl2 (GM.constantcement phi_b K0 G0 Kc Gc phi phic Cn scheme)
      = GM.constantcement phi_b.toFl K0.toFl G0.toFl Kc.toFl Gc.toFl phi.toFl phic.toFl Cn.toFl
        scheme := by
  unfold GM.constantcement
  rw [← contactcement_toFl]
  generalize GM.contactcement K0 G0 Kc Gc phi_b phic Cn scheme = b
  dt_eval []

theorem MUHS_toFl (K0 G0 Kc Gc phi phi_b phic Cn : Dt) (scheme : ℤ) :
    fl2 (GM.MUHS K0 G0 Kc Gc phi phi_b phic Cn scheme)
      = GM.MUHS K0.toFl G0.toFl Kc.toFl Gc.toFl phi.toFl phi_b.toFl phic.toFl Cn.toFl scheme := by
  unfold GM.MUHS
  rw [← contactcement_toFl]
  generalize GM.contactcement K0 G0 Kc Gc phi_b phic Cn scheme = b
  dt_eval []

theorem cemented_toFl (K0 G0 phic v_cem v_ci Kc Gc Cn : Dt) (scheme : ℤ) :
    fl2 (GM.cemented K0 G0 phic v_cem v_ci Kc Gc Cn scheme)
      = GM.cemented K0.toFl G0.toFl phic.toFl v_cem.toFl v_ci.toFl Kc.toFl Gc.toFl Cn.toFl
        scheme := by
  unfold GM.cemented
  rw [apply_ite fl2, contactcement_toFl, MUHS_toFl, le_toFl, toFl_sub, toFl_sub]

theorem hertzmindlin_isInt (K0 G0 phic Cn sigma f : Dt) :
    (GM.hertzmindlin K0 G0 phic Cn sigma f).1.isInt = false ∧
      (GM.hertzmindlin K0 G0 phic Cn sigma f).2.isInt = false := by
  constructor <;> dt_eval [GM.hertzmindlin, Bool.and_false]

theorem hertzmindlin_toFl (K0 G0 phic Cn sigma f : Dt) :
    fl2 (GM.hertzmindlin K0 G0 phic Cn sigma f)
      = GM.hertzmindlin K0.toFl G0.toFl phic.toFl Cn.toFl sigma.toFl f.toFl := by
  dt_eval [GM.hertzmindlin]

theorem patchyStiff_toFl (f K G K' G' : Dt) (hK : K.isInt = false) (hG : G.isInt = false) :
    fl2 (GM.patchyStiff f K G K' G')
      = GM.patchyStiff f.toFl K.toFl G.toFl K'.toFl G'.toFl := by
  dt_eval [GM.patchyStiff, toFl_inv (show (K - K').isInt = false by rw [isInt_sub, hK]; rfl),
    toFl_inv (show (G - G').isInt = false by rw [isInt_sub, hG]; rfl)]

theorem patchySoft_toFl (f K G K' G' : Dt) (hK : K.isInt = false) (hG : G.isInt = false) :
    fl2 (GM.patchySoft f K G K' G')
      = GM.patchySoft f.toFl K.toFl G.toFl K'.toFl G'.toFl := by
  dt_eval [GM.patchySoft,
    toFl_inv (show (K' - K).isInt = false by rw [isInt_sub, hK, Bool.and_false]),
    toFl_inv (show (G' - G).isInt = false by rw [isInt_sub, hG, Bool.and_false])]

theorem patchyHS_toFl (K0 G0 phi phic Kp Gp : Dt) :
    fl2 (GM.patchyHS K0 G0 phi phic Kp Gp)
      = GM.patchyHS K0.toFl G0.toFl phi.toFl phic.toFl Kp.toFl Gp.toFl := by
  dt_eval [GM.patchyHS]

theorem pcm_toFl (f sigma K0 G0 phi phic v_cem v_ci Kc Gc Cn f_ : Dt) (mode : String)
    (scheme : ℤ) : fl2 (GM.pcm f sigma K0 G0 phi phic v_cem v_ci Kc Gc Cn mode scheme f_)
      = GM.pcm f.toFl sigma.toFl K0.toFl G0.toFl phi.toFl phic.toFl v_cem.toFl v_ci.toFl Kc.toFl
        Gc.toFl Cn.toFl mode scheme f_.toFl := by
  have i := hertzmindlin_isInt K0 G0 phic Cn sigma f_
  unfold GM.pcm
  rw [← hertzmindlin_toFl, ← cemented_toFl, patchyHS_toFl]
  generalize GM.hertzmindlin K0 G0 phic Cn sigma f_ = u at *
  generalize GM.cemented K0 G0 phic v_cem v_ci Kc Gc Cn scheme = c at *
  have a := patchyStiff_toFl f u.1 u.2 c.1 c.2 i.1 i.2
  have b := patchySoft_toFl f u.1 u.2 c.1 c.2 i.1 i.2
  dsimp only
  by_cases h : mode = "stiff"
  · rw [if_pos h, if_pos h]
    rw [show GM.patchyStiff f.toFl (fl2 u).1 (fl2 u).2 (fl2 c).1 (fl2 c).2 = _ from a.symm]
    rfl
  · rw [if_neg h, if_neg h]
    rw [show GM.patchySoft f.toFl (fl2 u).1 (fl2 u).2 (fl2 c).1 (fl2 c).2 = _ from b.symm]
    rfl

theorem vpcm_toFl (alpha f sigma K0 G0 phi phic v_cem v_ci Kc Gc Cn f_ : Dt) (scheme : ℤ) :
    fl2 (GM.vpcm alpha f sigma K0 G0 phi phic v_cem v_ci Kc Gc Cn scheme f_)
      = GM.vpcm alpha.toFl f.toFl sigma.toFl K0.toFl G0.toFl phi.toFl phic.toFl v_cem.toFl
        v_ci.toFl Kc.toFl Gc.toFl Cn.toFl scheme f_.toFl := by
  have i := hertzmindlin_isInt K0 G0 phic Cn sigma f_
  unfold GM.vpcm
  rw [← hertzmindlin_toFl, ← cemented_toFl, patchyHS_toFl]
  generalize GM.hertzmindlin K0 G0 phic Cn sigma f_ = u at *
  generalize GM.cemented K0 G0 phic v_cem v_ci Kc Gc Cn scheme = c at *
  have a := patchyStiff_toFl f u.1 u.2 c.1 c.2 i.1 i.2
  have b := patchySoft_toFl f u.1 u.2 c.1 c.2 i.1 i.2
  dsimp only
  rw [show GM.patchyStiff f.toFl (fl2 u).1 (fl2 u).2 (fl2 c).1 (fl2 c).2 = _ from a.symm,
    show GM.patchySoft f.toFl (fl2 u).1 (fl2 u).2 (fl2 c).1 (fl2 c).2 = _ from b.symm]
  generalize GM.patchyStiff f u.1 u.2 c.1 c.2 = s
  generalize GM.patchySoft f u.1 u.2 c.1 c.2 = t
  dt_eval []

theorem v_water_toFl (T P : Dt) : (BW.v_water T P).toFl = BW.v_water T.toFl P.toFl := by
  have w : ∀ i j, (BW.waterCoef i j : Dt).toFl = BW.waterCoef i j := by
    intro i j
    fin_cases i <;> fin_cases j <;>
      simp [BW.waterCoef, toFl_neg, toFl_sci]
  unfold BW.v_water
  rw [toFl_lsum, List.map_flatMap]
  simp only [List.map_map, Function.comp_def, toFl_mul, toFl_npow, w]

theorem rho_K_water_toFl (T P : Dt) : fl2 (BW.rho_K_water T P) = BW.rho_K_water T.toFl P.toFl := by
  dt_eval [BW.rho_K_water, v_water_toFl]

theorem rho_K_brine_toFl (T P S : Dt) :
    fl2 (BW.rho_K_brine T P S) = BW.rho_K_brine T.toFl P.toFl S.toFl := by
  dt_eval [BW.rho_K_brine, BW.v_brine, BW.rho_K_water, v_water_toFl]

theorem rho_K_go_toFl (P T den G : Dt) (Rg : Option Dt) : fl2 (BW.rho_K_go P T den G Rg)
    = BW.rho_K_go P.toFl T.toFl den.toFl G.toFl (Rg.map toFl) := by
  cases Rg <;> dt_eval [BW.rho_K_go, Option.map_none, Option.map_some]

theorem rho_K_gas_toFl (P T G : Dt) :
    fl2 (BW.rho_K_gas P T G) = BW.rho_K_gas P.toFl T.toFl G.toFl := by
  dt_eval [BW.rho_K_gas, BW.rho_K_reduced, BW.dz_dp, BW.pseudo_p_t]

theorem rho_K_co2_toFl (P T G : Dt) :
    fl2 (BW.rho_K_co2 P T G) = BW.rho_K_co2 P.toFl T.toFl G.toFl := by
  dt_eval [BW.rho_K_co2, BW.rho_K_reduced, BW.dz_dp]

theorem Brie_toFl (Kw Kg Sw e : Dt) (h : ∀ a b : ℤ, Sw = int a → e = int b → 0 ≤ b) :
    (Fluid.Brie Kw Kg Sw e).toFl = Fluid.Brie Kw.toFl Kg.toFl Sw.toFl e.toFl := by
  unfold Fluid.Brie
  rw [toFl_add, toFl_mul, toFl_rpow h, toFl_sub]

theorem co2_brine_toFl (T P S Sc : Dt) (brie : Option Dt) (bw : Bool)
    (h : ∀ a b : ℤ, Sc = int a → brie = some (int b) → 0 ≤ b) :
    fl2 (BW.co2_brine T P S Sc brie bw)
      = BW.co2_brine T.toFl P.toFl S.toFl Sc.toFl (brie.map toFl) bw := by
  have g : ∀ p : Dt × Dt, (fl2 p).1 = p.1.toFl ∧ (fl2 p).2 = p.2.toFl := fun _ => ⟨rfl, rfl⟩
  have e : (1.5349 : Dt).toFl = 1.5349 := toFl_sci _ _ _
  unfold BW.co2_brine
  dsimp only
  rw [← rho_K_brine_toFl, ← e, ← rho_K_gas_toFl, ← rho_K_co2_toFl, ← apply_ite fl2]
  generalize (if bw = true then _ else _ : Dt × Dt) = c
  generalize BW.rho_K_brine T P S = b
  cases brie with
  | none => dt_eval [Option.map_none]
  | some e =>
    simp only [fl2, dt, Option.map_some]
    rw [Brie_toFl]
    · simp only [dt]
    · intro x y hx hy
      subst hy
      cases Sc with
      | int a => exact h a y rfl rfl
      | flt r => exact absurd (congrArg isInt hx) (by simp [dt])
      | bad =>
        exact absurd (congrArg isInt hx) (by rw [isInt_sub, Bool.and_comm]; exact Bool.false_ne_true)
      | err =>
        exact absurd (congrArg isInt hx) (by rw [isInt_sub, Bool.and_comm]; exact Bool.false_ne_true)

theorem vel_azi_HTI_toFl (C : Mat6 Dt) (D az : Dt) :
    fl3 (Anisotropy.vel_azi_HTI C D az) = Anisotropy.vel_azi_HTI (flM C) D.toFl az.toFl := by
  dt_eval [Anisotropy.vel_azi_HTI]

theorem vel_azi_VTI_toFl (C : Mat6 Dt) (D az : Dt) :
    fl3 (Anisotropy.vel_azi_VTI C D az) = Anisotropy.vel_azi_VTI (flM C) D.toFl az.toFl := by
  dt_eval [Anisotropy.vel_azi_VTI]

theorem AVO_HTI_toFl (D1 D2 : Dt) (C1 C2 : Mat6 Dt) (th az : Dt) :
    (AVO.AVO_HTI_entry D1 D2 C1 C2 th az).toFl
      = AVO.AVO_HTI_entry D1.toFl D2.toFl (flM C1) (flM C2) th.toFl az.toFl := by
  dt_eval [AVO.AVO_HTI_entry]

theorem EI_ref_entry_toFl (ipn isn mVp mVs mrho Vp Vs rho theta SP : Dt) (norm : Bool)
    (h : norm = true ∨ rho.isInt = false) :
    fl5 (AVO.EI_ref_entry ipn isn mVp mVs mrho norm Vp Vs rho theta SP)
      = AVO.EI_ref_entry ipn.toFl isn.toFl mVp.toFl mVs.toFl mrho.toFl norm Vp.toFl Vs.toFl
        rho.toFl theta.toFl SP.toFl := by
  have h' : (if norm = true then rho / mrho else rho).isInt = false := by
    rcases h with rfl | h
    · exact isInt_div _ _
    · split
      · exact isInt_div _ _
      · exact h
  dt_eval [AVO.EI_ref_entry, toFl_inv h']

theorem hudson_toFl (K G Ki Gi alpha crd : Dt) (order axis : ℤ) :
    (EM.hudson K G Ki Gi alpha crd order axis).map flM
      = EM.hudson K.toFl G.toFl Ki.toFl Gi.toFl alpha.toFl crd.toFl order axis := by
  have c : (EM.hudson_consts K G Ki Gi alpha crd order).map fl5
      = EM.hudson_consts K.toFl G.toFl Ki.toFl Gi.toFl alpha.toFl crd.toFl order := by
    unfold EM.hudson_consts
    split_ifs <;> dt_eval [Except.map, EM.hudson_U1, EM.hudson_U3, EM.hudson_M, EM.hudson_kapa]
  have m : ∀ c : Dt × Dt × Dt × Dt × Dt, (EM.hudson_matrix c axis).map flM
      = EM.hudson_matrix (fl5 c) axis := by
    rintro ⟨C11, C13, C33, C44, C66⟩
    unfold EM.hudson_matrix
    simp only [fl5, fl4, fl3, fl2]
    split_ifs
    · simp only [Except.map]
      rw [C99_utils.2.2.2.2.2.2.1]
    · simp only [Except.map]
      rw [C99_utils.2.2.2.2.1]
    · rfl
  unfold EM.hudson
  rw [← c]
  cases EM.hudson_consts K G Ki Gi alpha crd order with
  | error e => rfl
  | ok v => exact m v

theorem hudson_ortho_toFl (K G Ki Gi : Dt) (alpha crd : Fin 3 → Dt) :
    flM (EM.hudson_ortho K G Ki Gi alpha crd)
      = EM.hudson_ortho K.toFl G.toFl Ki.toFl Gi.toFl (fun i => (alpha i).toFl)
        fun i => (crd i).toFl := by
  unfold EM.hudson_ortho
  dsimp only
  rw [C99_utils.2.2.2.2.2.2.2.1]
  dt_eval [EM.hudson_U1, EM.hudson_U3, EM.hudson_M, EM.hudson_kapa]

theorem toFl_matmul6 (A B : Mat6 Dt) : flM (matmul6 A B) = matmul6 (flM A) (flM B) := by
  funext i j
  dt_eval [matmul6]

theorem flM_transpose (A : Mat6 Dt) : flM A.transpose = (flM A).transpose := rfl

theorem bondMatrix_toFl (a b c d e f g h i : Dt) : flM (Anisotropy.bondMatrix a b c d e f g h i)
    = Anisotropy.bondMatrix a.toFl b.toFl c.toFl d.toFl e.toFl f.toFl g.toFl h.toFl i.toFl := by
  funext i j
  fin_cases i <;> fin_cases j <;> dt_eval [Anisotropy.bondMatrix, Fin.isValue, Fin.zero_eta,
    Fin.mk_one, Fin.reduceFinMk, Matrix.cons_val]

theorem Bond_trans_toFl (C : Mat6 Dt) (theta : Dt) (axis : ℤ) :
    (Anisotropy.Bond_trans C theta axis).map flM
      = Anisotropy.Bond_trans (flM C) theta.toFl axis := by
  unfold Anisotropy.Bond_trans
  split_ifs
  · simp only [except_ok_bind, except_pure, Except.map, toFl_matmul6, flM_transpose,
      bondMatrix_toFl, dt]
  · simp only [except_ok_bind, except_pure, Except.map, toFl_matmul6, flM_transpose,
      bondMatrix_toFl, dt]
  · rfl

theorem bzip_toFl {f : Dt → Dt → Dt} {g : Fl → Fl → Fl}
    (h : ∀ a b, (f a b).toFl = g a.toFl b.toFl) (x y : List Dt) :
    (bzip f x y).map (List.map toFl) = bzip g (x.map toFl) (y.map toFl) := by
  unfold bzip
  simp only [List.length_map]
  split
  · simp only [Except.map, List.map_zipWith, List.zipWith_map, h]
  · match x, y with
    | [a], [] => simp [Except.map]
    | [a], b :: y => simp [Except.map, h]
    | [], [b] => simp [Except.map]
    | a :: a' :: x, [b] => simp [Except.map, h]
    | [], [] => rfl
    | [], _ :: _ :: _ => rfl
    | _ :: _ :: _, [] => rfl
    | _ :: _ :: _, _ :: _ :: _ => rfl

theorem dot_isInt {V l : List Dt} {s v : Dt} (hV : V ≠ [])
    (h : dot (V.map (· / s)) l = .ok v) : v.isInt = false := by
  obtain ⟨a, V, rfl⟩ := List.exists_cons_of_ne_nil hV
  unfold dot at h
  split at h
  · rename_i hl
    obtain ⟨b, l, rfl⟩ : ∃ b l', l = b :: l' := by
      cases l with
      | nil => exact absurd hl (by simp)
      | cons b l => exact ⟨b, l, rfl⟩
    injection h with h
    rw [← h]
    exact isInt_lsum_cons _ _ (by rw [isInt_mul, isInt_div]; rfl)
  · exact absurd h (by simp)

theorem Backus_toFl (V lamda G : List Dt) (hV : V ≠ []) :
    (Anisotropy.Backus V lamda G).map fl5
      = Anisotropy.Backus (V.map toFl) (lamda.map toFl) (G.map toFl) := by
  have hW : (V.map (· / lsum V)).map toFl
      = (V.map toFl).map (· / lsum (V.map toFl)) := by
    simp only [List.map_map, Function.comp_def, toFl_div, toFl_lsum]
  have i : ∀ l v, dot (V.map (· / lsum V)) l = .ok v → v.isInt = false :=
    fun l v => dot_isInt hV
  have b1 := bzip_toFl (f := fun l g => 1 / (l + 2 * g)) (g := fun l g => 1 / (l + 2 * g))
    (fun a b => by simp only [dt]) lamda G
  have b2 := bzip_toFl (f := fun l g => l / (l + 2 * g)) (g := fun l g => l / (l + 2 * g))
    (fun a b => by simp only [dt]) lamda G
  have b3 := bzip_toFl (f := fun l g => 4 * g * (l + g) / (l + 2 * g))
    (g := fun l g => 4 * g * (l + g) / (l + 2 * g)) (fun a b => by simp only [dt]) lamda G
  unfold Anisotropy.Backus
  dsimp only
  rw [← b1, ← b2, ← b3, ← hW, ← map_one_div]
  generalize V.map (· / lsum V) = W at *
  cases bzip (fun l g => 1 / (l + 2 * g)) lamda G with
  | error e => rfl
  | ok x1 =>
  cases bzip (fun l g => l / (l + 2 * g)) lamda G with
  | error e =>
    simp only [Except.map, except_ok_bind, except_error_bind]
    rw [← toFl_dot, ← toFl_dot, ← toFl_dot]
    cases dot W x1 <;> cases dot W (G.map fun g => 1 / g) <;> cases dot W G <;> rfl
  | ok x2 =>
  cases bzip (fun l g => 4 * g * (l + g) / (l + 2 * g)) lamda G with
  | error e =>
    simp only [Except.map, except_ok_bind, except_error_bind]
    rw [← toFl_dot, ← toFl_dot, ← toFl_dot, ← toFl_dot]
    cases dot W x1 <;> cases dot W (G.map fun g => 1 / g) <;> cases dot W G <;> cases dot W x2 <;> rfl
  | ok x3 =>
  simp only [Except.map, except_ok_bind]
  rw [← toFl_dot, ← toFl_dot, ← toFl_dot, ← toFl_dot, ← toFl_dot]
  cases h1 : dot W x1 with
  | error e => rfl
  | ok v1 =>
  cases h2 : dot W (G.map fun g => 1 / g) with
  | error e => rfl
  | ok v2 =>
  cases h3 : dot W G with
  | error e => rfl
  | ok v3 =>
  cases h4 : dot W x2 with
  | error e => rfl
  | ok v4 =>
  cases h5 : dot W x3 with
  | error e => rfl
  | ok v5 =>
  have i1 := i _ _ h1
  have i2 := i _ _ h2
  simp only [Except.map, except_ok_bind, except_pure, fl5, fl4, fl3, fl2, dt, toFl_inv i1,
    toFl_inv i2]

/-- Functions of `EM` with branches, loops, arrays and exceptions: the same numbers and the same
exceptions. -/
theorem C99_EM_loops :
    (∀ Km Gm Ki Gi a : Dt, fl2 (EM.PQ Km Gm Ki Gi a)
      = EM.PQ Km.toFl Gm.toFl Ki.toFl Gi.toFl a.toFl) ∧
    (∀ (phi Ks Gs : Dt) (n : ℕ), fl2 (EM.SC phi Ks Gs n) = EM.SC phi.toFl Ks.toFl Gs.toFl n) ∧
    (∀ (f Km Ki Gm Gi : Dt) (n : ℕ), fl2 (EM.SC_flex f n Km Ki Gm Gi)
      = EM.SC_flex f.toFl n Km.toFl Ki.toFl Gm.toFl Gi.toFl) ∧
    (∀ (Km Gm Ki Gi f : Dt) (mode : String), (EM.SC_dilute Km Gm Ki Gi f mode).map fl2
      = EM.SC_dilute Km.toFl Gm.toFl Ki.toFl Gi.toFl f.toFl mode) ∧
    (∀ v M : List Dt, v ≠ [] → (EM.VRH v M).map fl3 = EM.VRH (v.map toFl) (M.map toFl)) ∧
    (∀ (K G Ki Gi alpha crd : Dt) (order axis : ℤ),
      (EM.hudson K G Ki Gi alpha crd order axis).map flM
        = EM.hudson K.toFl G.toFl Ki.toFl Gi.toFl alpha.toFl crd.toFl order axis) ∧
    (∀ (K G Ki Gi : Dt) (alpha crd : Fin 3 → Dt), flM (EM.hudson_ortho K G Ki Gi alpha crd)
      = EM.hudson_ortho K.toFl G.toFl Ki.toFl Gi.toFl (fun i => (alpha i).toFl)
        fun i => (crd i).toFl) :=
  ⟨PQ_toFl, SC_toFl, SC_flex_toFl, SC_dilute_toFl, VRH_toFl, hudson_toFl, hudson_ortho_toFl⟩

/-- The cemented rocks of `GM`. -/
theorem C99_GM_cement :
    (∀ (phi_b K0 G0 Kc Gc phi phic Cn : Dt) (scheme : ℤ),
      fl2 (GM.constantcement phi_b K0 G0 Kc Gc phi phic Cn scheme)
        = GM.constantcement phi_b.toFl K0.toFl G0.toFl Kc.toFl Gc.toFl phi.toFl phic.toFl Cn.toFl
          scheme) ∧
    (∀ (K0 G0 Kc Gc phi phi_b phic Cn : Dt) (scheme : ℤ),
      fl2 (GM.MUHS K0 G0 Kc Gc phi phi_b phic Cn scheme)
        = GM.MUHS K0.toFl G0.toFl Kc.toFl Gc.toFl phi.toFl phi_b.toFl phic.toFl Cn.toFl scheme) ∧
    (∀ (f sigma K0 G0 phi phic v_cem v_ci Kc Gc Cn f_ : Dt) (mode : String) (scheme : ℤ),
      fl2 (GM.pcm f sigma K0 G0 phi phic v_cem v_ci Kc Gc Cn mode scheme f_)
        = GM.pcm f.toFl sigma.toFl K0.toFl G0.toFl phi.toFl phic.toFl v_cem.toFl v_ci.toFl Kc.toFl
          Gc.toFl Cn.toFl mode scheme f_.toFl) ∧
    (∀ (alpha f sigma K0 G0 phi phic v_cem v_ci Kc Gc Cn f_ : Dt) (scheme : ℤ),
      fl2 (GM.vpcm alpha f sigma K0 G0 phi phic v_cem v_ci Kc Gc Cn scheme f_)
        = GM.vpcm alpha.toFl f.toFl sigma.toFl K0.toFl G0.toFl phi.toFl phic.toFl v_cem.toFl
          v_ci.toFl Kc.toFl Gc.toFl Cn.toFl scheme f_.toFl) :=
  ⟨constantcement_toFl, MUHS_toFl, pcm_toFl, vpcm_toFl⟩

/-- Fluids with optional arguments and the polynomial of the water velocity. -/
theorem C99_BW_mixtures :
    (∀ T P : Dt, fl2 (BW.rho_K_water T P) = BW.rho_K_water T.toFl P.toFl) ∧
    (∀ T P S : Dt, fl2 (BW.rho_K_brine T P S) = BW.rho_K_brine T.toFl P.toFl S.toFl) ∧
    (∀ (P T den G : Dt) (Rg : Option Dt), fl2 (BW.rho_K_go P T den G Rg)
      = BW.rho_K_go P.toFl T.toFl den.toFl G.toFl (Rg.map toFl)) ∧
    (∀ (T P S Sc : Dt) (brie : Option Dt) (bw : Bool),
      (∀ a b : ℤ, Sc = int a → brie = some (int b) → 0 ≤ b) →
      fl2 (BW.co2_brine T P S Sc brie bw)
        = BW.co2_brine T.toFl P.toFl S.toFl Sc.toFl (brie.map toFl) bw) :=
  ⟨rho_K_water_toFl, rho_K_brine_toFl, rho_K_go_toFl, co2_brine_toFl⟩

/-- Functions of stiffness matrices and of layers. -/
theorem C99_matrices :
    (∀ (C : Mat6 Dt) (D az : Dt), fl3 (Anisotropy.vel_azi_HTI C D az)
      = Anisotropy.vel_azi_HTI (flM C) D.toFl az.toFl) ∧
    (∀ (C : Mat6 Dt) (D az : Dt), fl3 (Anisotropy.vel_azi_VTI C D az)
      = Anisotropy.vel_azi_VTI (flM C) D.toFl az.toFl) ∧
    (∀ (C : Mat6 Dt) (theta : Dt) (axis : ℤ), (Anisotropy.Bond_trans C theta axis).map flM
      = Anisotropy.Bond_trans (flM C) theta.toFl axis) ∧
    (∀ V lamda G : List Dt, V ≠ [] → (Anisotropy.Backus V lamda G).map fl5
      = Anisotropy.Backus (V.map toFl) (lamda.map toFl) (G.map toFl)) ∧
    (∀ (D1 D2 : Dt) (C1 C2 : Mat6 Dt) (th az : Dt),
      (AVO.AVO_HTI_entry D1 D2 C1 C2 th az).toFl
        = AVO.AVO_HTI_entry D1.toFl D2.toFl (flM C1) (flM C2) th.toFl az.toFl) :=
  ⟨vel_azi_HTI_toFl, vel_azi_VTI_toFl, Bond_trans_toFl, Backus_toFl, AVO_HTI_toFl⟩

/-! ### Where integers make a difference -/

/-- `HS`: with integer arrays of both bulk moduli, or of both shear moduli, the call raises
`ValueError`; otherwise the numbers are those of floats. -/
theorem C99_HS (f K1 K2 G1 G2 : Dt) (b : String) :
    (K1.isInt = true → K2.isInt = true → (EM.HS f K1 K2 G1 G2 b).1 = err) ∧
    (G1.isInt = true → G2.isInt = true → (EM.HS f K1 K2 G1 G2 b).2 = err) ∧
    ((K1.isInt && K2.isInt) = false → (G1.isInt && G2.isInt) = false →
      fl2 (EM.HS f K1 K2 G1 G2 b)
        = EM.HS f.toFl K1.toFl K2.toFl G1.toFl G2.toFl b) := by
  unfold EM.HS
  refine ⟨fun h1 h2 => ?_, fun h1 h2 => ?_, fun h1 h2 => ?_⟩
  · split_ifs
    · simp only [inv_err (show (K2 - K1).isInt = true by rw [isInt_sub, h1, h2]; rfl), dt]
    · simp only [inv_err (show (K1 - K2).isInt = true by rw [isInt_sub, h1, h2]; rfl), dt]
  · split_ifs
    · simp only [inv_err (show (G2 - G1).isInt = true by rw [isInt_sub, h1, h2]; rfl), dt]
    · simp only [inv_err (show (G1 - G2).isInt = true by rw [isInt_sub, h1, h2]; rfl), dt]
  · split_ifs
    · dt_eval [toFl_inv (show (K2 - K1).isInt = false by rw [isInt_sub, Bool.and_comm, h1]),
        toFl_inv (show (G2 - G1).isInt = false by rw [isInt_sub, Bool.and_comm, h2])]
    · dt_eval [toFl_inv (show (K1 - K2).isInt = false by rw [isInt_sub, h1]),
        toFl_inv (show (G1 - G2).isInt = false by rw [isInt_sub, h2])]

example : (EM.HS (flt 0.5) (int 36) (int 2) (int 45) (int 0) "upper").1 = err :=
  (C99_HS _ _ _ _ _ _).1 rfl rfl
example : ((int 36).isInt && (flt 2.2).isInt) = false := rfl

/-- `Biot_HF` and `Geertsma_Smit_HF`: an integer tortuosity raises `ValueError`; otherwise the
numbers are those of floats. -/
theorem C99_tortuosity (Kdry Gdry K0 Kfl rho0 rhofl phi alpha : Dt) :
    (alpha.isInt = true →
      (Fluid.Biot_HF Kdry Gdry K0 Kfl rho0 rhofl phi alpha).2.2 = err ∧
      (Fluid.Geertsma_Smit_HF Kdry Gdry K0 Kfl rho0 rhofl phi alpha) = (err, err)) ∧
    (alpha.isInt = false →
      fl3 (Fluid.Biot_HF Kdry Gdry K0 Kfl rho0 rhofl phi alpha)
        = Fluid.Biot_HF Kdry.toFl Gdry.toFl K0.toFl Kfl.toFl rho0.toFl rhofl.toFl phi.toFl
          alpha.toFl ∧
      fl2 (Fluid.Geertsma_Smit_HF Kdry Gdry K0 Kfl rho0 rhofl phi alpha)
        = Fluid.Geertsma_Smit_HF Kdry.toFl Gdry.toFl K0.toFl Kfl.toFl rho0.toFl rhofl.toFl
          phi.toFl alpha.toFl) := by
  refine ⟨fun h => ⟨?_, ?_⟩, fun h => ⟨?_, ?_⟩⟩
  · simp only [Fluid.Biot_HF, inv_err h, dt]
    rfl
  · simp only [Fluid.Geertsma_Smit_HF, inv_err h, dt]
    rfl
  · dt_eval [Fluid.Biot_HF, toFl_inv h]
  · dt_eval [Fluid.Geertsma_Smit_HF, toFl_inv h]

/-- `EI_ref`: without normalisation an integer density log raises `ValueError`; otherwise the
numbers are those of floats. -/
theorem C99_EI_ref (ipn isn mVp mVs mrho Vp Vs rho theta SP : Dt) (norm : Bool) :
    (norm = false → rho.isInt = true →
      (AVO.EI_ref_entry ipn isn mVp mVs mrho norm Vp Vs rho theta SP).2.2.2.2 = err) ∧
    (norm = true ∨ rho.isInt = false →
      fl5 (AVO.EI_ref_entry ipn isn mVp mVs mrho norm Vp Vs rho theta SP)
        = AVO.EI_ref_entry ipn.toFl isn.toFl mVp.toFl mVs.toFl mrho.toFl norm Vp.toFl Vs.toFl
          rho.toFl theta.toFl SP.toFl) := by
  refine ⟨?_, EI_ref_entry_toFl _ _ _ _ _ _ _ _ _ _ _⟩
  rintro rfl h
  have e : PyNum.inv rho = err := by
    cases rho with
    | int a => rfl
    | flt _ => exact absurd h (by simp [isInt])
    | bad => exact absurd h (by simp [isInt])
    | err => rfl
  simp only [AVO.EI_ref_entry, Bool.false_eq_true, if_false, e, dt]

/-- `Brie`: an integer saturation raised to a negative integer raises `ValueError`; otherwise the
numbers are those of floats. -/
theorem C99_Brie (Kw Kg Sw e : Dt) :
    (∀ a b : ℤ, Sw = int a → e = int b → b < 0 → Fluid.Brie Kw Kg Sw e = err) ∧
    ((∀ a b : ℤ, Sw = int a → e = int b → 0 ≤ b) →
      (Fluid.Brie Kw Kg Sw e).toFl = Fluid.Brie Kw.toFl Kg.toFl Sw.toFl e.toFl) := by
  refine ⟨?_, Brie_toFl _ _ _ _⟩
  rintro a b rfl rfl hb
  unfold Fluid.Brie
  rw [show (int a : Dt) **. int b = err from if_pos hb, mul_err, err_add]

/-! ### Integer aspect ratios -/

/-- What an integer array of aspect ratios holds after the call: one becomes zero. -/
theorem PQ_alpha_int (as : List ℤ) : EM.PQ_vectorize_alpha (as.map int)
    = (as.map fun a => if a = 1 then 0 else a).map int := by
  unfold EM.PQ_vectorize_alpha
  rw [List.map_map, List.map_map, List.map_inj_left]
  intro a _
  show (if PyNum.eq (int a) 1 = true then _ else _) = int (if a = 1 then 0 else a)
  have e : (PyNum.eq (int a) 1 = true) = (a = 1) := by
    rw [eq_toFl, toFl_one, fl_one]
    simp [toFl, fl]
  simp only [e]
  split
  · show int (trunc (0.999 : ℝ)) = int 0
    congr 1
    unfold trunc
    rw [if_pos (by norm_num), Int.floor_eq_zero_iff]
    norm_num
  · rfl

/-- `PQ_vectorize` with an integer array of aspect ratios: the spheres are evaluated as disks of
aspect ratio zero, and the caller's array holds zero in their place. -/
theorem C99_PQ_vectorize (Km Gm : Dt) (Ki Gi : List Dt) (as : List ℤ)
    (h1 : Gi.length = Ki.length) (h2 : as.length = Ki.length) :
    ∃ P Q as' : List Dt, EM.PQ_vectorize Km Gm Ki Gi (as.map int) = .ok (P, Q, as') ∧
      P.length = as.length ∧ Q.length = as.length ∧
      as' = (as.map fun a => if a = 1 then 0 else a).map int ∧
      ∀ (i : ℕ) (k g : Dt) (a : ℤ), Ki[i]? = some k → Gi[i]? = some g → as[i]? = some a →
        ∃ p q : Dt, P[i]? = some p ∧ Q[i]? = some q ∧
          (p.toFl, q.toFl) = EM.PQ Km.toFl Gm.toFl k.toFl g.toFl
            (.fin ((if a = 1 then 0 else a : ℤ) : ℝ)) := by
  have hp : EM.PQ_vectorize Km Gm Ki Gi (as.map int) = .ok
      ((List.zipWith (fun (kg : Dt × Dt) a => EM.PQ_vectorize_entry Km Gm kg.1 kg.2 a)
        (List.zip Ki Gi) (EM.PQ_vectorize_alpha (as.map int))).map Prod.fst,
       (List.zipWith (fun (kg : Dt × Dt) a => EM.PQ_vectorize_entry Km Gm kg.1 kg.2 a)
        (List.zip Ki Gi) (EM.PQ_vectorize_alpha (as.map int))).map Prod.snd,
       EM.PQ_vectorize_alpha (as.map int)) := by
    exact EM.PQ_vectorize_fit _ _ h1 (by simpa using h2)
  rw [PQ_alpha_int] at hp
  refine ⟨_, _, _, hp, by simp [h1, h2], by simp [h1, h2], rfl, ?_⟩
  intro i k g a hk hg ha
  have z : (List.zip Ki Gi)[i]? = some (k, g) := by
    rw [List.getElem?_zip_eq_some]; exact ⟨hk, hg⟩
  have al : ((as.map fun a => if a = 1 then 0 else a).map int)[i]?
      = some (int (if a = 1 then 0 else a)) := by
    rw [List.getElem?_map, List.getElem?_map, ha]
    rfl
  refine ⟨(EM.PQ Km Gm k g (int (if a = 1 then 0 else a))).1,
    (EM.PQ Km Gm k g (int (if a = 1 then 0 else a))).2, ?_, ?_,
    PQ_toFl Km Gm k g (int (if a = 1 then 0 else a))⟩
  · rw [List.getElem?_map, List.getElem?_zipWith, z, al]
    rfl
  · rw [List.getElem?_map, List.getElem?_zipWith, z, al]
    rfl

theorem PQ_theta_zero : EM.PQ_theta (Fl.fin 0) = Fl.fin 0 := by
  have h : (1.0 : ℝ) - 0 ^ 2 = 1 := by norm_num
  have h2 : (2.0 : ℝ) ≠ 0 := by norm_num
  unfold EM.PQ_theta
  rw [if_pos (by simp only [fl]; norm_num)]
  simp only [fl, h, fl_div h2, fl_sqrt zero_le_one,
    fl_arccos (show (-1 : ℝ) ≤ 0 ∧ (0 : ℝ) ≤ 1 by norm_num), fl_rpow zero_lt_one,
    Real.one_rpow, fl_div one_ne_zero]
  simp

/-- The factors at aspect ratio zero are those of thin disks of the inclusion material. -/
theorem C99_disk (Km Gm Ki Gi : ℝ) (hKm : 0 < Km) (hGm : 0 < Gm) (hKi : 0 < Ki) (hGi : 0 < Gi) :
    EM.PQ (Fl.fin Km) (Fl.fin Gm) (Fl.fin Ki) (Fl.fin Gi) (Fl.fin 0)
      = (Fl.fin ((Km + 4 / 3 * Gi) / (Ki + 4 / 3 * Gi)),
         Fl.fin ((Gm + Gi / 6 * ((9 * Ki + 8 * Gi) / (Ki + 2 * Gi)))
          / (Gi + Gi / 6 * ((9 * Ki + 8 * Gi) / (Ki + 2 * Gi))))) := by
  have d1 : (1.0 : ℝ) = 1 := by norm_num
  have d2 : (2.0 : ℝ) = 2 := by norm_num
  have d3 : (3.0 : ℝ) = 3 := by norm_num
  have d4 : (4.0 : ℝ) = 4 := by norm_num
  have h1 : Km + 4 / 3 * Gm ≠ 0 := by positivity
  have h2 : 3 * Km + 4 * Gm ≠ 0 := by positivity
  have eR : Gm / (Km + 4 / 3 * Gm) = 3 * Gm / (3 * Km + 4 * Gm) := by field
  have hF2 : Gi / Gm + (Ki / Km - Gi / Gm) / 3 * (3 - 4 * (3 * Gm / (3 * Km + 4 * Gm)))
      = (3 * Ki + 4 * Gi) / (3 * Km + 4 * Gm) := by
    field
  have hF3 : 1 + (Gi / Gm - 1) = Gi / Gm := by ring
  have n2 : (2 : ℝ) ≠ 0 := by norm_num
  have n3 : (3 : ℝ) ≠ 0 := by norm_num
  have n4 : (4 : ℝ) ≠ 0 := by norm_num
  have p2 : (3 * Ki + 4 * Gi) / (3 * Km + 4 * Gm) ≠ 0 := by positivity
  have p3 : Gi / Gm ≠ 0 := by positivity
  unfold EM.PQ
  rw [if_neg (by simp only [fl]; norm_num), PQ_theta_zero]
  unfold EM.PQ_core
  simp only [fl, d1, d2, d3, d4, fl_div hKm.ne', fl_div hGm.ne', fl_div n2, fl_div n3, fl_div n4,
    fl_div h1, eR, ne_eq, OfNat.ofNat_ne_zero, not_false_eq_true, zero_pow, sub_zero,
    fl_div one_ne_zero, mul_zero, zero_mul, zero_div, add_zero, zero_add, mul_one, hF2, hF3,
    fl_div p2, fl_div p3, neg_zero, zero_sub]
  have q1 : 3 * Ki + 4 * Gi ≠ 0 := by positivity
  have q2 : Ki + 2 * Gi ≠ 0 := by positivity
  have q3 : Gi + Gi / 6 * ((9 * Ki + 8 * Gi) / (Ki + 2 * Gi))
      = 5 * Gi * (3 * Ki + 4 * Gi) / (6 * (Ki + 2 * Gi)) := by field
  have q4 : Ki + 4 / 3 * Gi = (3 * Ki + 4 * Gi) / 3 := by ring
  rw [q3, q4, Prod.mk.injEq, Fl.fin_inj, Fl.fin_inj]
  constructor <;> field

example : EM.PQ (Fl.fin 36) (Fl.fin 45) (Fl.fin 2.2) (Fl.fin 1) (Fl.fin 0)
    = (Fl.fin ((36 + 4 / 3 * 1) / (2.2 + 4 / 3 * 1)),
      Fl.fin ((45 + 1 / 6 * ((9 * 2.2 + 8 * 1) / (2.2 + 2 * 1)))
        / (1 + 1 / 6 * ((9 * 2.2 + 8 * 1) / (2.2 + 2 * 1))))) :=
  C99_disk _ _ _ _ (by norm_num) (by norm_num) (by norm_num) (by norm_num)

/-- So a sphere of another material given by an integer aspect ratio gets the wrong factor. -/
theorem C99_sphere_lost (Km Gm Ki Gi : ℝ) (hKm : 0 < Km) (hGm : 0 < Gm) (hKi : 0 < Ki)
    (hGi : 0 < Gi) : (EM.PQ (Fl.fin Km) (Fl.fin Gm) (Fl.fin Ki) (Fl.fin Gi) (Fl.fin 0)).1
      = (EM.PQ (Fl.fin Km) (Fl.fin Gm) (Fl.fin Ki) (Fl.fin Gi) (Fl.fin 1)).1 ↔
    Ki = Km ∨ Gi = Gm := by
  have h3 : (3 : ℝ) ≠ 0 := by norm_num
  have h4 : Ki + 4 * Gm / 3 ≠ 0 := by positivity
  have h5 : Ki + 4 / 3 * Gi ≠ 0 := by positivity
  have s : (EM.PQ (Fl.fin Km) (Fl.fin Gm) (Fl.fin Ki) (Fl.fin Gi) (Fl.fin 1)).1
      = Fl.fin ((Km + 4 * Gm / 3) / (Ki + 4 * Gm / 3)) := by
    unfold EM.PQ EM.PQ_sphere
    rw [if_pos (by simp only [fl])]
    simp only [fl, fl_div h3, fl_div h4]
  rw [C99_disk _ _ _ _ hKm hGm hKi hGi, s, Fl.fin_inj, div_eq_div_iff h5 h4]
  constructor
  · intro h
    have : (Ki - Km) * (Gi - Gm) = 0 := by nlinarith
    rcases mul_eq_zero.mp this with h | h
    · exact Or.inl (by linarith)
    · exact Or.inr (by linarith)
  · rintro (rfl | rfl) <;> ring

/-- An empty spherical pore given by an integer aspect ratio has no finite factors. -/
theorem C99_empty_pore (Km Gm : ℝ) (hKm : 0 < Km) (hGm : 0 < Gm) :
    EM.PQ (Fl.fin Km) (Fl.fin Gm) (Fl.fin 0) (Fl.fin 0) (Fl.fin 0) = (Fl.bad, Fl.bad) := by
  have d1 : (1.0 : ℝ) = 1 := by norm_num
  have d2 : (2.0 : ℝ) = 2 := by norm_num
  have d3 : (3.0 : ℝ) = 3 := by norm_num
  have d4 : (4.0 : ℝ) = 4 := by norm_num
  have h1 : Km + 4 / 3 * Gm ≠ 0 := by positivity
  have n2 : (2 : ℝ) ≠ 0 := by norm_num
  have n3 : (3 : ℝ) ≠ 0 := by norm_num
  have n4 : (4 : ℝ) ≠ 0 := by norm_num
  unfold EM.PQ
  rw [if_neg (by simp only [fl]; norm_num), PQ_theta_zero]
  unfold EM.PQ_core
  simp only [fl, d1, d2, d3, d4, fl_div hKm.ne', fl_div hGm.ne', fl_div n2, fl_div n3, fl_div n4,
    fl_div h1, ne_eq, OfNat.ofNat_ne_zero, not_false_eq_true, zero_pow, sub_zero,
    fl_div one_ne_zero, mul_zero, zero_mul, zero_div, add_zero, zero_add, mul_one, neg_zero,
    zero_sub, add_neg_cancel, fl_div_zero]

/-- `Berryman_func` with an integer array of aspect ratios gives the residuals of the floats with
every one replaced by zero, and leaves that array behind. -/
theorem C99_Berryman_func (K_sc G_sc : Dt) (K G X : List Dt) (as : List ℤ) :
    (EM.Berryman_func K_sc G_sc K G X (as.map int)).map
        (fun r => (r.1.toFl, r.2.1.toFl, r.2.2.map toFl))
      = EM.Berryman_func K_sc.toFl G_sc.toFl (K.map toFl) (G.map toFl) (X.map toFl)
          (as.map fun a => Fl.fin ((if a = 1 then 0 else a : ℤ) : ℝ)) := by
  have al : EM.PQ_vectorize_alpha (as.map fun a => Fl.fin ((if a = 1 then 0 else a : ℤ) : ℝ))
      = as.map fun a => Fl.fin ((if a = 1 then 0 else a : ℤ) : ℝ) := by
    unfold EM.PQ_vectorize_alpha
    rw [List.map_map, List.map_inj_left]
    intro a _
    refine if_neg ?_
    simp only [fl]
    split_ifs with h
    · norm_num
    · exact_mod_cast h
  have pq : (EM.PQ_vectorize K_sc G_sc K G (as.map int)).map
        (fun r => (r.1.map toFl, r.2.1.map toFl, r.2.2.map toFl))
      = EM.PQ_vectorize K_sc.toFl G_sc.toFl (K.map toFl) (G.map toFl)
          (as.map fun a => Fl.fin ((if a = 1 then 0 else a : ℤ) : ℝ)) := by
    by_cases ha : as.length = K.length
    · by_cases hG : G.length = K.length
      · rw [EM.PQ_vectorize_fit _ _ hG (by simpa using ha),
          EM.PQ_vectorize_fit _ _ (by simpa using hG) (by simpa using ha), al, PQ_alpha_int]
        have pq : (List.zipWith (fun (kg : Dt × Dt) a => EM.PQ_vectorize_entry K_sc G_sc kg.1 kg.2 a)
              (List.zip K G) ((as.map fun a => if a = 1 then 0 else a).map int)).map fl2
            = List.zipWith (fun (kg : Fl × Fl) a =>
                EM.PQ_vectorize_entry K_sc.toFl G_sc.toFl kg.1 kg.2 a)
              (List.zip (K.map toFl) (G.map toFl))
              (as.map fun a => Fl.fin ((if a = 1 then 0 else a : ℤ) : ℝ)) := by
          rw [List.zip_map, List.map_zipWith, List.map_map, List.zipWith_map_right,
            List.zipWith_map]
          congr 1
          funext kg a
          exact PQ_toFl K_sc G_sc kg.1 kg.2 (int (if a = 1 then 0 else a))
        rw [← pq]
        simp only [Except.map, List.map_map]
        rfl
      · unfold EM.PQ_vectorize
        simp only [List.length_map]
        rw [if_neg (not_not.mpr ha), if_neg (not_not.mpr ha), if_pos hG, if_pos hG]
        rfl
    · unfold EM.PQ_vectorize
      simp only [List.length_map]
      rw [if_pos ha, if_pos ha]
      rfl
  unfold EM.Berryman_func
  rw [← pq]
  cases EM.PQ_vectorize K_sc G_sc K G (as.map int) with
  | error e => rfl
  | ok r =>
    obtain ⟨P, Q, A⟩ := r
    have w : ∀ (s : Dt) (Y : List Dt), (Y.map toFl).map (· - s.toFl) = (Y.map (· - s)).map toFl := by
      intro s Y
      simp only [List.map_map, Function.comp_def, toFl_sub]
    show Except.map _ (bzip (· * ·) X (K.map (· - K_sc)) >>= _)
      = bzip (· * ·) (X.map toFl) ((K.map toFl).map (· - K_sc.toFl)) >>= _
    rw [w, ← toFl_bzip_mul]
    cases bzip (· * ·) X (K.map (· - K_sc)) with
    | error e => rfl
    | ok a =>
    show Except.map _ (bzip (· * ·) a P >>= _) = bzip (· * ·) (a.map toFl) (P.map toFl) >>= _
    rw [← toFl_bzip_mul]
    cases bzip (· * ·) a P with
    | error e => rfl
    | ok b =>
    show Except.map _ (bzip (· * ·) X (G.map (· - G_sc)) >>= _)
      = bzip (· * ·) (X.map toFl) ((G.map toFl).map (· - G_sc.toFl)) >>= _
    rw [w, ← toFl_bzip_mul]
    cases bzip (· * ·) X (G.map (· - G_sc)) with
    | error e => rfl
    | ok a =>
    show Except.map _ (bzip (· * ·) a Q >>= _) = bzip (· * ·) (a.map toFl) (Q.map toFl) >>= _
    rw [← toFl_bzip_mul]
    cases bzip (· * ·) a Q with
    | error e => rfl
    | ok c =>
    show Except.ok _ = Except.ok _
    dsimp only
    rw [toFl_lsum, toFl_lsum]

/-- A filter of integers and of the floats they stand for. -/
theorem map_filter_toFl (p : Dt → Bool) (q : Fl → Bool) (h : ∀ a, p a = q a.toFl) (l : List Dt) :
    (l.filter p).map toFl = (l.map toFl).filter q := by
  rw [List.filter_map]
  congr 1
  congr 1
  funext a
  exact h a

theorem yu_toFl (Z : List Dt) :
    (Empirical.yu_segment_trend Z).map toFl = Empirical.yu_segment_trend (Z.map toFl) := by
  unfold Empirical.yu_segment_trend
  dsimp only
  rw [List.map_append,
    ← map_filter_toFl (fun z => PyNum.le z 2630) _ (fun a => by simp only [dt]),
    ← map_filter_toFl (fun z => PyNum.lt 2630 z) _ (fun a => by simp only [dt])]
  simp only [List.map_map, Function.comp_def, dt]

theorem Japsen_toFl (Z : List Dt) :
    (Empirical.Japsen Z).map toFl = Empirical.Japsen (Z.map toFl) := by
  unfold Empirical.Japsen
  dsimp only
  rw [List.map_append, List.map_append, List.map_append,
    ← map_filter_toFl (fun z => PyNum.lt z 1393) _ (fun a => by simp only [dt]),
    ← map_filter_toFl (fun z => PyNum.le 1393 z && PyNum.lt z 2000) _ (fun a => by simp only [dt]),
    ← map_filter_toFl (fun z => PyNum.le 2000 z && PyNum.lt z 3500) _ (fun a => by simp only [dt]),
    ← map_filter_toFl (fun z => PyNum.le 3500 z && PyNum.lt z 5300) _ (fun a => by simp only [dt])]
  simp only [List.map_map, Function.comp_def, dt]

theorem setMask_toFl (a : List Dt) (m : List Bool) (v : List Dt) :
    (Empirical.setMask a m v).map (List.map toFl)
      = Empirical.setMask (a.map toFl) m (v.map toFl) := by
  fun_induction Empirical.setMask a m v with
  | case1 => rfl
  | case2 => rfl
  | case3 a as v ih =>
    rw [List.map_cons, Empirical.setMask, ← ih]
    cases Empirical.setMask as [] v <;> rfl
  | case4 a as m v ih =>
    rw [List.map_cons, Empirical.setMask, ← ih]
    cases Empirical.setMask as m v <;> rfl
  | case5 a as m x v ih =>
    rw [List.map_cons, List.map_cons, Empirical.setMask, ← ih]
    cases Empirical.setMask as m v <;> rfl
  | case6 => rfl

theorem getMask_toFl (a : List Dt) (m : List Bool) :
    (Empirical.getMask a m).map toFl = Empirical.getMask (a.map toFl) m := by
  induction a generalizing m with
  | nil => cases m <;> rfl
  | cons a as ih =>
    cases m with
    | nil => rfl
    | cons b m => cases b <;> simp [Empirical.getMask, ih]

theorem ramm_segment_toFl (Z : List Dt) :
    (Empirical.ramm_porosity_segment Z).map (List.map toFl)
      = Empirical.ramm_porosity_segment (Z.map toFl) := by
  unfold Empirical.ramm_porosity_segment
  dsimp only
  rw [setMask_toFl, getMask_toFl]
  simp only [List.map_map, List.zipWith_map, Function.comp_def, dt]

theorem johnson_toFl (K0 G0 n phi e ea : Dt) (path : String) :
    (GM.johnson K0 G0 n phi e ea path).map (fun r => (flM r.1, r.2.1.toFl, r.2.2.toFl))
      = GM.johnson K0.toFl G0.toFl n.toFl phi.toFl e.toFl ea.toFl path := by
  unfold GM.johnson
  dsimp only
  have hM : ∀ a b c d e : Dt, flM (utils.write_VTI_matrix a b c d e)
      = utils.write_VTI_matrix a.toFl b.toFl c.toFl d.toFl e.toFl := by
    obtain ⟨_, _, _, _, _, _, h, _⟩ := C99_utils
    exact h
  split_ifs <;> simp only [Except.map, hM] <;> dt_eval [utils.poi]

theorem DEM_toFl (Ke Ge t Gi Ki a : Dt) : fl2 (EM.DEM Ke Ge t Gi Ki a)
    = EM.DEM Ke.toFl Ge.toFl t.toFl Gi.toFl Ki.toFl a.toFl := by
  unfold EM.DEM
  dsimp only
  rw [← PQ_toFl]
  dt_eval []

/-- The remaining formulas: depth trends with several segments, the anisotropic squirt, the stressed
sphere pack, the right-hand side of the differential effective medium, the rock physics
template. -/
theorem C99_rest :
    (∀ Z : List Dt, (Empirical.yu_segment_trend Z).map toFl
      = Empirical.yu_segment_trend (Z.map toFl)) ∧
    (∀ Z : List Dt, (Empirical.Japsen Z).map toFl = Empirical.Japsen (Z.map toFl)) ∧
    (∀ Z : List Dt, (Empirical.ramm_porosity_segment Z).map (List.map toFl)
      = Empirical.ramm_porosity_segment (Z.map toFl)) ∧
    (∀ (Z : Dt) (HB : Bool), (Empirical.ramm_porosity Z HB).toFl
      = Empirical.ramm_porosity Z.toFl HB) ∧
    (∀ (Pe : Dt) (sample : ℤ), (Empirical.empirical_StPeter Pe sample).map fl2
      = Empirical.empirical_StPeter Pe.toFl sample) ∧
    (∀ S T : Fin 5 → Dt, (fun i => (Fluid.Squirt_anisotropic S T i).toFl)
      = Fluid.Squirt_anisotropic (fun i => (S i).toFl) fun i => (T i).toFl) ∧
    (∀ (K0 G0 n phi e ea : Dt) (path : String),
      (GM.johnson K0 G0 n phi e ea path).map (fun r => (flM r.1, r.2.1.toFl, r.2.2.toFl))
        = GM.johnson K0.toFl G0.toFl n.toFl phi.toFl e.toFl ea.toFl path) ∧
    (∀ Ke Ge t Gi Ki a : Dt, fl2 (EM.DEM Ke Ge t Gi Ki a)
      = EM.DEM Ke.toFl Ge.toFl t.toFl Gi.toFl Ki.toFl a.toFl) ∧
    (∀ nu D crd nu0 w : Dt, fl2 (EM.OC_R_funcs nu D crd nu0 w)
      = EM.OC_R_funcs nu.toFl D.toFl crd.toFl nu0.toFl w.toFl) ∧
    (∀ Kdry Gdry K0 D0 Kb Db Khc Dhc phi sw : Dt,
      fl2 (QI.rpt_entry Kdry Gdry K0 D0 Kb Db Khc Dhc phi sw)
        = QI.rpt_entry Kdry.toFl Gdry.toFl K0.toFl D0.toFl Kb.toFl Db.toFl Khc.toFl Dhc.toFl
          phi.toFl sw.toFl) := by
  refine ⟨yu_toFl, Japsen_toFl, ramm_segment_toFl, ?_, ?_, ?_, johnson_toFl, DEM_toFl, ?_, ?_⟩
  · intro Z HB
    cases HB <;> dt_eval [Empirical.ramm_porosity]
  · intro Pe s
    unfold Empirical.empirical_StPeter
    split_ifs <;> dt_eval [Except.map]
  · intro S T
    funext i
    fin_cases i <;> dt_eval [Fluid.Squirt_anisotropic, Fin.isValue, Fin.zero_eta, Fin.mk_one,
      Fin.reduceFinMk, Matrix.cons_val]
  · intros; dt_eval [EM.OC_R_funcs]
  · intros; dt_eval [QI.rpt_entry, Fluid.vels, Fluid.Gassmann, utils.V]

/-- Depths 1000 m and 3000 m as integers. -/
example : (Empirical.yu_segment_trend [int 1000, int 3000]).map toFl
    = Empirical.yu_segment_trend [Fl.fin 1000, Fl.fin 3000] := by
  rw [C99_rest.1]
  norm_num [toFl]

end RockPhy.Props
