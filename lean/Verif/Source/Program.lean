import Verif.Source.Utils
import Verif.Source.EM
import Verif.Source.AVO
import Verif.Source.Anisotropy
import Verif.Source.BW
import Verif.Source.Fluid
import Verif.Source.GM
import Verif.Source.Emp
import Verif.Source.Perm
import Verif.Source.QI

/-! # The functions of the package

Written by `tools/source.py`; do not edit. -/

namespace RockPhy.Source

open RockPhy.Py

/-- Every function of the package that is not a plot, by its name. -/
def program : List (Name × Fun) := [
  (n!"utils.V", utils.V),
  (n!"utils.poi", utils.poi),
  (n!"utils.lame", utils.lame),
  (n!"utils.M_from_V", utils.M_from_V),
  (n!"utils.write_HTI_matrix", utils.write_HTI_matrix),
  (n!"utils.write_VTI_compliance", utils.write_VTI_compliance),
  (n!"utils.write_VTI_matrix", utils.write_VTI_matrix),
  (n!"utils.write_matrix", utils.write_matrix),
  (n!"utils.write_iso", utils.write_iso),
  (n!"utils.crack_por", utils.crack_por),
  (n!"utils.v_to_c_VTI", utils.v_to_c_VTI),
  (n!"EM.VRH", EM.VRH),
  (n!"EM.cripor", EM.cripor),
  (n!"EM.cripor_reuss", EM.cripor_reuss),
  (n!"EM.HS", EM.HS),
  (n!"EM.Eshelby_Cheng", EM.Eshelby_Cheng),
  (n!"EM.hudson", EM.hudson),
  (n!"EM.hudson_rand", EM.hudson_rand),
  (n!"EM.hudson_ortho", EM.hudson_ortho),
  (n!"EM.hudson_cone", EM.hudson_cone),
  (n!"EM.Berryman_sc", EM.Berryman_sc),
  (n!"EM.PQ_vectorize", EM.PQ_vectorize),
  (n!"EM.Berryman_func", EM.Berryman_func),
  (n!"EM.Swiss_cheese", EM.Swiss_cheese),
  (n!"EM.SC", EM.SC),
  (n!"EM.Dilute_crack", EM.Dilute_crack),
  (n!"EM.OConnell_Budiansky", EM.OConnell_Budiansky),
  (n!"EM.OConnell_Budiansky_fl", EM.OConnell_Budiansky_fl),
  (n!"EM.OC_R_funcs", EM.OC_R_funcs),
  (n!"EM.PQ", EM.PQ),
  (n!"EM.DEM", EM.DEM),
  (n!"EM.Berryman_DEM", EM.Berryman_DEM),
  (n!"EM.SC_dilute", EM.SC_dilute),
  (n!"EM.SC_flex", EM.SC_flex),
  (n!"EM.MT_average", EM.MT_average),
  (n!"AVO.AVO_HTI", AVO.AVO_HTI),
  (n!"AVO.Aki_Richards", AVO.Aki_Richards),
  (n!"AVO.zoeppritz", AVO.zoeppritz),
  (n!"AVO.AVO_abe", AVO.AVO_abe),
  (n!"AVO.EI_ref", AVO.EI_ref),
  (n!"AVO.AVO_ortho", AVO.AVO_ortho),
  (n!"Anisotropy.Thomsen", Anisotropy.Thomsen),
  (n!"Anisotropy.Thomsen_Tsvankin", Anisotropy.Thomsen_Tsvankin),
  (n!"Anisotropy.Backus", Anisotropy.Backus),
  (n!"Anisotropy.Backus_log", Anisotropy.Backus_log),
  (n!"Anisotropy.vel_azi_HTI", Anisotropy.vel_azi_HTI),
  (n!"Anisotropy.vel_azi_VTI", Anisotropy.vel_azi_VTI),
  (n!"Anisotropy.Bond_trans", Anisotropy.Bond_trans),
  (n!"BW.dz_dp", BW.dz_dp),
  (n!"BW.pseudo_p_t", BW.pseudo_p_t),
  (n!"BW.rho_K_co2", BW.rho_K_co2),
  (n!"BW.rho_K_gas", BW.rho_K_gas),
  (n!"BW.rho_K_oil", BW.rho_K_oil),
  (n!"BW.rho_K_go", BW.rho_K_go),
  (n!"BW.rho_K_water", BW.rho_K_water),
  (n!"BW.v_water", BW.v_water),
  (n!"BW.rho_K_brine", BW.rho_K_brine),
  (n!"BW.v_brine", BW.v_brine),
  (n!"BW.co2_brine", BW.co2_brine),
  (n!"Fluid.Brie", Fluid.Brie),
  (n!"Fluid.Biot", Fluid.Biot),
  (n!"Fluid.Biot_HF", Fluid.Biot_HF),
  (n!"Fluid.Geertsma_Smit_HF", Fluid.Geertsma_Smit_HF),
  (n!"Fluid.Geertsma_Smit_LF", Fluid.Geertsma_Smit_LF),
  (n!"Fluid.Gassmann", Fluid.Gassmann),
  (n!"Fluid.Gassmann_sub", Fluid.Gassmann_sub),
  (n!"Fluid.vels", Fluid.vels),
  (n!"Fluid.Gassmann_vels", Fluid.Gassmann_vels),
  (n!"Fluid.Gassmann_approx", Fluid.Gassmann_approx),
  (n!"Fluid.Brown_Korringa_dry2sat", Fluid.Brown_Korringa_dry2sat),
  (n!"Fluid.Brown_Korringa_sat2dry", Fluid.Brown_Korringa_sat2dry),
  (n!"Fluid.Brown_Korringa_sub", Fluid.Brown_Korringa_sub),
  (n!"Fluid.Mavko_Jizba", Fluid.Mavko_Jizba),
  (n!"Fluid.Squirt_anisotropic", Fluid.Squirt_anisotropic),
  (n!"Fluid.White_Dutta_Ode", Fluid.White_Dutta_Ode),
  (n!"GM.ThomasStieber", GM.ThomasStieber),
  (n!"GM.silty_shale", GM.silty_shale),
  (n!"GM.shaly_sand", GM.shaly_sand),
  (n!"GM.contactcement", GM.contactcement),
  (n!"GM.hertzmindlin", GM.hertzmindlin),
  (n!"GM.softsand", GM.softsand),
  (n!"GM.Walton", GM.Walton),
  (n!"GM.johnson", GM.johnson),
  (n!"GM.stiffsand", GM.stiffsand),
  (n!"GM.constantcement", GM.constantcement),
  (n!"GM.MUHS", GM.MUHS),
  (n!"GM.Digby", GM.Digby),
  (n!"GM.pcm", GM.pcm),
  (n!"GM.diluting", GM.diluting),
  (n!"GM.vpcm", GM.vpcm),
  (n!"Empirical.krief", Empirical.krief),
  (n!"Empirical.esti_VS", Empirical.esti_VS),
  (n!"Empirical.han", Empirical.han),
  (n!"Empirical.ehrenberg", Empirical.ehrenberg),
  (n!"Empirical.yu_segment_trend", Empirical.yu_segment_trend),
  (n!"Empirical.ramm_porosity", Empirical.ramm_porosity),
  (n!"Empirical.ramm_porosity_segment", Empirical.ramm_porosity_segment),
  (n!"Empirical.empirical_StPeter", Empirical.empirical_StPeter),
  (n!"Empirical.Scherbaum", Empirical.Scherbaum),
  (n!"Empirical.Sclater", Empirical.Sclater),
  (n!"Empirical.Storvoll", Empirical.Storvoll),
  (n!"Empirical.Hillis", Empirical.Hillis),
  (n!"Empirical.Japsen", Empirical.Japsen),
  (n!"Empirical.hjelstuen", Empirical.hjelstuen),
  (n!"Empirical.Cp", Empirical.Cp),
  (n!"Permeability.Kozeny_Carman", Permeability.Kozeny_Carman),
  (n!"Permeability.Kozeny_Carman_Percolation", Permeability.Kozeny_Carman_Percolation),
  (n!"Permeability.Owolabi", Permeability.Owolabi),
  (n!"Permeability.Perm_logs", Permeability.Perm_logs),
  (n!"Permeability.Panda_Lake", Permeability.Panda_Lake),
  (n!"Permeability.Panda_Lake_cem", Permeability.Panda_Lake_cem),
  (n!"Permeability.Revil", Permeability.Revil),
  (n!"Permeability.Fredrich", Permeability.Fredrich),
  (n!"Permeability.Bloch", Permeability.Bloch),
  (n!"Permeability.Bernabe", Permeability.Bernabe),
  (n!"QI.matrix_modulus", QI.matrix_modulus),
  (n!"QI.den_matrix", QI.den_matrix),
  (n!"QI.screening", QI.screening),
  (n!"QI.normalize", QI.normalize),
  (n!"QI.cst_vels", QI.cst_vels),
  (n!"QI.cal_v_const", QI.cal_v_const)]

/-- The methods of objects and the plots, by their names. -/
def methods : List (Name × Fun) := [
  (n!"QI.__init__", QI.init),
  (n!"QI.screening_plot", QI.screening_plot),
  (n!"QI.kde_plot", QI.kde_plot),
  (n!"QI.cst_plot", QI.cst_plot),
  (n!"QI.estimate_cem", QI.estimate_cem),
  (n!"QI.cement_diag_plot", QI.cement_diag_plot),
  (n!"QI.plot_rpt", QI.plot_rpt)]

end RockPhy.Source
