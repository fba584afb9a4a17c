import Verif.Lemmas.Missing
import Verif.Model.Utils
import Verif.Model.EM
import Verif.Model.GM
import Verif.Model.Fluid
import Verif.Model.Anisotropy
import Verif.Model.AVO
import Verif.Model.BW
import Verif.Model.Emp
import Verif.Model.Perm
import Verif.Model.QI

/-!
# C110: a missing value stays missing

For every function and every result: the arguments for which a `nan` makes the result `nan` (or makes
the function raise), and the arguments on which the result does not depend at all.  Arguments that are
in neither list need a condition: `Verif/Props/MissingCond.lean`.
-/

namespace RockPhy.Props

open Spec HasNaN

variable {α : Type} [HasNaN α]

/-! ## `utils` -/

theorem C110_utils_V (K G rho : α) :
    (K = nan ∨ G = nan ∨ rho = nan → (utils.V K G rho).1 = nan)
    ∧ (G = nan ∨ rho = nan → (utils.V K G rho).2 = nan)
    ∧ (∀ y, (utils.V y G rho).2 = (utils.V K G rho).2) := by
  refine ⟨?_, ?_, ?_⟩
  · nan_any [utils.V]
  · nan_any [utils.V]
  · exact fun _ => rfl

theorem C110_utils_poi (K G : α) :
    (K = nan ∨ G = nan → utils.poi K G = nan) := by
  nan_any [utils.poi]

theorem C110_utils_lame (K G : α) :
    (K = nan ∨ G = nan → utils.lame K G = nan) := by
  nan_any [utils.lame]

theorem C110_utils_M_from_V (den vp vs : α) :
    (den = nan ∨ vp = nan ∨ vs = nan → (utils.M_from_V den vp vs).1 = nan)
    ∧ (den = nan ∨ vs = nan → (utils.M_from_V den vp vs).2 = nan)
    ∧ (∀ y, (utils.M_from_V den y vs).2 = (utils.M_from_V den vp vs).2) := by
  refine ⟨?_, ?_, ?_⟩
  · nan_any [utils.M_from_V]
  · nan_any [utils.M_from_V]
  · exact fun _ => rfl

theorem C110_utils_crack_por (crd alpha : α) :
    (crd = nan ∨ alpha = nan → utils.crack_por crd alpha = nan) := by
  nan_any [utils.crack_por]

/-! ## `EM` -/

theorem C110_EM_cripor (K0 G0 phi phic : α) :
    (K0 = nan ∨ phi = nan ∨ phic = nan → (EM.cripor K0 G0 phi phic).1 = nan)
    ∧ (∀ y, (EM.cripor K0 y phi phic).1 = (EM.cripor K0 G0 phi phic).1)
    ∧ (G0 = nan ∨ phi = nan ∨ phic = nan → (EM.cripor K0 G0 phi phic).2 = nan)
    ∧ (∀ y, (EM.cripor y G0 phi phic).2 = (EM.cripor K0 G0 phi phic).2) := by
  refine ⟨?_, ?_, ?_, ?_⟩
  · nan_any [EM.cripor]
  · exact fun _ => rfl
  · nan_any [EM.cripor]
  · exact fun _ => rfl

theorem C110_EM_cripor_reuss (M0 Mf phic : α) (den : Bool) :
    (M0 = nan ∨ Mf = nan ∨ phic = nan → ∀ v, EM.cripor_reuss M0 Mf phic den = .ok v → v = nan) := by
  nan_any_ok [EM.cripor_reuss, EM.VRH]

theorem C110_EM_HS (f K1 K2 G1 G2 : α) (bound : String) :
    (f = nan ∨ K1 = nan ∨ K2 = nan → (EM.HS f K1 K2 G1 G2 bound).1 = nan)
    ∧ (f = nan ∨ G1 = nan ∨ G2 = nan → (EM.HS f K1 K2 G1 G2 bound).2 = nan) := by
  refine ⟨?_, ?_⟩
  · nan_any [EM.HS]
  · nan_any [EM.HS]

theorem C110_EM_Eshelby_Cheng (K G phi alpha Kf : α) :
    (K = nan ∨ G = nan ∨ phi = nan ∨ alpha = nan ∨ Kf = nan → (EM.Eshelby_Cheng_consts K G phi
      alpha Kf).1 = nan)
    ∧ (K = nan ∨ G = nan ∨ phi = nan ∨ alpha = nan ∨ Kf = nan → (EM.Eshelby_Cheng_consts K G phi
      alpha Kf).2.1 = nan)
    ∧ (K = nan ∨ G = nan ∨ phi = nan ∨ alpha = nan ∨ Kf = nan → (EM.Eshelby_Cheng_consts K G phi
      alpha Kf).2.2.1 = nan)
    ∧ (K = nan ∨ G = nan ∨ phi = nan ∨ alpha = nan → (EM.Eshelby_Cheng_consts K G phi alpha
      Kf).2.2.2.1 = nan)
    ∧ (∀ y, (EM.Eshelby_Cheng_consts K G phi alpha y).2.2.2.1 = (EM.Eshelby_Cheng_consts K G phi
      alpha Kf).2.2.2.1)
    ∧ (K = nan ∨ G = nan ∨ phi = nan ∨ alpha = nan → (EM.Eshelby_Cheng_consts K G phi alpha
      Kf).2.2.2.2 = nan)
    ∧ (∀ y, (EM.Eshelby_Cheng_consts K G phi alpha y).2.2.2.2 = (EM.Eshelby_Cheng_consts K G phi
      alpha Kf).2.2.2.2) := by
  refine ⟨?_, ?_, ?_, ?_, ?_, ?_, ?_⟩
  · nan_any [EM.Eshelby_Cheng_consts, EM.Eshelby_Cheng_moduli, EM.Eshelby_Cheng_S]
  · nan_any [EM.Eshelby_Cheng_consts, EM.Eshelby_Cheng_moduli, EM.Eshelby_Cheng_S]
  · nan_any [EM.Eshelby_Cheng_consts, EM.Eshelby_Cheng_moduli, EM.Eshelby_Cheng_S]
  · nan_any [EM.Eshelby_Cheng_consts, EM.Eshelby_Cheng_moduli, EM.Eshelby_Cheng_S]
  · exact fun _ => rfl
  · nan_any [EM.Eshelby_Cheng_consts, EM.Eshelby_Cheng_moduli, EM.Eshelby_Cheng_S]
  · exact fun _ => rfl

theorem C110_EM_hudson (K G Ki Gi alpha crd : α) (order : Int) :
    (K = nan ∨ G = nan ∨ Ki = nan ∨ Gi = nan ∨ alpha = nan ∨ crd = nan → ∀ v, EM.hudson_consts K G
      Ki Gi alpha crd order = .ok v → v.1 = nan)
    ∧ (K = nan ∨ G = nan ∨ Ki = nan ∨ Gi = nan ∨ alpha = nan ∨ crd = nan → ∀ v, EM.hudson_consts K
      G Ki Gi alpha crd order = .ok v → v.2.1 = nan)
    ∧ (K = nan ∨ G = nan ∨ Ki = nan ∨ Gi = nan ∨ alpha = nan ∨ crd = nan → ∀ v, EM.hudson_consts K
      G Ki Gi alpha crd order = .ok v → v.2.2.1 = nan)
    ∧ (K = nan ∨ G = nan ∨ Gi = nan ∨ alpha = nan ∨ crd = nan → ∀ v, EM.hudson_consts K G Ki Gi
      alpha crd order = .ok v → v.2.2.2.1 = nan)
    ∧ (G = nan → ∀ v, EM.hudson_consts K G Ki Gi alpha crd order = .ok v → v.2.2.2.2 = nan) := by
  refine ⟨?_, ?_, ?_, ?_, ?_⟩
  · nan_any_ok [EM.hudson_consts, EM.hudson_U1, EM.hudson_M, EM.hudson_U3, EM.hudson_kapa]
  · nan_any_ok [EM.hudson_consts, EM.hudson_U1, EM.hudson_M, EM.hudson_U3, EM.hudson_kapa]
  · nan_any_ok [EM.hudson_consts, EM.hudson_U1, EM.hudson_M, EM.hudson_U3, EM.hudson_kapa]
  · nan_any_ok [EM.hudson_consts, EM.hudson_U1, EM.hudson_M, EM.hudson_U3, EM.hudson_kapa]
  · nan_any_ok [EM.hudson_consts, EM.hudson_U1, EM.hudson_M, EM.hudson_U3, EM.hudson_kapa]

theorem C110_EM_hudson_rand (K G Ki Gi alpha crd : α) :
    (K = nan ∨ G = nan ∨ Ki = nan ∨ Gi = nan ∨ alpha = nan ∨ crd = nan → (EM.hudson_rand K G Ki Gi
      alpha crd).1 = nan)
    ∧ (K = nan ∨ G = nan ∨ Ki = nan ∨ Gi = nan ∨ alpha = nan ∨ crd = nan → (EM.hudson_rand K G Ki
      Gi alpha crd).2 = nan) := by
  refine ⟨?_, ?_⟩
  · nan_any [EM.hudson_rand, EM.hudson_U1, EM.hudson_M, EM.hudson_U3, EM.hudson_kapa]
  · nan_any [EM.hudson_rand, EM.hudson_U1, EM.hudson_M, EM.hudson_U3, EM.hudson_kapa]

theorem C110_EM_PQ (Km Gm Ki Gi alpha : α) :
    (Km = nan ∨ Gm = nan ∨ Ki = nan ∨ alpha = nan → (EM.PQ Km Gm Ki Gi alpha).1 = nan)
    ∧ (Km = nan ∨ Gm = nan ∨ Gi = nan ∨ alpha = nan → (EM.PQ Km Gm Ki Gi alpha).2 = nan) := by
  refine ⟨?_, ?_⟩
  · nan_any [EM.PQ, EM.PQ_sphere, EM.PQ_core, EM.PQ_theta]
  · nan_any [EM.PQ, EM.PQ_sphere, EM.PQ_core, EM.PQ_theta]

theorem C110_EM_Swiss_cheese (Ks Gs phi : α) :
    (Ks = nan ∨ Gs = nan ∨ phi = nan → (EM.Swiss_cheese Ks Gs phi).1 = nan)
    ∧ (Ks = nan ∨ Gs = nan ∨ phi = nan → (EM.Swiss_cheese Ks Gs phi).2 = nan) := by
  refine ⟨?_, ?_⟩
  · nan_any [EM.Swiss_cheese]
  · nan_any [EM.Swiss_cheese]

theorem C110_EM_Dilute_crack (Ks Gs cd : α) :
    (Ks = nan ∨ Gs = nan ∨ cd = nan → (EM.Dilute_crack Ks Gs cd).1 = nan)
    ∧ (Ks = nan ∨ Gs = nan ∨ cd = nan → (EM.Dilute_crack Ks Gs cd).2 = nan) := by
  refine ⟨?_, ?_⟩
  · nan_any [EM.Dilute_crack]
  · nan_any [EM.Dilute_crack]

theorem C110_EM_OConnell_Budiansky (K0 G0 crd : α) :
    (K0 = nan ∨ G0 = nan ∨ crd = nan → (EM.OConnell_Budiansky K0 G0 crd).1 = nan)
    ∧ (K0 = nan ∨ G0 = nan ∨ crd = nan → (EM.OConnell_Budiansky K0 G0 crd).2 = nan) := by
  refine ⟨?_, ?_⟩
  · nan_any [EM.OConnell_Budiansky]
  · nan_any [EM.OConnell_Budiansky]

theorem C110_EM_OC_R_funcs (nu_eff D crd nu_0 w : α) :
    (nu_eff = nan ∨ D = nan ∨ crd = nan ∨ nu_0 = nan → (EM.OC_R_funcs nu_eff D crd nu_0 w).1 = nan)
    ∧ (∀ y, (EM.OC_R_funcs nu_eff D crd nu_0 y).1 = (EM.OC_R_funcs nu_eff D crd nu_0 w).1)
    ∧ (nu_eff = nan ∨ D = nan ∨ crd = nan ∨ nu_0 = nan ∨ w = nan → (EM.OC_R_funcs nu_eff D crd nu_0
      w).2 = nan) := by
  refine ⟨?_, ?_, ?_⟩
  · nan_any [EM.OC_R_funcs]
  · exact fun _ => rfl
  · nan_any [EM.OC_R_funcs]

theorem C110_EM_DEM (K_eff G_eff t Gi Ki alpha : α) :
    (K_eff = nan ∨ G_eff = nan ∨ t = nan ∨ Ki = nan ∨ alpha = nan → (EM.DEM K_eff G_eff t Gi Ki
      alpha).1 = nan)
    ∧ (K_eff = nan ∨ G_eff = nan ∨ t = nan ∨ Gi = nan ∨ alpha = nan → (EM.DEM K_eff G_eff t Gi Ki
      alpha).2 = nan) := by
  refine ⟨?_, ?_⟩
  · nan_any [EM.DEM, EM.PQ, EM.PQ_sphere, EM.PQ_core, EM.PQ_theta]
  · nan_any [EM.DEM, EM.PQ, EM.PQ_sphere, EM.PQ_core, EM.PQ_theta]

theorem C110_EM_SC_dilute (Km Gm Ki Gi f : α) (mode : String) :
    (Km = nan ∨ Gm = nan ∨ Ki = nan ∨ f = nan → ∀ v, EM.SC_dilute Km Gm Ki Gi f mode = .ok v → v.1
      = nan)
    ∧ (Km = nan ∨ Gm = nan ∨ Gi = nan ∨ f = nan → ∀ v, EM.SC_dilute Km Gm Ki Gi f mode = .ok v →
      v.2 = nan) := by
  refine ⟨?_, ?_⟩
  · nan_any_ok [EM.SC_dilute]
  · nan_any_ok [EM.SC_dilute]

theorem C110_EM_MT_average (f Kmat Gmat K1 G1 K2 G2 : α) :
    (f = nan ∨ Kmat = nan ∨ Gmat = nan ∨ K1 = nan ∨ K2 = nan → (EM.MT_average f Kmat Gmat K1 G1 K2
      G2).1 = nan)
    ∧ (∀ y, (EM.MT_average f Kmat Gmat K1 y K2 G2).1 = (EM.MT_average f Kmat Gmat K1 G1 K2 G2).1)
    ∧ (∀ y, (EM.MT_average f Kmat Gmat K1 G1 K2 y).1 = (EM.MT_average f Kmat Gmat K1 G1 K2 G2).1)
    ∧ (f = nan ∨ Kmat = nan ∨ Gmat = nan ∨ G1 = nan ∨ G2 = nan → (EM.MT_average f Kmat Gmat K1 G1
      K2 G2).2 = nan)
    ∧ (∀ y, (EM.MT_average f Kmat Gmat y G1 K2 G2).2 = (EM.MT_average f Kmat Gmat K1 G1 K2 G2).2)
    ∧ (∀ y, (EM.MT_average f Kmat Gmat K1 G1 y G2).2 = (EM.MT_average f Kmat Gmat K1 G1 K2 G2).2)
      := by
  refine ⟨?_, ?_, ?_, ?_, ?_, ?_⟩
  · nan_any [EM.MT_average]
  · exact fun _ => rfl
  · exact fun _ => rfl
  · nan_any [EM.MT_average]
  · exact fun _ => rfl
  · exact fun _ => rfl

/-! ## `GM` -/

theorem C110_GM_ThomasStieber (phi_sand phi_sh vsh : α) :
    (phi_sand = nan ∨ phi_sh = nan ∨ vsh = nan → (GM.ThomasStieber phi_sand phi_sh vsh).1 = nan)
    ∧ (phi_sand = nan ∨ phi_sh = nan ∨ vsh = nan → (GM.ThomasStieber phi_sand phi_sh vsh).2 = nan)
      := by
  refine ⟨?_, ?_⟩
  · nan_any [GM.ThomasStieber, maximum]
  · nan_any [GM.ThomasStieber, maximum]

theorem C110_GM_silty_shale (C Kq Gq Ksh Gsh : α) :
    (C = nan ∨ Kq = nan ∨ Gq = nan ∨ Ksh = nan ∨ Gsh = nan → (GM.silty_shale C Kq Gq Ksh Gsh).1 =
      nan)
    ∧ (C = nan ∨ Gq = nan ∨ Ksh = nan ∨ Gsh = nan → (GM.silty_shale C Kq Gq Ksh Gsh).2 = nan)
    ∧ (∀ y, (GM.silty_shale C y Gq Ksh Gsh).2 = (GM.silty_shale C Kq Gq Ksh Gsh).2) := by
  refine ⟨?_, ?_, ?_⟩
  · nan_any [GM.silty_shale]
  · nan_any [GM.silty_shale]
  · exact fun _ => rfl

theorem C110_GM_shaly_sand (phis C Kss Gss Kcc Gcc : α) :
    (phis = nan ∨ C = nan ∨ Kss = nan ∨ Gss = nan ∨ Kcc = nan → (GM.shaly_sand phis C Kss Gss Kcc
      Gcc).1 = nan)
    ∧ (∀ y, (GM.shaly_sand phis C Kss Gss Kcc y).1 = (GM.shaly_sand phis C Kss Gss Kcc Gcc).1)
    ∧ (phis = nan ∨ C = nan ∨ Kss = nan ∨ Gss = nan ∨ Gcc = nan → (GM.shaly_sand phis C Kss Gss Kcc
      Gcc).2 = nan)
    ∧ (∀ y, (GM.shaly_sand phis C Kss Gss y Gcc).2 = (GM.shaly_sand phis C Kss Gss Kcc Gcc).2) := by
  refine ⟨?_, ?_, ?_, ?_⟩
  · nan_any [GM.shaly_sand]
  · exact fun _ => rfl
  · nan_any [GM.shaly_sand]
  · exact fun _ => rfl

theorem C110_GM_contactcement (K0 G0 Kc Gc phi phic Cn : α) (scheme : Int) :
    (K0 = nan ∨ G0 = nan ∨ Kc = nan ∨ Gc = nan ∨ phi = nan ∨ phic = nan ∨ Cn = nan →
      (GM.contactcement K0 G0 Kc Gc phi phic Cn scheme).1 = nan)
    ∧ (K0 = nan ∨ G0 = nan ∨ Kc = nan ∨ Gc = nan ∨ phi = nan ∨ phic = nan ∨ Cn = nan →
      (GM.contactcement K0 G0 Kc Gc phi phic Cn scheme).2 = nan) := by
  refine ⟨?_, ?_⟩
  · nan_any [GM.contactcement]
  · nan_any [GM.contactcement]

theorem C110_GM_hertzmindlin (K0 G0 phic Cn sigma f : α) :
    (K0 = nan ∨ G0 = nan ∨ phic = nan ∨ Cn = nan ∨ sigma = nan → (GM.hertzmindlin K0 G0 phic Cn
      sigma f).1 = nan)
    ∧ (∀ y, (GM.hertzmindlin K0 G0 phic Cn sigma y).1 = (GM.hertzmindlin K0 G0 phic Cn sigma f).1)
    ∧ (K0 = nan ∨ G0 = nan ∨ phic = nan ∨ Cn = nan ∨ sigma = nan ∨ f = nan → (GM.hertzmindlin K0 G0
      phic Cn sigma f).2 = nan) := by
  refine ⟨?_, ?_, ?_⟩
  · nan_any [GM.hertzmindlin]
  · exact fun _ => rfl
  · nan_any [GM.hertzmindlin]

theorem C110_GM_softsand (K0 G0 phi phic Cn sigma f : α) :
    (K0 = nan ∨ G0 = nan ∨ phi = nan ∨ phic = nan ∨ Cn = nan ∨ sigma = nan ∨ f = nan → (GM.softsand
      K0 G0 phi phic Cn sigma f).1 = nan)
    ∧ (K0 = nan ∨ G0 = nan ∨ phi = nan ∨ phic = nan ∨ Cn = nan ∨ sigma = nan ∨ f = nan →
      (GM.softsand K0 G0 phi phic Cn sigma f).2 = nan) := by
  refine ⟨?_, ?_⟩
  · nan_any [GM.softsand, GM.hertzmindlin]
  · nan_any [GM.softsand, GM.hertzmindlin]

theorem C110_GM_Walton (K0 G0 phic Cn sigma f : α) :
    (K0 = nan ∨ G0 = nan ∨ phic = nan ∨ Cn = nan ∨ sigma = nan → (GM.Walton K0 G0 phic Cn sigma
      f).1 = nan)
    ∧ (∀ y, (GM.Walton K0 G0 phic Cn sigma y).1 = (GM.Walton K0 G0 phic Cn sigma f).1)
    ∧ (K0 = nan ∨ G0 = nan ∨ phic = nan ∨ Cn = nan ∨ sigma = nan ∨ f = nan → (GM.Walton K0 G0 phic
      Cn sigma f).2 = nan) := by
  refine ⟨?_, ?_, ?_⟩
  · nan_any [GM.Walton]
  · exact fun _ => rfl
  · nan_any [GM.Walton]

theorem C110_GM_stiffsand (K0 G0 phi phic Cn sigma f : α) :
    (K0 = nan ∨ G0 = nan ∨ phi = nan ∨ phic = nan ∨ Cn = nan ∨ sigma = nan → (GM.stiffsand K0 G0
      phi phic Cn sigma f).1 = nan)
    ∧ (∀ y, (GM.stiffsand K0 G0 phi phic Cn sigma y).1 = (GM.stiffsand K0 G0 phi phic Cn sigma f).1)
    ∧ (K0 = nan ∨ G0 = nan ∨ phi = nan ∨ phic = nan ∨ Cn = nan ∨ sigma = nan ∨ f = nan →
      (GM.stiffsand K0 G0 phi phic Cn sigma f).2 = nan) := by
  refine ⟨?_, ?_, ?_⟩
  · nan_any [GM.stiffsand, GM.hertzmindlin]
  · exact fun _ => rfl
  · nan_any [GM.stiffsand, GM.hertzmindlin]

theorem C110_GM_constantcement (phi_b K0 G0 Kc Gc phi phic Cn : α) (scheme : Int) :
    (phi_b = nan ∨ K0 = nan ∨ G0 = nan ∨ Kc = nan ∨ Gc = nan ∨ phi = nan ∨ phic = nan ∨ Cn = nan →
      (GM.constantcement phi_b K0 G0 Kc Gc phi phic Cn scheme).1 = nan)
    ∧ (phi_b = nan ∨ K0 = nan ∨ G0 = nan ∨ Kc = nan ∨ Gc = nan ∨ phi = nan ∨ phic = nan ∨ Cn = nan
      → (GM.constantcement phi_b K0 G0 Kc Gc phi phic Cn scheme).2 = nan) := by
  refine ⟨?_, ?_⟩
  · nan_any [GM.constantcement, GM.contactcement]
  · nan_any [GM.constantcement, GM.contactcement]

theorem C110_GM_MUHS (K0 G0 Kc Gc phi phi_b phic Cn : α) (scheme : Int) :
    (K0 = nan ∨ G0 = nan ∨ Kc = nan ∨ Gc = nan ∨ phi = nan ∨ phi_b = nan ∨ phic = nan ∨ Cn = nan →
      (GM.MUHS K0 G0 Kc Gc phi phi_b phic Cn scheme).1 = nan)
    ∧ (K0 = nan ∨ G0 = nan ∨ Kc = nan ∨ Gc = nan ∨ phi = nan ∨ phi_b = nan ∨ phic = nan ∨ Cn = nan
      → (GM.MUHS K0 G0 Kc Gc phi phi_b phic Cn scheme).2 = nan) := by
  refine ⟨?_, ?_⟩
  · nan_any [GM.MUHS, GM.contactcement]
  · nan_any [GM.MUHS, GM.contactcement]

theorem C110_GM_pcm (f sigma K0 G0 phi phic v_cem v_ci Kc Gc Cn : α) (mode : String) (scheme : Int)
  (f_ : α) :
    (f = nan ∨ sigma = nan ∨ K0 = nan ∨ G0 = nan ∨ phi = nan ∨ phic = nan ∨ v_cem = nan ∨ v_ci =
      nan ∨ Kc = nan ∨ Gc = nan ∨ Cn = nan ∨ f_ = nan → (GM.pcm f sigma K0 G0 phi phic v_cem v_ci
        Kc Gc Cn mode scheme f_).1 = nan)
    ∧ (f = nan ∨ sigma = nan ∨ K0 = nan ∨ G0 = nan ∨ phi = nan ∨ phic = nan ∨ v_cem = nan ∨ v_ci =
      nan ∨ Kc = nan ∨ Gc = nan ∨ Cn = nan ∨ f_ = nan → (GM.pcm f sigma K0 G0 phi phic v_cem v_ci
        Kc Gc Cn mode scheme f_).2 = nan) := by
  refine ⟨?_, ?_⟩
  · nan_any [GM.pcm, GM.hertzmindlin, GM.cemented, GM.contactcement, GM.MUHS, GM.patchyStiff,
    GM.patchySoft, GM.patchyHS]
  · nan_any [GM.pcm, GM.hertzmindlin, GM.cemented, GM.contactcement, GM.MUHS, GM.patchyStiff,
    GM.patchySoft, GM.patchyHS]

theorem C110_GM_vpcm (alpha f sigma K0 G0 phi phic v_cem v_ci Kc Gc Cn : α) (scheme : Int) (f_ : α)
  :
    (alpha = nan ∨ f = nan ∨ sigma = nan ∨ K0 = nan ∨ G0 = nan ∨ phi = nan ∨ phic = nan ∨ v_cem =
      nan ∨ v_ci = nan ∨ Kc = nan ∨ Gc = nan ∨ Cn = nan ∨ f_ = nan → (GM.vpcm alpha f sigma K0 G0
        phi phic v_cem v_ci Kc Gc Cn scheme f_).1 = nan)
    ∧ (alpha = nan ∨ f = nan ∨ sigma = nan ∨ K0 = nan ∨ G0 = nan ∨ phi = nan ∨ phic = nan ∨ v_cem =
      nan ∨ v_ci = nan ∨ Kc = nan ∨ Gc = nan ∨ Cn = nan ∨ f_ = nan → (GM.vpcm alpha f sigma K0 G0
        phi phic v_cem v_ci Kc Gc Cn scheme f_).2 = nan) := by
  refine ⟨?_, ?_⟩
  · nan_any [GM.vpcm, GM.hertzmindlin, GM.cemented, GM.contactcement, GM.MUHS, GM.patchyStiff,
    GM.patchySoft, GM.patchyHS]
  · nan_any [GM.vpcm, GM.hertzmindlin, GM.cemented, GM.contactcement, GM.MUHS, GM.patchyStiff,
    GM.patchySoft, GM.patchyHS]

/-! ## `Fluid` -/

theorem C110_Fluid_Brie (Kw Kgas Sw e : α) :
    (Kw = nan ∨ Kgas = nan → Fluid.Brie Kw Kgas Sw e = nan) := by
  nan_any [Fluid.Brie]

theorem C110_Fluid_Biot_HF (Kdry Gdry K0 Kfl rho0 rhofl phi alpha : α) :
    (Kdry = nan ∨ Gdry = nan ∨ K0 = nan ∨ Kfl = nan ∨ rho0 = nan ∨ rhofl = nan ∨ phi = nan ∨ alpha
      = nan → (Fluid.Biot_HF Kdry Gdry K0 Kfl rho0 rhofl phi alpha).1 = nan)
    ∧ (Kdry = nan ∨ Gdry = nan ∨ K0 = nan ∨ Kfl = nan ∨ rho0 = nan ∨ rhofl = nan ∨ phi = nan ∨
      alpha = nan → (Fluid.Biot_HF Kdry Gdry K0 Kfl rho0 rhofl phi alpha).2.1 = nan)
    ∧ (Gdry = nan ∨ rho0 = nan ∨ rhofl = nan ∨ phi = nan ∨ alpha = nan → (Fluid.Biot_HF Kdry Gdry
      K0 Kfl rho0 rhofl phi alpha).2.2 = nan)
    ∧ (∀ y, (Fluid.Biot_HF y Gdry K0 Kfl rho0 rhofl phi alpha).2.2 = (Fluid.Biot_HF Kdry Gdry K0
      Kfl rho0 rhofl phi alpha).2.2)
    ∧ (∀ y, (Fluid.Biot_HF Kdry Gdry y Kfl rho0 rhofl phi alpha).2.2 = (Fluid.Biot_HF Kdry Gdry K0
      Kfl rho0 rhofl phi alpha).2.2)
    ∧ (∀ y, (Fluid.Biot_HF Kdry Gdry K0 y rho0 rhofl phi alpha).2.2 = (Fluid.Biot_HF Kdry Gdry K0
      Kfl rho0 rhofl phi alpha).2.2) := by
  refine ⟨?_, ?_, ?_, ?_, ?_, ?_⟩
  · nan_any [Fluid.Biot_HF]
  · nan_any [Fluid.Biot_HF]
  · nan_any [Fluid.Biot_HF]
  · exact fun _ => rfl
  · exact fun _ => rfl
  · exact fun _ => rfl

theorem C110_Fluid_Geertsma_Smit_HF (Kdry Gdry K0 Kfl rho0 rhofl phi alpha : α) :
    (Kdry = nan ∨ Gdry = nan ∨ K0 = nan ∨ Kfl = nan ∨ rho0 = nan ∨ rhofl = nan ∨ phi = nan ∨ alpha
      = nan → (Fluid.Geertsma_Smit_HF Kdry Gdry K0 Kfl rho0 rhofl phi alpha).1 = nan)
    ∧ (Gdry = nan ∨ rho0 = nan ∨ rhofl = nan ∨ phi = nan ∨ alpha = nan → (Fluid.Geertsma_Smit_HF
      Kdry Gdry K0 Kfl rho0 rhofl phi alpha).2 = nan)
    ∧ (∀ y, (Fluid.Geertsma_Smit_HF y Gdry K0 Kfl rho0 rhofl phi alpha).2 = (Fluid.Geertsma_Smit_HF
      Kdry Gdry K0 Kfl rho0 rhofl phi alpha).2)
    ∧ (∀ y, (Fluid.Geertsma_Smit_HF Kdry Gdry y Kfl rho0 rhofl phi alpha).2 =
      (Fluid.Geertsma_Smit_HF Kdry Gdry K0 Kfl rho0 rhofl phi alpha).2)
    ∧ (∀ y, (Fluid.Geertsma_Smit_HF Kdry Gdry K0 y rho0 rhofl phi alpha).2 =
      (Fluid.Geertsma_Smit_HF Kdry Gdry K0 Kfl rho0 rhofl phi alpha).2) := by
  refine ⟨?_, ?_, ?_, ?_, ?_⟩
  · nan_any [Fluid.Geertsma_Smit_HF]
  · nan_any [Fluid.Geertsma_Smit_HF]
  · exact fun _ => rfl
  · exact fun _ => rfl
  · exact fun _ => rfl

theorem C110_Fluid_Geertsma_Smit_LF (Vp0 Vpinf freq phi rhofl kapa eta : α) :
    (Vp0 = nan ∨ Vpinf = nan ∨ freq = nan ∨ phi = nan ∨ rhofl = nan ∨ kapa = nan ∨ eta = nan →
      Fluid.Geertsma_Smit_LF Vp0 Vpinf freq phi rhofl kapa eta = nan) := by
  nan_any [Fluid.Geertsma_Smit_LF]

theorem C110_Fluid_Gassmann (K_dry G_dry K_mat Kf phi : α) :
    (K_dry = nan ∨ K_mat = nan ∨ Kf = nan ∨ phi = nan → (Fluid.Gassmann K_dry G_dry K_mat Kf phi).1
      = nan)
    ∧ (∀ y, (Fluid.Gassmann K_dry y K_mat Kf phi).1 = (Fluid.Gassmann K_dry G_dry K_mat Kf phi).1)
    ∧ (G_dry = nan → (Fluid.Gassmann K_dry G_dry K_mat Kf phi).2 = nan)
    ∧ (∀ y, (Fluid.Gassmann y G_dry K_mat Kf phi).2 = (Fluid.Gassmann K_dry G_dry K_mat Kf phi).2)
    ∧ (∀ y, (Fluid.Gassmann K_dry G_dry y Kf phi).2 = (Fluid.Gassmann K_dry G_dry K_mat Kf phi).2)
    ∧ (∀ y, (Fluid.Gassmann K_dry G_dry K_mat y phi).2 = (Fluid.Gassmann K_dry G_dry K_mat Kf
      phi).2)
    ∧ (∀ y, (Fluid.Gassmann K_dry G_dry K_mat Kf y).2 = (Fluid.Gassmann K_dry G_dry K_mat Kf
      phi).2) := by
  refine ⟨?_, ?_, ?_, ?_, ?_, ?_, ?_⟩
  · nan_any [Fluid.Gassmann]
  · exact fun _ => rfl
  · nan_any [Fluid.Gassmann]
  · exact fun _ => rfl
  · exact fun _ => rfl
  · exact fun _ => rfl
  · exact fun _ => rfl

theorem C110_Fluid_Gassmann_sub (phi K0 Ksat1 Kfl1 Kfl2 : α) :
    (phi = nan ∨ K0 = nan ∨ Ksat1 = nan ∨ Kfl1 = nan ∨ Kfl2 = nan → Fluid.Gassmann_sub phi K0 Ksat1
      Kfl1 Kfl2 = nan) := by
  nan_any [Fluid.Gassmann_sub]

theorem C110_Fluid_vels (K_dry G_dry K0 D0 Kf Df phi : α) :
    (K_dry = nan ∨ G_dry = nan ∨ K0 = nan ∨ D0 = nan ∨ Kf = nan ∨ Df = nan ∨ phi = nan →
      (Fluid.vels K_dry G_dry K0 D0 Kf Df phi).1 = nan)
    ∧ (G_dry = nan ∨ D0 = nan ∨ Df = nan ∨ phi = nan → (Fluid.vels K_dry G_dry K0 D0 Kf Df phi).2.1
      = nan)
    ∧ (∀ y, (Fluid.vels y G_dry K0 D0 Kf Df phi).2.1 = (Fluid.vels K_dry G_dry K0 D0 Kf Df phi).2.1)
    ∧ (∀ y, (Fluid.vels K_dry G_dry y D0 Kf Df phi).2.1 = (Fluid.vels K_dry G_dry K0 D0 Kf Df
      phi).2.1)
    ∧ (∀ y, (Fluid.vels K_dry G_dry K0 D0 y Df phi).2.1 = (Fluid.vels K_dry G_dry K0 D0 Kf Df
      phi).2.1)
    ∧ (D0 = nan ∨ Df = nan ∨ phi = nan → (Fluid.vels K_dry G_dry K0 D0 Kf Df phi).2.2 = nan)
    ∧ (∀ y, (Fluid.vels y G_dry K0 D0 Kf Df phi).2.2 = (Fluid.vels K_dry G_dry K0 D0 Kf Df phi).2.2)
    ∧ (∀ y, (Fluid.vels K_dry y K0 D0 Kf Df phi).2.2 = (Fluid.vels K_dry G_dry K0 D0 Kf Df phi).2.2)
    ∧ (∀ y, (Fluid.vels K_dry G_dry y D0 Kf Df phi).2.2 = (Fluid.vels K_dry G_dry K0 D0 Kf Df
      phi).2.2)
    ∧ (∀ y, (Fluid.vels K_dry G_dry K0 D0 y Df phi).2.2 = (Fluid.vels K_dry G_dry K0 D0 Kf Df
      phi).2.2) := by
  refine ⟨?_, ?_, ?_, ?_, ?_, ?_, ?_, ?_, ?_, ?_⟩
  · nan_any [Fluid.vels, Fluid.Gassmann]
  · nan_any [Fluid.vels, Fluid.Gassmann]
  · exact fun _ => rfl
  · exact fun _ => rfl
  · exact fun _ => rfl
  · nan_any [Fluid.vels, Fluid.Gassmann]
  · exact fun _ => rfl
  · exact fun _ => rfl
  · exact fun _ => rfl
  · exact fun _ => rfl

theorem C110_Fluid_Gassmann_vels (Vp1 Vs1 rho1 rhofl1 Kfl1 rhofl2 Kfl2 K0 phi : α) :
    (Vp1 = nan ∨ Vs1 = nan ∨ rho1 = nan ∨ rhofl1 = nan ∨ Kfl1 = nan ∨ rhofl2 = nan ∨ Kfl2 = nan ∨
      K0 = nan ∨ phi = nan → (Fluid.Gassmann_vels Vp1 Vs1 rho1 rhofl1 Kfl1 rhofl2 Kfl2 K0 phi).1 =
        nan)
    ∧ (Vs1 = nan ∨ rho1 = nan ∨ rhofl1 = nan ∨ rhofl2 = nan ∨ phi = nan → (Fluid.Gassmann_vels Vp1
      Vs1 rho1 rhofl1 Kfl1 rhofl2 Kfl2 K0 phi).2 = nan)
    ∧ (∀ y, (Fluid.Gassmann_vels y Vs1 rho1 rhofl1 Kfl1 rhofl2 Kfl2 K0 phi).2 =
      (Fluid.Gassmann_vels Vp1 Vs1 rho1 rhofl1 Kfl1 rhofl2 Kfl2 K0 phi).2)
    ∧ (∀ y, (Fluid.Gassmann_vels Vp1 Vs1 rho1 rhofl1 y rhofl2 Kfl2 K0 phi).2 = (Fluid.Gassmann_vels
      Vp1 Vs1 rho1 rhofl1 Kfl1 rhofl2 Kfl2 K0 phi).2)
    ∧ (∀ y, (Fluid.Gassmann_vels Vp1 Vs1 rho1 rhofl1 Kfl1 rhofl2 y K0 phi).2 = (Fluid.Gassmann_vels
      Vp1 Vs1 rho1 rhofl1 Kfl1 rhofl2 Kfl2 K0 phi).2)
    ∧ (∀ y, (Fluid.Gassmann_vels Vp1 Vs1 rho1 rhofl1 Kfl1 rhofl2 Kfl2 y phi).2 =
      (Fluid.Gassmann_vels Vp1 Vs1 rho1 rhofl1 Kfl1 rhofl2 Kfl2 K0 phi).2) := by
  refine ⟨?_, ?_, ?_, ?_, ?_, ?_⟩
  · nan_any [Fluid.Gassmann_vels, Fluid.Gassmann_sub]
  · nan_any [Fluid.Gassmann_vels, Fluid.Gassmann_sub]
  · exact fun _ => rfl
  · exact fun _ => rfl
  · exact fun _ => rfl
  · exact fun _ => rfl

theorem C110_Fluid_Gassmann_approx (Msat1 M0 Mfl1 phi Mfl2 : α) :
    (Msat1 = nan ∨ M0 = nan ∨ Mfl1 = nan ∨ phi = nan ∨ Mfl2 = nan → Fluid.Gassmann_approx Msat1 M0
      Mfl1 phi Mfl2 = nan) := by
  nan_any [Fluid.Gassmann_approx]

theorem C110_Fluid_Mavko_Jizba (Vp_hs Vs_hs Vpdry Vsdry K0 rhodry rhofl Kfl phi : α) :
    (Vp_hs = nan ∨ Vs_hs = nan ∨ K0 = nan ∨ rhodry = nan ∨ Kfl = nan ∨ phi = nan →
      (Fluid.Mavko_Jizba Vp_hs Vs_hs Vpdry Vsdry K0 rhodry rhofl Kfl phi).1 = nan)
    ∧ (∀ y, (Fluid.Mavko_Jizba Vp_hs Vs_hs y Vsdry K0 rhodry rhofl Kfl phi).1 = (Fluid.Mavko_Jizba
      Vp_hs Vs_hs Vpdry Vsdry K0 rhodry rhofl Kfl phi).1)
    ∧ (∀ y, (Fluid.Mavko_Jizba Vp_hs Vs_hs Vpdry y K0 rhodry rhofl Kfl phi).1 = (Fluid.Mavko_Jizba
      Vp_hs Vs_hs Vpdry Vsdry K0 rhodry rhofl Kfl phi).1)
    ∧ (∀ y, (Fluid.Mavko_Jizba Vp_hs Vs_hs Vpdry Vsdry K0 rhodry y Kfl phi).1 = (Fluid.Mavko_Jizba
      Vp_hs Vs_hs Vpdry Vsdry K0 rhodry rhofl Kfl phi).1)
    ∧ (Vp_hs = nan ∨ Vs_hs = nan ∨ Vpdry = nan ∨ Vsdry = nan ∨ rhodry = nan → (Fluid.Mavko_Jizba
      Vp_hs Vs_hs Vpdry Vsdry K0 rhodry rhofl Kfl phi).2.1 = nan)
    ∧ (∀ y, (Fluid.Mavko_Jizba Vp_hs Vs_hs Vpdry Vsdry y rhodry rhofl Kfl phi).2.1 =
      (Fluid.Mavko_Jizba Vp_hs Vs_hs Vpdry Vsdry K0 rhodry rhofl Kfl phi).2.1)
    ∧ (∀ y, (Fluid.Mavko_Jizba Vp_hs Vs_hs Vpdry Vsdry K0 rhodry y Kfl phi).2.1 =
      (Fluid.Mavko_Jizba Vp_hs Vs_hs Vpdry Vsdry K0 rhodry rhofl Kfl phi).2.1)
    ∧ (∀ y, (Fluid.Mavko_Jizba Vp_hs Vs_hs Vpdry Vsdry K0 rhodry rhofl y phi).2.1 =
      (Fluid.Mavko_Jizba Vp_hs Vs_hs Vpdry Vsdry K0 rhodry rhofl Kfl phi).2.1)
    ∧ (∀ y, (Fluid.Mavko_Jizba Vp_hs Vs_hs Vpdry Vsdry K0 rhodry rhofl Kfl y).2.1 =
      (Fluid.Mavko_Jizba Vp_hs Vs_hs Vpdry Vsdry K0 rhodry rhofl Kfl phi).2.1)
    ∧ (Vp_hs = nan ∨ Vs_hs = nan ∨ Vpdry = nan ∨ Vsdry = nan ∨ K0 = nan ∨ rhodry = nan ∨ rhofl =
      nan ∨ Kfl = nan ∨ phi = nan → (Fluid.Mavko_Jizba Vp_hs Vs_hs Vpdry Vsdry K0 rhodry rhofl Kfl
        phi).2.2.1 = nan)
    ∧ (Vp_hs = nan ∨ Vs_hs = nan ∨ Vpdry = nan ∨ Vsdry = nan ∨ rhodry = nan ∨ rhofl = nan ∨ phi =
      nan → (Fluid.Mavko_Jizba Vp_hs Vs_hs Vpdry Vsdry K0 rhodry rhofl Kfl phi).2.2.2 = nan)
    ∧ (∀ y, (Fluid.Mavko_Jizba Vp_hs Vs_hs Vpdry Vsdry y rhodry rhofl Kfl phi).2.2.2 =
      (Fluid.Mavko_Jizba Vp_hs Vs_hs Vpdry Vsdry K0 rhodry rhofl Kfl phi).2.2.2)
    ∧ (∀ y, (Fluid.Mavko_Jizba Vp_hs Vs_hs Vpdry Vsdry K0 rhodry rhofl y phi).2.2.2 =
      (Fluid.Mavko_Jizba Vp_hs Vs_hs Vpdry Vsdry K0 rhodry rhofl Kfl phi).2.2.2) := by
  refine ⟨?_, ?_, ?_, ?_, ?_, ?_, ?_, ?_, ?_, ?_, ?_, ?_, ?_⟩
  · nan_any [Fluid.Mavko_Jizba, utils.M_from_V, Fluid.Gassmann, utils.V]
  · exact fun _ => rfl
  · exact fun _ => rfl
  · exact fun _ => rfl
  · nan_any [Fluid.Mavko_Jizba, utils.M_from_V, Fluid.Gassmann, utils.V]
  · exact fun _ => rfl
  · exact fun _ => rfl
  · exact fun _ => rfl
  · exact fun _ => rfl
  · nan_any [Fluid.Mavko_Jizba, utils.M_from_V, Fluid.Gassmann, utils.V]
  · nan_any [Fluid.Mavko_Jizba, utils.M_from_V, Fluid.Gassmann, utils.V]
  · exact fun _ => rfl
  · exact fun _ => rfl

/-! ## `Anisotropy` -/

theorem C110_Anisotropy_Thomsen (C11 C33 C13 C44 C66 den theta : α) :
    (C11 = nan ∨ C33 = nan ∨ C13 = nan ∨ C44 = nan ∨ den = nan ∨ theta = nan → (Anisotropy.Thomsen
      C11 C33 C13 C44 C66 den theta).1 = nan)
    ∧ (∀ y, (Anisotropy.Thomsen C11 C33 C13 C44 y den theta).1 = (Anisotropy.Thomsen C11 C33 C13
      C44 C66 den theta).1)
    ∧ (C11 = nan ∨ C33 = nan ∨ C13 = nan ∨ C44 = nan ∨ den = nan ∨ theta = nan →
      (Anisotropy.Thomsen C11 C33 C13 C44 C66 den theta).2.1 = nan)
    ∧ (∀ y, (Anisotropy.Thomsen C11 C33 C13 C44 y den theta).2.1 = (Anisotropy.Thomsen C11 C33 C13
      C44 C66 den theta).2.1)
    ∧ (C44 = nan ∨ C66 = nan ∨ den = nan ∨ theta = nan → (Anisotropy.Thomsen C11 C33 C13 C44 C66
      den theta).2.2.1 = nan)
    ∧ (∀ y, (Anisotropy.Thomsen y C33 C13 C44 C66 den theta).2.2.1 = (Anisotropy.Thomsen C11 C33
      C13 C44 C66 den theta).2.2.1)
    ∧ (∀ y, (Anisotropy.Thomsen C11 y C13 C44 C66 den theta).2.2.1 = (Anisotropy.Thomsen C11 C33
      C13 C44 C66 den theta).2.2.1)
    ∧ (∀ y, (Anisotropy.Thomsen C11 C33 y C44 C66 den theta).2.2.1 = (Anisotropy.Thomsen C11 C33
      C13 C44 C66 den theta).2.2.1)
    ∧ (C11 = nan ∨ C33 = nan → (Anisotropy.Thomsen C11 C33 C13 C44 C66 den theta).2.2.2.1 = nan)
    ∧ (∀ y, (Anisotropy.Thomsen C11 C33 y C44 C66 den theta).2.2.2.1 = (Anisotropy.Thomsen C11 C33
      C13 C44 C66 den theta).2.2.2.1)
    ∧ (∀ y, (Anisotropy.Thomsen C11 C33 C13 y C66 den theta).2.2.2.1 = (Anisotropy.Thomsen C11 C33
      C13 C44 C66 den theta).2.2.2.1)
    ∧ (∀ y, (Anisotropy.Thomsen C11 C33 C13 C44 y den theta).2.2.2.1 = (Anisotropy.Thomsen C11 C33
      C13 C44 C66 den theta).2.2.2.1)
    ∧ (∀ y, (Anisotropy.Thomsen C11 C33 C13 C44 C66 y theta).2.2.2.1 = (Anisotropy.Thomsen C11 C33
      C13 C44 C66 den theta).2.2.2.1)
    ∧ (∀ y, (Anisotropy.Thomsen C11 C33 C13 C44 C66 den y).2.2.2.1 = (Anisotropy.Thomsen C11 C33
      C13 C44 C66 den theta).2.2.2.1)
    ∧ (C44 = nan ∨ C66 = nan → (Anisotropy.Thomsen C11 C33 C13 C44 C66 den theta).2.2.2.2.1 = nan)
    ∧ (∀ y, (Anisotropy.Thomsen y C33 C13 C44 C66 den theta).2.2.2.2.1 = (Anisotropy.Thomsen C11
      C33 C13 C44 C66 den theta).2.2.2.2.1)
    ∧ (∀ y, (Anisotropy.Thomsen C11 y C13 C44 C66 den theta).2.2.2.2.1 = (Anisotropy.Thomsen C11
      C33 C13 C44 C66 den theta).2.2.2.2.1)
    ∧ (∀ y, (Anisotropy.Thomsen C11 C33 y C44 C66 den theta).2.2.2.2.1 = (Anisotropy.Thomsen C11
      C33 C13 C44 C66 den theta).2.2.2.2.1)
    ∧ (∀ y, (Anisotropy.Thomsen C11 C33 C13 C44 C66 y theta).2.2.2.2.1 = (Anisotropy.Thomsen C11
      C33 C13 C44 C66 den theta).2.2.2.2.1)
    ∧ (∀ y, (Anisotropy.Thomsen C11 C33 C13 C44 C66 den y).2.2.2.2.1 = (Anisotropy.Thomsen C11 C33
      C13 C44 C66 den theta).2.2.2.2.1)
    ∧ (C33 = nan ∨ C13 = nan ∨ C44 = nan → (Anisotropy.Thomsen C11 C33 C13 C44 C66 den
      theta).2.2.2.2.2 = nan)
    ∧ (∀ y, (Anisotropy.Thomsen y C33 C13 C44 C66 den theta).2.2.2.2.2 = (Anisotropy.Thomsen C11
      C33 C13 C44 C66 den theta).2.2.2.2.2)
    ∧ (∀ y, (Anisotropy.Thomsen C11 C33 C13 C44 y den theta).2.2.2.2.2 = (Anisotropy.Thomsen C11
      C33 C13 C44 C66 den theta).2.2.2.2.2)
    ∧ (∀ y, (Anisotropy.Thomsen C11 C33 C13 C44 C66 y theta).2.2.2.2.2 = (Anisotropy.Thomsen C11
      C33 C13 C44 C66 den theta).2.2.2.2.2)
    ∧ (∀ y, (Anisotropy.Thomsen C11 C33 C13 C44 C66 den y).2.2.2.2.2 = (Anisotropy.Thomsen C11 C33
      C13 C44 C66 den theta).2.2.2.2.2) := by
  refine ⟨?_, ?_, ?_, ?_, ?_, ?_, ?_, ?_, ?_, ?_, ?_, ?_, ?_, ?_, ?_, ?_, ?_, ?_, ?_, ?_, ?_, ?_,
    ?_, ?_, ?_⟩
  · nan_any [Anisotropy.Thomsen]
  · exact fun _ => rfl
  · nan_any [Anisotropy.Thomsen]
  · exact fun _ => rfl
  · nan_any [Anisotropy.Thomsen]
  · exact fun _ => rfl
  · exact fun _ => rfl
  · exact fun _ => rfl
  · nan_any [Anisotropy.Thomsen]
  · exact fun _ => rfl
  · exact fun _ => rfl
  · exact fun _ => rfl
  · exact fun _ => rfl
  · exact fun _ => rfl
  · nan_any [Anisotropy.Thomsen]
  · exact fun _ => rfl
  · exact fun _ => rfl
  · exact fun _ => rfl
  · exact fun _ => rfl
  · exact fun _ => rfl
  · nan_any [Anisotropy.Thomsen]
  · exact fun _ => rfl
  · exact fun _ => rfl
  · exact fun _ => rfl
  · exact fun _ => rfl

theorem C110_Anisotropy_Thomsen_Tsvankin (C11 C22 C33 C12 C13 C23 C44 C55 C66 : α) :
    (C22 = nan ∨ C33 = nan → (Anisotropy.Thomsen_Tsvankin C11 C22 C33 C12 C13 C23 C44 C55 C66).1 =
      nan)
    ∧ (∀ y, (Anisotropy.Thomsen_Tsvankin y C22 C33 C12 C13 C23 C44 C55 C66).1 =
      (Anisotropy.Thomsen_Tsvankin C11 C22 C33 C12 C13 C23 C44 C55 C66).1)
    ∧ (∀ y, (Anisotropy.Thomsen_Tsvankin C11 C22 C33 y C13 C23 C44 C55 C66).1 =
      (Anisotropy.Thomsen_Tsvankin C11 C22 C33 C12 C13 C23 C44 C55 C66).1)
    ∧ (∀ y, (Anisotropy.Thomsen_Tsvankin C11 C22 C33 C12 y C23 C44 C55 C66).1 =
      (Anisotropy.Thomsen_Tsvankin C11 C22 C33 C12 C13 C23 C44 C55 C66).1)
    ∧ (∀ y, (Anisotropy.Thomsen_Tsvankin C11 C22 C33 C12 C13 y C44 C55 C66).1 =
      (Anisotropy.Thomsen_Tsvankin C11 C22 C33 C12 C13 C23 C44 C55 C66).1)
    ∧ (∀ y, (Anisotropy.Thomsen_Tsvankin C11 C22 C33 C12 C13 C23 y C55 C66).1 =
      (Anisotropy.Thomsen_Tsvankin C11 C22 C33 C12 C13 C23 C44 C55 C66).1)
    ∧ (∀ y, (Anisotropy.Thomsen_Tsvankin C11 C22 C33 C12 C13 C23 C44 y C66).1 =
      (Anisotropy.Thomsen_Tsvankin C11 C22 C33 C12 C13 C23 C44 C55 C66).1)
    ∧ (∀ y, (Anisotropy.Thomsen_Tsvankin C11 C22 C33 C12 C13 C23 C44 C55 y).1 =
      (Anisotropy.Thomsen_Tsvankin C11 C22 C33 C12 C13 C23 C44 C55 C66).1)
    ∧ (C33 = nan ∨ C23 = nan ∨ C44 = nan → (Anisotropy.Thomsen_Tsvankin C11 C22 C33 C12 C13 C23 C44
      C55 C66).2.1 = nan)
    ∧ (∀ y, (Anisotropy.Thomsen_Tsvankin y C22 C33 C12 C13 C23 C44 C55 C66).2.1 =
      (Anisotropy.Thomsen_Tsvankin C11 C22 C33 C12 C13 C23 C44 C55 C66).2.1)
    ∧ (∀ y, (Anisotropy.Thomsen_Tsvankin C11 y C33 C12 C13 C23 C44 C55 C66).2.1 =
      (Anisotropy.Thomsen_Tsvankin C11 C22 C33 C12 C13 C23 C44 C55 C66).2.1)
    ∧ (∀ y, (Anisotropy.Thomsen_Tsvankin C11 C22 C33 y C13 C23 C44 C55 C66).2.1 =
      (Anisotropy.Thomsen_Tsvankin C11 C22 C33 C12 C13 C23 C44 C55 C66).2.1)
    ∧ (∀ y, (Anisotropy.Thomsen_Tsvankin C11 C22 C33 C12 y C23 C44 C55 C66).2.1 =
      (Anisotropy.Thomsen_Tsvankin C11 C22 C33 C12 C13 C23 C44 C55 C66).2.1)
    ∧ (∀ y, (Anisotropy.Thomsen_Tsvankin C11 C22 C33 C12 C13 C23 C44 y C66).2.1 =
      (Anisotropy.Thomsen_Tsvankin C11 C22 C33 C12 C13 C23 C44 C55 C66).2.1)
    ∧ (∀ y, (Anisotropy.Thomsen_Tsvankin C11 C22 C33 C12 C13 C23 C44 C55 y).2.1 =
      (Anisotropy.Thomsen_Tsvankin C11 C22 C33 C12 C13 C23 C44 C55 C66).2.1)
    ∧ (C55 = nan ∨ C66 = nan → (Anisotropy.Thomsen_Tsvankin C11 C22 C33 C12 C13 C23 C44 C55
      C66).2.2.1 = nan)
    ∧ (∀ y, (Anisotropy.Thomsen_Tsvankin y C22 C33 C12 C13 C23 C44 C55 C66).2.2.1 =
      (Anisotropy.Thomsen_Tsvankin C11 C22 C33 C12 C13 C23 C44 C55 C66).2.2.1)
    ∧ (∀ y, (Anisotropy.Thomsen_Tsvankin C11 y C33 C12 C13 C23 C44 C55 C66).2.2.1 =
      (Anisotropy.Thomsen_Tsvankin C11 C22 C33 C12 C13 C23 C44 C55 C66).2.2.1)
    ∧ (∀ y, (Anisotropy.Thomsen_Tsvankin C11 C22 y C12 C13 C23 C44 C55 C66).2.2.1 =
      (Anisotropy.Thomsen_Tsvankin C11 C22 C33 C12 C13 C23 C44 C55 C66).2.2.1)
    ∧ (∀ y, (Anisotropy.Thomsen_Tsvankin C11 C22 C33 y C13 C23 C44 C55 C66).2.2.1 =
      (Anisotropy.Thomsen_Tsvankin C11 C22 C33 C12 C13 C23 C44 C55 C66).2.2.1)
    ∧ (∀ y, (Anisotropy.Thomsen_Tsvankin C11 C22 C33 C12 y C23 C44 C55 C66).2.2.1 =
      (Anisotropy.Thomsen_Tsvankin C11 C22 C33 C12 C13 C23 C44 C55 C66).2.2.1)
    ∧ (∀ y, (Anisotropy.Thomsen_Tsvankin C11 C22 C33 C12 C13 y C44 C55 C66).2.2.1 =
      (Anisotropy.Thomsen_Tsvankin C11 C22 C33 C12 C13 C23 C44 C55 C66).2.2.1)
    ∧ (∀ y, (Anisotropy.Thomsen_Tsvankin C11 C22 C33 C12 C13 C23 y C55 C66).2.2.1 =
      (Anisotropy.Thomsen_Tsvankin C11 C22 C33 C12 C13 C23 C44 C55 C66).2.2.1)
    ∧ (C11 = nan ∨ C33 = nan → (Anisotropy.Thomsen_Tsvankin C11 C22 C33 C12 C13 C23 C44 C55
      C66).2.2.2.1 = nan)
    ∧ (∀ y, (Anisotropy.Thomsen_Tsvankin C11 y C33 C12 C13 C23 C44 C55 C66).2.2.2.1 =
      (Anisotropy.Thomsen_Tsvankin C11 C22 C33 C12 C13 C23 C44 C55 C66).2.2.2.1)
    ∧ (∀ y, (Anisotropy.Thomsen_Tsvankin C11 C22 C33 y C13 C23 C44 C55 C66).2.2.2.1 =
      (Anisotropy.Thomsen_Tsvankin C11 C22 C33 C12 C13 C23 C44 C55 C66).2.2.2.1)
    ∧ (∀ y, (Anisotropy.Thomsen_Tsvankin C11 C22 C33 C12 y C23 C44 C55 C66).2.2.2.1 =
      (Anisotropy.Thomsen_Tsvankin C11 C22 C33 C12 C13 C23 C44 C55 C66).2.2.2.1)
    ∧ (∀ y, (Anisotropy.Thomsen_Tsvankin C11 C22 C33 C12 C13 y C44 C55 C66).2.2.2.1 =
      (Anisotropy.Thomsen_Tsvankin C11 C22 C33 C12 C13 C23 C44 C55 C66).2.2.2.1)
    ∧ (∀ y, (Anisotropy.Thomsen_Tsvankin C11 C22 C33 C12 C13 C23 y C55 C66).2.2.2.1 =
      (Anisotropy.Thomsen_Tsvankin C11 C22 C33 C12 C13 C23 C44 C55 C66).2.2.2.1)
    ∧ (∀ y, (Anisotropy.Thomsen_Tsvankin C11 C22 C33 C12 C13 C23 C44 y C66).2.2.2.1 =
      (Anisotropy.Thomsen_Tsvankin C11 C22 C33 C12 C13 C23 C44 C55 C66).2.2.2.1)
    ∧ (∀ y, (Anisotropy.Thomsen_Tsvankin C11 C22 C33 C12 C13 C23 C44 C55 y).2.2.2.1 =
      (Anisotropy.Thomsen_Tsvankin C11 C22 C33 C12 C13 C23 C44 C55 C66).2.2.2.1)
    ∧ (C33 = nan ∨ C13 = nan ∨ C55 = nan → (Anisotropy.Thomsen_Tsvankin C11 C22 C33 C12 C13 C23 C44
      C55 C66).2.2.2.2.1 = nan)
    ∧ (∀ y, (Anisotropy.Thomsen_Tsvankin y C22 C33 C12 C13 C23 C44 C55 C66).2.2.2.2.1 =
      (Anisotropy.Thomsen_Tsvankin C11 C22 C33 C12 C13 C23 C44 C55 C66).2.2.2.2.1)
    ∧ (∀ y, (Anisotropy.Thomsen_Tsvankin C11 y C33 C12 C13 C23 C44 C55 C66).2.2.2.2.1 =
      (Anisotropy.Thomsen_Tsvankin C11 C22 C33 C12 C13 C23 C44 C55 C66).2.2.2.2.1)
    ∧ (∀ y, (Anisotropy.Thomsen_Tsvankin C11 C22 C33 y C13 C23 C44 C55 C66).2.2.2.2.1 =
      (Anisotropy.Thomsen_Tsvankin C11 C22 C33 C12 C13 C23 C44 C55 C66).2.2.2.2.1)
    ∧ (∀ y, (Anisotropy.Thomsen_Tsvankin C11 C22 C33 C12 C13 y C44 C55 C66).2.2.2.2.1 =
      (Anisotropy.Thomsen_Tsvankin C11 C22 C33 C12 C13 C23 C44 C55 C66).2.2.2.2.1)
    ∧ (∀ y, (Anisotropy.Thomsen_Tsvankin C11 C22 C33 C12 C13 C23 y C55 C66).2.2.2.2.1 =
      (Anisotropy.Thomsen_Tsvankin C11 C22 C33 C12 C13 C23 C44 C55 C66).2.2.2.2.1)
    ∧ (∀ y, (Anisotropy.Thomsen_Tsvankin C11 C22 C33 C12 C13 C23 C44 C55 y).2.2.2.2.1 =
      (Anisotropy.Thomsen_Tsvankin C11 C22 C33 C12 C13 C23 C44 C55 C66).2.2.2.2.1)
    ∧ (C44 = nan ∨ C66 = nan → (Anisotropy.Thomsen_Tsvankin C11 C22 C33 C12 C13 C23 C44 C55
      C66).2.2.2.2.2.1 = nan)
    ∧ (∀ y, (Anisotropy.Thomsen_Tsvankin y C22 C33 C12 C13 C23 C44 C55 C66).2.2.2.2.2.1 =
      (Anisotropy.Thomsen_Tsvankin C11 C22 C33 C12 C13 C23 C44 C55 C66).2.2.2.2.2.1)
    ∧ (∀ y, (Anisotropy.Thomsen_Tsvankin C11 y C33 C12 C13 C23 C44 C55 C66).2.2.2.2.2.1 =
      (Anisotropy.Thomsen_Tsvankin C11 C22 C33 C12 C13 C23 C44 C55 C66).2.2.2.2.2.1)
    ∧ (∀ y, (Anisotropy.Thomsen_Tsvankin C11 C22 y C12 C13 C23 C44 C55 C66).2.2.2.2.2.1 =
      (Anisotropy.Thomsen_Tsvankin C11 C22 C33 C12 C13 C23 C44 C55 C66).2.2.2.2.2.1)
    ∧ (∀ y, (Anisotropy.Thomsen_Tsvankin C11 C22 C33 y C13 C23 C44 C55 C66).2.2.2.2.2.1 =
      (Anisotropy.Thomsen_Tsvankin C11 C22 C33 C12 C13 C23 C44 C55 C66).2.2.2.2.2.1)
    ∧ (∀ y, (Anisotropy.Thomsen_Tsvankin C11 C22 C33 C12 y C23 C44 C55 C66).2.2.2.2.2.1 =
      (Anisotropy.Thomsen_Tsvankin C11 C22 C33 C12 C13 C23 C44 C55 C66).2.2.2.2.2.1)
    ∧ (∀ y, (Anisotropy.Thomsen_Tsvankin C11 C22 C33 C12 C13 y C44 C55 C66).2.2.2.2.2.1 =
      (Anisotropy.Thomsen_Tsvankin C11 C22 C33 C12 C13 C23 C44 C55 C66).2.2.2.2.2.1)
    ∧ (∀ y, (Anisotropy.Thomsen_Tsvankin C11 C22 C33 C12 C13 C23 C44 y C66).2.2.2.2.2.1 =
      (Anisotropy.Thomsen_Tsvankin C11 C22 C33 C12 C13 C23 C44 C55 C66).2.2.2.2.2.1)
    ∧ (C11 = nan ∨ C12 = nan ∨ C66 = nan → (Anisotropy.Thomsen_Tsvankin C11 C22 C33 C12 C13 C23 C44
      C55 C66).2.2.2.2.2.2 = nan)
    ∧ (∀ y, (Anisotropy.Thomsen_Tsvankin C11 y C33 C12 C13 C23 C44 C55 C66).2.2.2.2.2.2 =
      (Anisotropy.Thomsen_Tsvankin C11 C22 C33 C12 C13 C23 C44 C55 C66).2.2.2.2.2.2)
    ∧ (∀ y, (Anisotropy.Thomsen_Tsvankin C11 C22 y C12 C13 C23 C44 C55 C66).2.2.2.2.2.2 =
      (Anisotropy.Thomsen_Tsvankin C11 C22 C33 C12 C13 C23 C44 C55 C66).2.2.2.2.2.2)
    ∧ (∀ y, (Anisotropy.Thomsen_Tsvankin C11 C22 C33 C12 y C23 C44 C55 C66).2.2.2.2.2.2 =
      (Anisotropy.Thomsen_Tsvankin C11 C22 C33 C12 C13 C23 C44 C55 C66).2.2.2.2.2.2)
    ∧ (∀ y, (Anisotropy.Thomsen_Tsvankin C11 C22 C33 C12 C13 y C44 C55 C66).2.2.2.2.2.2 =
      (Anisotropy.Thomsen_Tsvankin C11 C22 C33 C12 C13 C23 C44 C55 C66).2.2.2.2.2.2)
    ∧ (∀ y, (Anisotropy.Thomsen_Tsvankin C11 C22 C33 C12 C13 C23 y C55 C66).2.2.2.2.2.2 =
      (Anisotropy.Thomsen_Tsvankin C11 C22 C33 C12 C13 C23 C44 C55 C66).2.2.2.2.2.2)
    ∧ (∀ y, (Anisotropy.Thomsen_Tsvankin C11 C22 C33 C12 C13 C23 C44 y C66).2.2.2.2.2.2 =
      (Anisotropy.Thomsen_Tsvankin C11 C22 C33 C12 C13 C23 C44 C55 C66).2.2.2.2.2.2) := by
  refine ⟨?_, ?_, ?_, ?_, ?_, ?_, ?_, ?_, ?_, ?_, ?_, ?_, ?_, ?_, ?_, ?_, ?_, ?_, ?_, ?_, ?_, ?_,
    ?_, ?_, ?_, ?_, ?_, ?_, ?_, ?_, ?_, ?_, ?_, ?_, ?_, ?_, ?_, ?_, ?_, ?_, ?_, ?_, ?_, ?_, ?_, ?_,
      ?_, ?_, ?_, ?_, ?_, ?_, ?_⟩
  · nan_any [Anisotropy.Thomsen_Tsvankin]
  · exact fun _ => rfl
  · exact fun _ => rfl
  · exact fun _ => rfl
  · exact fun _ => rfl
  · exact fun _ => rfl
  · exact fun _ => rfl
  · exact fun _ => rfl
  · nan_any [Anisotropy.Thomsen_Tsvankin]
  · exact fun _ => rfl
  · exact fun _ => rfl
  · exact fun _ => rfl
  · exact fun _ => rfl
  · exact fun _ => rfl
  · exact fun _ => rfl
  · nan_any [Anisotropy.Thomsen_Tsvankin]
  · exact fun _ => rfl
  · exact fun _ => rfl
  · exact fun _ => rfl
  · exact fun _ => rfl
  · exact fun _ => rfl
  · exact fun _ => rfl
  · exact fun _ => rfl
  · nan_any [Anisotropy.Thomsen_Tsvankin]
  · exact fun _ => rfl
  · exact fun _ => rfl
  · exact fun _ => rfl
  · exact fun _ => rfl
  · exact fun _ => rfl
  · exact fun _ => rfl
  · exact fun _ => rfl
  · nan_any [Anisotropy.Thomsen_Tsvankin]
  · exact fun _ => rfl
  · exact fun _ => rfl
  · exact fun _ => rfl
  · exact fun _ => rfl
  · exact fun _ => rfl
  · exact fun _ => rfl
  · nan_any [Anisotropy.Thomsen_Tsvankin]
  · exact fun _ => rfl
  · exact fun _ => rfl
  · exact fun _ => rfl
  · exact fun _ => rfl
  · exact fun _ => rfl
  · exact fun _ => rfl
  · exact fun _ => rfl
  · nan_any [Anisotropy.Thomsen_Tsvankin]
  · exact fun _ => rfl
  · exact fun _ => rfl
  · exact fun _ => rfl
  · exact fun _ => rfl
  · exact fun _ => rfl
  · exact fun _ => rfl

/-! ## `AVO` -/

theorem C110_AVO_Aki_Richards (theta vp1 vp2 vs1 vs2 den1 den2 : α) :
    (theta = nan ∨ vp1 = nan ∨ vp2 = nan ∨ vs1 = nan ∨ vs2 = nan ∨ den1 = nan ∨ den2 = nan →
      (AVO.Aki_Richards theta vp1 vp2 vs1 vs2 den1 den2).1 = nan)
    ∧ (theta = nan ∨ vp1 = nan ∨ vp2 = nan ∨ vs1 = nan ∨ vs2 = nan ∨ den1 = nan ∨ den2 = nan →
      (AVO.Aki_Richards theta vp1 vp2 vs1 vs2 den1 den2).2.1 = nan)
    ∧ (vp1 = nan ∨ vp2 = nan ∨ den1 = nan ∨ den2 = nan → (AVO.Aki_Richards theta vp1 vp2 vs1 vs2
      den1 den2).2.2.1 = nan)
    ∧ (∀ y, (AVO.Aki_Richards y vp1 vp2 vs1 vs2 den1 den2).2.2.1 = (AVO.Aki_Richards theta vp1 vp2
      vs1 vs2 den1 den2).2.2.1)
    ∧ (∀ y, (AVO.Aki_Richards theta vp1 vp2 y vs2 den1 den2).2.2.1 = (AVO.Aki_Richards theta vp1
      vp2 vs1 vs2 den1 den2).2.2.1)
    ∧ (∀ y, (AVO.Aki_Richards theta vp1 vp2 vs1 y den1 den2).2.2.1 = (AVO.Aki_Richards theta vp1
      vp2 vs1 vs2 den1 den2).2.2.1)
    ∧ (vp1 = nan ∨ vp2 = nan ∨ vs1 = nan ∨ vs2 = nan ∨ den1 = nan ∨ den2 = nan → (AVO.Aki_Richards
      theta vp1 vp2 vs1 vs2 den1 den2).2.2.2 = nan)
    ∧ (∀ y, (AVO.Aki_Richards y vp1 vp2 vs1 vs2 den1 den2).2.2.2 = (AVO.Aki_Richards theta vp1 vp2
      vs1 vs2 den1 den2).2.2.2) := by
  refine ⟨?_, ?_, ?_, ?_, ?_, ?_, ?_, ?_⟩
  · nan_any [AVO.Aki_Richards]
  · nan_any [AVO.Aki_Richards]
  · nan_any [AVO.Aki_Richards]
  · exact fun _ => rfl
  · exact fun _ => rfl
  · exact fun _ => rfl
  · nan_any [AVO.Aki_Richards]
  · exact fun _ => rfl

theorem C110_AVO_zoeppritz (vp1 vs1 rho1 vp2 vs2 rho2 theta : α) :
    (vp1 = nan ∨ vs1 = nan ∨ rho1 = nan ∨ vp2 = nan ∨ vs2 = nan ∨ rho2 = nan ∨ theta = nan →
      (AVO.zoeppritz vp1 vs1 rho1 vp2 vs2 rho2 theta).1 = nan)
    ∧ (vp1 = nan ∨ vs1 = nan ∨ rho1 = nan ∨ vp2 = nan ∨ vs2 = nan ∨ rho2 = nan ∨ theta = nan →
      (AVO.zoeppritz vp1 vs1 rho1 vp2 vs2 rho2 theta).2 = nan) := by
  refine ⟨?_, ?_⟩
  · nan_any [AVO.zoeppritz]
  · nan_any [AVO.zoeppritz]

theorem C110_AVO_AVO_abe (vp1 vs1 d1 vp2 vs2 d2 : α) :
    (vp1 = nan ∨ d1 = nan ∨ vp2 = nan ∨ d2 = nan → (AVO.AVO_abe vp1 vs1 d1 vp2 vs2 d2).1 = nan)
    ∧ (∀ y, (AVO.AVO_abe vp1 y d1 vp2 vs2 d2).1 = (AVO.AVO_abe vp1 vs1 d1 vp2 vs2 d2).1)
    ∧ (∀ y, (AVO.AVO_abe vp1 vs1 d1 vp2 y d2).1 = (AVO.AVO_abe vp1 vs1 d1 vp2 vs2 d2).1)
    ∧ (vp1 = nan ∨ vs1 = nan ∨ d1 = nan ∨ vp2 = nan ∨ vs2 = nan ∨ d2 = nan → (AVO.AVO_abe vp1 vs1
      d1 vp2 vs2 d2).2.1 = nan)
    ∧ (vp1 = nan ∨ vs1 = nan ∨ d1 = nan ∨ vp2 = nan ∨ vs2 = nan ∨ d2 = nan → (AVO.AVO_abe vp1 vs1
      d1 vp2 vs2 d2).2.2.1 = nan)
    ∧ (vp1 = nan ∨ vs1 = nan ∨ d1 = nan ∨ vp2 = nan ∨ vs2 = nan ∨ d2 = nan → (AVO.AVO_abe vp1 vs1
      d1 vp2 vs2 d2).2.2.2.1 = nan)
    ∧ (vp1 = nan ∨ vs1 = nan ∨ d1 = nan ∨ vp2 = nan ∨ vs2 = nan ∨ d2 = nan → (AVO.AVO_abe vp1 vs1
      d1 vp2 vs2 d2).2.2.2.2 = nan) := by
  refine ⟨?_, ?_, ?_, ?_, ?_, ?_, ?_⟩
  · nan_any [AVO.AVO_abe]
  · exact fun _ => rfl
  · exact fun _ => rfl
  · nan_any [AVO.AVO_abe]
  · nan_any [AVO.AVO_abe]
  · nan_any [AVO.AVO_abe]
  · nan_any [AVO.AVO_abe]

theorem C110_AVO_AVO_ortho (a1 b1 e11 d11 e12 d12 g1 rho1 a2 b2 e21 d21 e22 d22 g2 rho2 the : α) :
    (a1 = nan ∨ b1 = nan ∨ e12 = nan ∨ d12 = nan ∨ g1 = nan ∨ rho1 = nan ∨ a2 = nan ∨ b2 = nan ∨
      e22 = nan ∨ d22 = nan ∨ g2 = nan ∨ rho2 = nan ∨ the = nan → (AVO.AVO_ortho a1 b1 e11 d11 e12
        d12 g1 rho1 a2 b2 e21 d21 e22 d22 g2 rho2 the).1 = nan)
    ∧ (∀ y, (AVO.AVO_ortho a1 b1 y d11 e12 d12 g1 rho1 a2 b2 e21 d21 e22 d22 g2 rho2 the).1 =
      (AVO.AVO_ortho a1 b1 e11 d11 e12 d12 g1 rho1 a2 b2 e21 d21 e22 d22 g2 rho2 the).1)
    ∧ (∀ y, (AVO.AVO_ortho a1 b1 e11 y e12 d12 g1 rho1 a2 b2 e21 d21 e22 d22 g2 rho2 the).1 =
      (AVO.AVO_ortho a1 b1 e11 d11 e12 d12 g1 rho1 a2 b2 e21 d21 e22 d22 g2 rho2 the).1)
    ∧ (∀ y, (AVO.AVO_ortho a1 b1 e11 d11 e12 d12 g1 rho1 a2 b2 y d21 e22 d22 g2 rho2 the).1 =
      (AVO.AVO_ortho a1 b1 e11 d11 e12 d12 g1 rho1 a2 b2 e21 d21 e22 d22 g2 rho2 the).1)
    ∧ (∀ y, (AVO.AVO_ortho a1 b1 e11 d11 e12 d12 g1 rho1 a2 b2 e21 y e22 d22 g2 rho2 the).1 =
      (AVO.AVO_ortho a1 b1 e11 d11 e12 d12 g1 rho1 a2 b2 e21 d21 e22 d22 g2 rho2 the).1)
    ∧ (a1 = nan ∨ b1 = nan ∨ e11 = nan ∨ d11 = nan ∨ rho1 = nan ∨ a2 = nan ∨ b2 = nan ∨ e21 = nan ∨
      d21 = nan ∨ rho2 = nan ∨ the = nan → (AVO.AVO_ortho a1 b1 e11 d11 e12 d12 g1 rho1 a2 b2 e21
        d21 e22 d22 g2 rho2 the).2 = nan)
    ∧ (∀ y, (AVO.AVO_ortho a1 b1 e11 d11 y d12 g1 rho1 a2 b2 e21 d21 e22 d22 g2 rho2 the).2 =
      (AVO.AVO_ortho a1 b1 e11 d11 e12 d12 g1 rho1 a2 b2 e21 d21 e22 d22 g2 rho2 the).2)
    ∧ (∀ y, (AVO.AVO_ortho a1 b1 e11 d11 e12 y g1 rho1 a2 b2 e21 d21 e22 d22 g2 rho2 the).2 =
      (AVO.AVO_ortho a1 b1 e11 d11 e12 d12 g1 rho1 a2 b2 e21 d21 e22 d22 g2 rho2 the).2)
    ∧ (∀ y, (AVO.AVO_ortho a1 b1 e11 d11 e12 d12 y rho1 a2 b2 e21 d21 e22 d22 g2 rho2 the).2 =
      (AVO.AVO_ortho a1 b1 e11 d11 e12 d12 g1 rho1 a2 b2 e21 d21 e22 d22 g2 rho2 the).2)
    ∧ (∀ y, (AVO.AVO_ortho a1 b1 e11 d11 e12 d12 g1 rho1 a2 b2 e21 d21 y d22 g2 rho2 the).2 =
      (AVO.AVO_ortho a1 b1 e11 d11 e12 d12 g1 rho1 a2 b2 e21 d21 e22 d22 g2 rho2 the).2)
    ∧ (∀ y, (AVO.AVO_ortho a1 b1 e11 d11 e12 d12 g1 rho1 a2 b2 e21 d21 e22 y g2 rho2 the).2 =
      (AVO.AVO_ortho a1 b1 e11 d11 e12 d12 g1 rho1 a2 b2 e21 d21 e22 d22 g2 rho2 the).2)
    ∧ (∀ y, (AVO.AVO_ortho a1 b1 e11 d11 e12 d12 g1 rho1 a2 b2 e21 d21 e22 d22 y rho2 the).2 =
      (AVO.AVO_ortho a1 b1 e11 d11 e12 d12 g1 rho1 a2 b2 e21 d21 e22 d22 g2 rho2 the).2) := by
  refine ⟨?_, ?_, ?_, ?_, ?_, ?_, ?_, ?_, ?_, ?_, ?_, ?_⟩
  · nan_any [AVO.AVO_ortho]
  · exact fun _ => rfl
  · exact fun _ => rfl
  · exact fun _ => rfl
  · exact fun _ => rfl
  · nan_any [AVO.AVO_ortho]
  · exact fun _ => rfl
  · exact fun _ => rfl
  · exact fun _ => rfl
  · exact fun _ => rfl
  · exact fun _ => rfl
  · exact fun _ => rfl

/-! ## `BW` -/

theorem C110_BW_dz_dp (P_pr T_pr : α) :
    (P_pr = nan ∨ T_pr = nan → BW.dz_dp P_pr T_pr = nan) := by
  nan_any [BW.dz_dp]

theorem C110_BW_pseudo_p_t (P T G : α) :
    (T = nan → (BW.pseudo_p_t P T G).1 = nan)
    ∧ (∀ y, (BW.pseudo_p_t y T G).1 = (BW.pseudo_p_t P T G).1)
    ∧ (∀ y, (BW.pseudo_p_t P T y).1 = (BW.pseudo_p_t P T G).1)
    ∧ (P = nan ∨ G = nan → (BW.pseudo_p_t P T G).2.1 = nan)
    ∧ (∀ y, (BW.pseudo_p_t P y G).2.1 = (BW.pseudo_p_t P T G).2.1)
    ∧ (T = nan ∨ G = nan → (BW.pseudo_p_t P T G).2.2 = nan)
    ∧ (∀ y, (BW.pseudo_p_t y T G).2.2 = (BW.pseudo_p_t P T G).2.2) := by
  refine ⟨?_, ?_, ?_, ?_, ?_, ?_, ?_⟩
  · nan_any [BW.pseudo_p_t]
  · exact fun _ => rfl
  · exact fun _ => rfl
  · nan_any [BW.pseudo_p_t]
  · exact fun _ => rfl
  · nan_any [BW.pseudo_p_t]
  · exact fun _ => rfl

theorem C110_BW_rho_K_co2 (P T G : α) :
    (P = nan ∨ T = nan ∨ G = nan → (BW.rho_K_co2 P T G).1 = nan)
    ∧ (P = nan ∨ T = nan → (BW.rho_K_co2 P T G).2 = nan)
    ∧ (∀ y, (BW.rho_K_co2 P T y).2 = (BW.rho_K_co2 P T G).2) := by
  refine ⟨?_, ?_, ?_⟩
  · nan_any [BW.rho_K_co2, BW.rho_K_reduced, BW.dz_dp]
  · nan_any [BW.rho_K_co2, BW.rho_K_reduced, BW.dz_dp]
  · exact fun _ => rfl

theorem C110_BW_rho_K_gas (P T G : α) :
    (P = nan ∨ T = nan ∨ G = nan → (BW.rho_K_gas P T G).1 = nan)
    ∧ (P = nan ∨ T = nan ∨ G = nan → (BW.rho_K_gas P T G).2 = nan) := by
  refine ⟨?_, ?_⟩
  · nan_any [BW.rho_K_gas, BW.pseudo_p_t, BW.rho_K_reduced, BW.dz_dp]
  · nan_any [BW.rho_K_gas, BW.pseudo_p_t, BW.rho_K_reduced, BW.dz_dp]

theorem C110_BW_rho_K_oil (P T den : α) :
    (P = nan ∨ T = nan ∨ den = nan → (BW.rho_K_oil P T den).1 = nan)
    ∧ (P = nan ∨ T = nan ∨ den = nan → (BW.rho_K_oil P T den).2 = nan) := by
  refine ⟨?_, ?_⟩
  · nan_any [BW.rho_K_oil]
  · nan_any [BW.rho_K_oil]

theorem C110_BW_rho_K_go (P T den G : α) (Rg : Option α) :
    (T = nan ∨ den = nan ∨ G = nan → (BW.rho_K_go P T den G Rg).1 = nan)
    ∧ (P = nan ∨ T = nan ∨ den = nan ∨ G = nan → (BW.rho_K_go P T den G Rg).2 = nan) := by
  refine ⟨?_, ?_⟩
  · nan_any [BW.rho_K_go]
  · nan_any [BW.rho_K_go]

theorem C110_BW_rho_K_water (T P : α) :
    (T = nan ∨ P = nan → (BW.rho_K_water T P).1 = nan)
    ∧ (T = nan ∨ P = nan → (BW.rho_K_water T P).2 = nan) := by
  refine ⟨?_, ?_⟩
  · nan_any [BW.rho_K_water, BW.v_water, BW.waterCoef]
  · nan_any [BW.rho_K_water, BW.v_water, BW.waterCoef]

theorem C110_BW_v_brine (T P S : α) :
    (T = nan ∨ P = nan ∨ S = nan → BW.v_brine T P S = nan) := by
  nan_any [BW.v_brine, BW.v_water, BW.waterCoef]

theorem C110_BW_rho_K_brine (T P S : α) :
    (T = nan ∨ P = nan ∨ S = nan → (BW.rho_K_brine T P S).1 = nan)
    ∧ (T = nan ∨ P = nan ∨ S = nan → (BW.rho_K_brine T P S).2 = nan) := by
  refine ⟨?_, ?_⟩
  · nan_any [BW.rho_K_brine, BW.rho_K_water, BW.v_water, BW.waterCoef, BW.v_brine]
  · nan_any [BW.rho_K_brine, BW.rho_K_water, BW.v_water, BW.waterCoef, BW.v_brine]

theorem C110_BW_co2_brine (temperature pressure salinity Sco2 : α) (brie : Option α) (bw : Bool) :
    (temperature = nan ∨ pressure = nan ∨ salinity = nan ∨ Sco2 = nan → (BW.co2_brine temperature
      pressure salinity Sco2 brie bw).1 = nan)
    ∧ (temperature = nan ∨ pressure = nan ∨ salinity = nan → (BW.co2_brine temperature pressure
      salinity Sco2 brie bw).2 = nan) := by
  refine ⟨?_, ?_⟩
  · nan_any [BW.co2_brine, BW.rho_K_gas, BW.pseudo_p_t, BW.rho_K_reduced, BW.dz_dp, BW.rho_K_co2,
    BW.rho_K_brine, BW.rho_K_water, BW.v_water, BW.waterCoef, BW.v_brine, Fluid.Brie]
  · nan_any [BW.co2_brine, BW.rho_K_gas, BW.pseudo_p_t, BW.rho_K_reduced, BW.dz_dp, BW.rho_K_co2,
    BW.rho_K_brine, BW.rho_K_water, BW.v_water, BW.waterCoef, BW.v_brine, Fluid.Brie]

/-! ## `Empirical` -/

theorem C110_Empirical_krief (phi Kg Gg : α) :
    (phi = nan ∨ Kg = nan ∨ Gg = nan → (Empirical.krief phi Kg Gg).1 = nan)
    ∧ (phi = nan ∨ Gg = nan → (Empirical.krief phi Kg Gg).2.1 = nan)
    ∧ (∀ y, (Empirical.krief phi y Gg).2.1 = (Empirical.krief phi Kg Gg).2.1)
    ∧ (phi = nan ∨ Kg = nan → (Empirical.krief phi Kg Gg).2.2 = nan)
    ∧ (∀ y, (Empirical.krief phi Kg y).2.2 = (Empirical.krief phi Kg Gg).2.2) := by
  refine ⟨?_, ?_, ?_, ?_, ?_⟩
  · nan_any [Empirical.krief]
  · nan_any [Empirical.krief]
  · exact fun _ => rfl
  · nan_any [Empirical.krief]
  · exact fun _ => rfl

theorem C110_Empirical_esti_VS (Vp vsh : α) :
    (Vp = nan ∨ vsh = nan → Empirical.esti_VS Vp vsh = nan) := by
  nan_any [Empirical.esti_VS]

theorem C110_Empirical_han (phi C : α) :
    (phi = nan ∨ C = nan → (Empirical.han phi C).1 = nan)
    ∧ (phi = nan ∨ C = nan → (Empirical.han phi C).2 = nan) := by
  refine ⟨?_, ?_⟩
  · nan_any [Empirical.han]
  · nan_any [Empirical.han]

theorem C110_Empirical_ehrenberg (Z : α) :
    (Z = nan → Empirical.ehrenberg Z = nan) := by
  nan_any [Empirical.ehrenberg]

theorem C110_Empirical_ramm_porosity (Z : α) (HB : Bool) :
    (Z = nan → Empirical.ramm_porosity Z HB = nan) := by
  nan_any [Empirical.ramm_porosity]

theorem C110_Empirical_empirical_StPeter (Pe : α) (sample : Int) :
    (Pe = nan → ∀ v, Empirical.empirical_StPeter Pe sample = .ok v → v.1 = nan)
    ∧ (Pe = nan → ∀ v, Empirical.empirical_StPeter Pe sample = .ok v → v.2 = nan) := by
  refine ⟨?_, ?_⟩
  · nan_any_ok [Empirical.empirical_StPeter]
  · nan_any_ok [Empirical.empirical_StPeter]

theorem C110_Empirical_Scherbaum (Z : α) :
    (Z = nan → Empirical.Scherbaum Z = nan) := by
  nan_any [Empirical.Scherbaum]

theorem C110_Empirical_Sclater (phi : α) :
    (phi = nan → Empirical.Sclater phi = nan) := by
  nan_any [Empirical.Sclater]

theorem C110_Empirical_Storvoll (Z : α) :
    (Z = nan → Empirical.Storvoll Z = nan) := by
  nan_any [Empirical.Storvoll]

theorem C110_Empirical_Hillis (Z : α) :
    (Z = nan → Empirical.Hillis Z = nan) := by
  nan_any [Empirical.Hillis]

theorem C110_Empirical_hjelstuen (Z : α) :
    (Z = nan → Empirical.hjelstuen Z = nan) := by
  nan_any [Empirical.hjelstuen]

theorem C110_Empirical_Cp (phi : α) :
    (phi = nan → Empirical.Cp phi = nan) := by
  nan_any [Empirical.Cp]

/-! ## `Permeability` -/

theorem C110_Permeability_Kozeny_Carman (phi d : α) :
    (phi = nan ∨ d = nan → Permeability.Kozeny_Carman phi d = nan) := by
  nan_any [Permeability.Kozeny_Carman]

theorem C110_Permeability_Kozeny_Carman_Percolation (phi phic d B : α) :
    (phi = nan ∨ phic = nan ∨ d = nan ∨ B = nan → Permeability.Kozeny_Carman_Percolation phi phic d
      B = nan) := by
  nan_any [Permeability.Kozeny_Carman_Percolation]

theorem C110_Permeability_Owolabi (phi Swi : α) :
    (phi = nan ∨ Swi = nan → (Permeability.Owolabi phi Swi).1 = nan)
    ∧ (phi = nan ∨ Swi = nan → (Permeability.Owolabi phi Swi).2 = nan) := by
  refine ⟨?_, ?_⟩
  · nan_any [Permeability.Owolabi]
  · nan_any [Permeability.Owolabi]

theorem C110_Permeability_Perm_logs (phi Swi : α) :
    (phi = nan ∨ Swi = nan → (Permeability.Perm_logs phi Swi).1 = nan)
    ∧ (phi = nan ∨ Swi = nan → (Permeability.Perm_logs phi Swi).2.1 = nan)
    ∧ (phi = nan ∨ Swi = nan → (Permeability.Perm_logs phi Swi).2.2.1 = nan)
    ∧ (phi = nan ∨ Swi = nan → (Permeability.Perm_logs phi Swi).2.2.2 = nan) := by
  refine ⟨?_, ?_, ?_, ?_⟩
  · nan_any [Permeability.Perm_logs]
  · nan_any [Permeability.Perm_logs]
  · nan_any [Permeability.Perm_logs]
  · nan_any [Permeability.Perm_logs]

theorem C110_Permeability_Panda_Lake (d C S tau phi : α) :
    (d = nan ∨ C = nan ∨ S = nan ∨ tau = nan ∨ phi = nan → Permeability.Panda_Lake d C S tau phi =
      nan) := by
  nan_any [Permeability.Panda_Lake]

theorem C110_Permeability_Panda_Lake_cem (phi d : α) :
    (phi = nan ∨ d = nan → Permeability.Panda_Lake_cem phi d = nan) := by
  nan_any [Permeability.Panda_Lake_cem]

theorem C110_Permeability_Revil (phi d : α) :
    (phi = nan ∨ d = nan → Permeability.Revil phi d = nan) := by
  nan_any [Permeability.Revil]

theorem C110_Permeability_Fredrich (phi d b : α) :
    (phi = nan ∨ d = nan ∨ b = nan → Permeability.Fredrich phi d b = nan) := by
  nan_any [Permeability.Fredrich]

theorem C110_Permeability_Bloch (S C D : α) :
    (S = nan ∨ C = nan → (Permeability.Bloch S C D).1 = nan)
    ∧ (∀ y, (Permeability.Bloch S C y).1 = (Permeability.Bloch S C D).1)
    ∧ (S = nan ∨ C = nan ∨ D = nan → (Permeability.Bloch S C D).2 = nan) := by
  refine ⟨?_, ?_, ?_⟩
  · nan_any [Permeability.Bloch]
  · exact fun _ => rfl
  · nan_any [Permeability.Bloch]

theorem C110_Permeability_Bernabe (phi crf w r : α) :
    (phi = nan ∨ crf = nan ∨ w = nan ∨ r = nan → Permeability.Bernabe phi crf w r = nan) := by
  nan_any [Permeability.Bernabe]

/-! ## `QI` -/

theorem C110_QI_matrix_modulus (vsh phi_c phi_0 M_sh M_g M_c : α) :
    (vsh = nan ∨ phi_c = nan ∨ phi_0 = nan ∨ M_g = nan ∨ M_c = nan → ∀ v, QI.matrix_modulus vsh
      phi_c phi_0 M_sh M_g M_c = .ok v → v = nan) := by
  nan_any_ok [QI.matrix_modulus, EM.VRH]

theorem C110_QI_den_matrix (vsh phi_c phi_0 den_sh den_g den_c : α) :
    (vsh = nan ∨ phi_c = nan ∨ phi_0 = nan ∨ den_sh = nan ∨ den_g = nan ∨ den_c = nan → ∀ v,
      QI.den_matrix vsh phi_c phi_0 den_sh den_g den_c = .ok v → v = nan) := by
  nan_any_ok [QI.den_matrix, EM.VRH]

theorem C110_QI_screening (Dqz Kqz Gqz Dsh Ksh Gsh Dc Kc Gc Db Kb phib_p phi_c sigma vsh : α)
  (scheme : Int) (f Cn phi : α) :
    (Dqz = nan ∨ Kqz = nan ∨ Gqz = nan ∨ Dsh = nan ∨ Ksh = nan ∨ Gsh = nan ∨ Db = nan ∨ Kb = nan ∨
      phi_c = nan ∨ sigma = nan ∨ vsh = nan ∨ f = nan ∨ Cn = nan ∨ phi = nan → ∀ v,
        QI.screening_entry Dqz Kqz Gqz Dsh Ksh Gsh Dc Kc Gc Db Kb phib_p phi_c sigma vsh scheme f
          Cn phi = .ok v → v.1 = nan)
    ∧ (Dqz = nan ∨ Kqz = nan ∨ Gqz = nan ∨ Dsh = nan ∨ Ksh = nan ∨ Gsh = nan ∨ Kc = nan ∨ Gc = nan
      ∨ Db = nan ∨ Kb = nan ∨ phib_p = nan ∨ phi_c = nan ∨ vsh = nan ∨ Cn = nan ∨ phi = nan → ∀ v,
        QI.screening_entry Dqz Kqz Gqz Dsh Ksh Gsh Dc Kc Gc Db Kb phib_p phi_c sigma vsh scheme f
          Cn phi = .ok v → v.2.1 = nan)
    ∧ (Dqz = nan ∨ Kqz = nan ∨ Gqz = nan ∨ Dsh = nan ∨ Ksh = nan ∨ Gsh = nan ∨ Dc = nan ∨ Kc = nan
      ∨ Gc = nan ∨ Db = nan ∨ Kb = nan ∨ phi_c = nan ∨ vsh = nan ∨ Cn = nan ∨ phi = nan → ∀ v,
        QI.screening_entry Dqz Kqz Gqz Dsh Ksh Gsh Dc Kc Gc Db Kb phib_p phi_c sigma vsh scheme f
          Cn phi = .ok v → v.2.2.1 = nan)
    ∧ (Dqz = nan ∨ Kqz = nan ∨ Gqz = nan ∨ Dsh = nan ∨ Ksh = nan ∨ Gsh = nan ∨ Db = nan ∨ phi_c =
      nan ∨ sigma = nan ∨ vsh = nan ∨ f = nan ∨ Cn = nan ∨ phi = nan → ∀ v, QI.screening_entry Dqz
        Kqz Gqz Dsh Ksh Gsh Dc Kc Gc Db Kb phib_p phi_c sigma vsh scheme f Cn phi = .ok v →
          v.2.2.2.1 = nan)
    ∧ (Dqz = nan ∨ Kqz = nan ∨ Gqz = nan ∨ Dsh = nan ∨ Ksh = nan ∨ Gsh = nan ∨ Kc = nan ∨ Gc = nan
      ∨ Db = nan ∨ phib_p = nan ∨ phi_c = nan ∨ vsh = nan ∨ Cn = nan ∨ phi = nan → ∀ v,
        QI.screening_entry Dqz Kqz Gqz Dsh Ksh Gsh Dc Kc Gc Db Kb phib_p phi_c sigma vsh scheme f
          Cn phi = .ok v → v.2.2.2.2.1 = nan)
    ∧ (Dqz = nan ∨ Kqz = nan ∨ Gqz = nan ∨ Dsh = nan ∨ Ksh = nan ∨ Gsh = nan ∨ Dc = nan ∨ Kc = nan
      ∨ Gc = nan ∨ Db = nan ∨ phi_c = nan ∨ vsh = nan ∨ Cn = nan ∨ phi = nan → ∀ v,
        QI.screening_entry Dqz Kqz Gqz Dsh Ksh Gsh Dc Kc Gc Db Kb phib_p phi_c sigma vsh scheme f
          Cn phi = .ok v → v.2.2.2.2.2 = nan) := by
  refine ⟨?_, ?_, ?_, ?_, ?_, ?_⟩
  · nan_any_ok [QI.screening_entry, EM.VRH, GM.softsand, GM.hertzmindlin, GM.contactcement,
    QI.matrix_modulus, QI.den_matrix, Fluid.Gassmann, utils.V, QI.npnan, GM.MUHS]
  · nan_any_ok [QI.screening_entry, EM.VRH, GM.softsand, GM.hertzmindlin, GM.contactcement,
    QI.matrix_modulus, QI.den_matrix, Fluid.Gassmann, utils.V, QI.npnan, GM.MUHS]
  · nan_any_ok [QI.screening_entry, EM.VRH, GM.softsand, GM.hertzmindlin, GM.contactcement,
    QI.matrix_modulus, QI.den_matrix, Fluid.Gassmann, utils.V, QI.npnan, GM.MUHS]
  · nan_any_ok [QI.screening_entry, EM.VRH, GM.softsand, GM.hertzmindlin, GM.contactcement,
    QI.matrix_modulus, QI.den_matrix, Fluid.Gassmann, utils.V, QI.npnan, GM.MUHS]
  · nan_any_ok [QI.screening_entry, EM.VRH, GM.softsand, GM.hertzmindlin, GM.contactcement,
    QI.matrix_modulus, QI.den_matrix, Fluid.Gassmann, utils.V, QI.npnan, GM.MUHS]
  · nan_any_ok [QI.screening_entry, EM.VRH, GM.softsand, GM.hertzmindlin, GM.contactcement,
    QI.matrix_modulus, QI.den_matrix, Fluid.Gassmann, utils.V, QI.npnan, GM.MUHS]

theorem C110_QI_cst_vels (phi_b K0 _D0 G0 phi phi_c Cn Kc Gc Db Kb : α) (scheme : Int) (vsh Dsh Dqz
  Dc : α) :
    (phi_b = nan ∨ K0 = nan ∨ G0 = nan ∨ phi = nan ∨ phi_c = nan ∨ Cn = nan ∨ Kc = nan ∨ Gc = nan ∨
      Db = nan ∨ Kb = nan ∨ vsh = nan ∨ Dsh = nan ∨ Dqz = nan ∨ Dc = nan → ∀ v, QI.cst_vels phi_b
        K0 _D0 G0 phi phi_c Cn Kc Gc Db Kb scheme vsh Dsh Dqz Dc = .ok v → v.1 = nan)
    ∧ (∀ y, (QI.cst_vels phi_b K0 y G0 phi phi_c Cn Kc Gc Db Kb scheme vsh Dsh Dqz Dc).map (·.1) =
      (QI.cst_vels phi_b K0 _D0 G0 phi phi_c Cn Kc Gc Db Kb scheme vsh Dsh Dqz Dc).map (·.1))
    ∧ (phi_b = nan ∨ K0 = nan ∨ G0 = nan ∨ phi = nan ∨ phi_c = nan ∨ Cn = nan ∨ Kc = nan ∨ Gc = nan
      ∨ Db = nan ∨ vsh = nan ∨ Dsh = nan ∨ Dqz = nan ∨ Dc = nan → ∀ v, QI.cst_vels phi_b K0 _D0 G0
        phi phi_c Cn Kc Gc Db Kb scheme vsh Dsh Dqz Dc = .ok v → v.2 = nan)
    ∧ (∀ y, (QI.cst_vels phi_b K0 y G0 phi phi_c Cn Kc Gc Db Kb scheme vsh Dsh Dqz Dc).map (·.2) =
      (QI.cst_vels phi_b K0 _D0 G0 phi phi_c Cn Kc Gc Db Kb scheme vsh Dsh Dqz Dc).map (·.2))
    ∧ (∀ y, (QI.cst_vels phi_b K0 _D0 G0 phi phi_c Cn Kc Gc Db y scheme vsh Dsh Dqz Dc).map (·.2) =
      (QI.cst_vels phi_b K0 _D0 G0 phi phi_c Cn Kc Gc Db Kb scheme vsh Dsh Dqz Dc).map (·.2)) := by
  refine ⟨?_, ?_, ?_, ?_, ?_⟩
  · nan_any_ok [QI.cst_vels, GM.constantcement, GM.contactcement, QI.den_matrix, EM.VRH,
    Fluid.vels, Fluid.Gassmann, QI.npnan]
  · exact fun _ => rfl
  · nan_any_ok [QI.cst_vels, GM.constantcement, GM.contactcement, QI.den_matrix, EM.VRH,
    Fluid.vels, Fluid.Gassmann, QI.npnan]
  · exact fun _ => rfl
  · exact fun _ => rfl

theorem C110_QI_cal_v_const (Dqz Kqz Gqz Dsh Ksh Gsh _Dc Kc Gc Db Kb phi_b phi_c vsh phi : α)
  (scheme : Int) :
    (Dqz = nan ∨ Kqz = nan ∨ Gqz = nan ∨ Dsh = nan ∨ Ksh = nan ∨ Gsh = nan ∨ Kc = nan ∨ Gc = nan ∨
      Db = nan ∨ Kb = nan ∨ phi_b = nan ∨ phi_c = nan ∨ vsh = nan ∨ phi = nan → ∀ v, QI.cal_v_const
        Dqz Kqz Gqz Dsh Ksh Gsh _Dc Kc Gc Db Kb phi_b phi_c vsh phi scheme = .ok v → v.1 = nan)
    ∧ (∀ y, (QI.cal_v_const Dqz Kqz Gqz Dsh Ksh Gsh y Kc Gc Db Kb phi_b phi_c vsh phi scheme).map
      (·.1) = (QI.cal_v_const Dqz Kqz Gqz Dsh Ksh Gsh _Dc Kc Gc Db Kb phi_b phi_c vsh phi
        scheme).map (·.1))
    ∧ (Dqz = nan ∨ Kqz = nan ∨ Gqz = nan ∨ Dsh = nan ∨ Ksh = nan ∨ Gsh = nan ∨ Kc = nan ∨ Gc = nan
      ∨ Db = nan ∨ phi_b = nan ∨ phi_c = nan ∨ vsh = nan ∨ phi = nan → ∀ v, QI.cal_v_const Dqz Kqz
        Gqz Dsh Ksh Gsh _Dc Kc Gc Db Kb phi_b phi_c vsh phi scheme = .ok v → v.2 = nan)
    ∧ (∀ y, (QI.cal_v_const Dqz Kqz Gqz Dsh Ksh Gsh y Kc Gc Db Kb phi_b phi_c vsh phi scheme).map
      (·.2) = (QI.cal_v_const Dqz Kqz Gqz Dsh Ksh Gsh _Dc Kc Gc Db Kb phi_b phi_c vsh phi
        scheme).map (·.2))
    ∧ (∀ y, (QI.cal_v_const Dqz Kqz Gqz Dsh Ksh Gsh _Dc Kc Gc Db y phi_b phi_c vsh phi scheme).map
      (·.2) = (QI.cal_v_const Dqz Kqz Gqz Dsh Ksh Gsh _Dc Kc Gc Db Kb phi_b phi_c vsh phi
        scheme).map (·.2)) := by
  refine ⟨?_, ?_, ?_, ?_, ?_⟩
  · nan_any_ok [QI.cal_v_const, EM.VRH, Empirical.Cp, GM.constantcement, GM.contactcement,
    Fluid.vels, Fluid.Gassmann]
  · exact fun _ => rfl
  · nan_any_ok [QI.cal_v_const, EM.VRH, Empirical.Cp, GM.constantcement, GM.contactcement,
    Fluid.vels, Fluid.Gassmann]
  · exact fun _ => rfl
  · exact fun _ => rfl

theorem C110_QI_rpt (Kdry Gdry K0 D0 Kb Db Khc Dhc phi sw : α) :
    (Kdry = nan ∨ Gdry = nan ∨ K0 = nan ∨ D0 = nan ∨ Kb = nan ∨ Db = nan ∨ Khc = nan ∨ Dhc = nan ∨
      phi = nan ∨ sw = nan → (QI.rpt_entry Kdry Gdry K0 D0 Kb Db Khc Dhc phi sw).1 = nan)
    ∧ (Kdry = nan ∨ Gdry = nan ∨ K0 = nan ∨ D0 = nan ∨ Kb = nan ∨ Db = nan ∨ Khc = nan ∨ Dhc = nan
      ∨ phi = nan ∨ sw = nan → (QI.rpt_entry Kdry Gdry K0 D0 Kb Db Khc Dhc phi sw).2 = nan) := by
  refine ⟨?_, ?_⟩
  · nan_any [QI.rpt_entry, Fluid.vels, Fluid.Gassmann]
  · nan_any [QI.rpt_entry, Fluid.vels, Fluid.Gassmann]

end RockPhy.Props
