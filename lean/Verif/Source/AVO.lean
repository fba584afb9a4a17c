import Verif.Py.Syntax

/-! # The text of `rockphypy/AVO.py`

Written by `tools/source.py`; do not edit. -/

namespace RockPhy.Source.AVO

open RockPhy.Py

/-- `AVO.AVO_HTI`, AVO.py:9-95. -/
def AVO_HTI : Fun where
  params := [⟨n!"D1", .none⟩, ⟨n!"D2", .none⟩, ⟨n!"C1", .none⟩, ⟨n!"C2", .none⟩, ⟨n!"theta",
    .none⟩, ⟨n!"azimuth", .none⟩]
  body :=
  (.ofList [
    set! "theta" := c!"np.radians"[v!"theta"],
    set! "azimuth" := c!"np.radians"[v!"azimuth"],
    set! "theta", "azimuth" := c!"np.meshgrid"[v!"theta", v!"azimuth"],
    set! "C11_1" := (.idx v!"C1" (.ofList [0, 0])),
    set! "C13_1" := (.idx v!"C1" (.ofList [0, 2])),
    set! "C33_1" := (.idx v!"C1" (.ofList [2, 2])),
    set! "C44_1" := (.idx v!"C1" (.ofList [3, 3])),
    set! "C55_1" := (.idx v!"C1" (.ofList [4, 4])),
    set! "C66_1" := (.idx v!"C1" (.ofList [5, 5])),
    set! "C11_2" := (.idx v!"C2" (.ofList [0, 0])),
    set! "C13_2" := (.idx v!"C2" (.ofList [0, 2])),
    set! "C33_2" := (.idx v!"C2" (.ofList [2, 2])),
    set! "C44_2" := (.idx v!"C2" (.ofList [3, 3])),
    set! "C55_2" := (.idx v!"C2" (.ofList [4, 4])),
    set! "C66_2" := (.idx v!"C2" (.ofList [5, 5])),
    set! "alpha_1" := c!"np.sqrt"[v!"C33_1" / v!"D1"],
    set! "beta_1" := c!"np.sqrt"[v!"C44_1" / v!"D1"],
    set! "beta_v_1" := c!"np.sqrt"[v!"C55_1" / v!"D1"],
    set! "gamma_1" := (v!"C44_1" - v!"C66_1") / (2 * v!"C66_1"),
    set! "gamma_v_1" := (v!"C66_1" - v!"C44_1") / (2 * v!"C44_1"),
    set! "epsilon_v_1" := (v!"C11_1" - v!"C33_1") / (2 * v!"C33_1"),
    set! "delta_v_1" := ((v!"C13_1" + v!"C55_1") ** 2 - (v!"C33_1" - v!"C55_1") ** 2) / (2 *
      v!"C33_1" * (v!"C33_1" - v!"C55_1")),
    set! "Z_1" := v!"D1" * v!"alpha_1",
    set! "mu_1" := v!"D1" * v!"beta_1" ** 2,
    set! "mu_v_1" := v!"D1" * v!"beta_v_1" ** 2,
    set! "alpha_2" := c!"np.sqrt"[v!"C33_2" / v!"D2"],
    set! "beta_2" := c!"np.sqrt"[v!"C44_2" / v!"D2"],
    set! "beta_v_2" := c!"np.sqrt"[v!"C55_2" / v!"D2"],
    set! "gamma_2" := (v!"C44_2" - v!"C66_2") / (2 * v!"C66_2"),
    set! "gamma_v_2" := (v!"C66_2" - v!"C44_2") / (2 * v!"C44_2"),
    set! "epsilon_v_2" := (v!"C11_2" - v!"C33_2") / (2 * v!"C33_2"),
    set! "delta_v_2" := ((v!"C13_2" + v!"C55_2") ** 2 - (v!"C33_2" - v!"C55_2") ** 2) / (2 *
      v!"C33_2" * (v!"C33_2" - v!"C55_2")),
    set! "Z_2" := v!"D2" * v!"alpha_2",
    set! "mu_2" := v!"D2" * v!"beta_2" ** 2,
    set! "mu_v_2" := v!"D2" * v!"beta_v_2" ** 2,
    set! "dZ" := v!"Z_2" - v!"Z_1",
    set! "Z_" := (v!"Z_1" + v!"Z_2") / 2,
    set! "dalpha" := v!"alpha_2" - v!"alpha_1",
    set! "alpha_" := (v!"alpha_1" + v!"alpha_2") / 2,
    set! "beta_" := (v!"beta_1" + v!"beta_2") / 2,
    set! "dmu" := v!"mu_2" - v!"mu_1",
    set! "mu_" := (v!"mu_1" + v!"mu_2") / 2,
    set! "ddelta" := v!"delta_v_2" - v!"delta_v_1",
    set! "dgamma" := v!"gamma_2" - v!"gamma_1",
    set! "depsilon" := v!"epsilon_v_2" - v!"epsilon_v_1",
    set! "Rpp" := 0.5 * v!"dZ" / v!"Z_" + 0.5 * (v!"dalpha" / v!"alpha_" - (2 * v!"beta_" /
      v!"alpha_") ** 2 * v!"dmu" / v!"mu_" + (v!"ddelta" + 2 * (2 * v!"beta_" / v!"alpha_") ** 2 *
      v!"dgamma") * c!"np.cos"[v!"azimuth"] ** 2) * c!"np.sin"[v!"theta"] ** 2 + 0.5 * (v!"dalpha"
      / v!"alpha_" + v!"depsilon" * c!"np.cos"[v!"azimuth"] ** 4 + v!"ddelta" *
      c!"np.sin"[v!"azimuth"] ** 2 * c!"np.cos"[v!"azimuth"] ** 2) * c!"np.sin"[v!"theta"] ** 2 *
      c!"np.tan"[v!"theta"] ** 2,
    .ret v!"Rpp"])

/-- `AVO.Aki_Richards`, AVO.py:97-154. -/
def Aki_Richards : Fun where
  params := [⟨n!"theta", .none⟩, ⟨n!"vp1", .none⟩, ⟨n!"vp2", .none⟩, ⟨n!"vs1", .none⟩, ⟨n!"vs2",
    .none⟩, ⟨n!"den1", .none⟩, ⟨n!"den2", .none⟩]
  body :=
  (.ofList [
    .ite c!"isinstance"[v!"vp1", v!"np.ndarray"]
      (.ofList [
        set! "vp1" := (.idx v!"vp1" (.ofList [(.slice .none .none), v!"np.newaxis"])),
        set! "vp2" := (.idx v!"vp2" (.ofList [(.slice .none .none), v!"np.newaxis"])),
        set! "vs1" := (.idx v!"vs1" (.ofList [(.slice .none .none), v!"np.newaxis"])),
        set! "vs2" := (.idx v!"vs2" (.ofList [(.slice .none .none), v!"np.newaxis"])),
        set! "den1" := (.idx v!"den1" (.ofList [(.slice .none .none), v!"np.newaxis"])),
        set! "den2" := (.idx v!"den2" (.ofList [(.slice .none .none), v!"np.newaxis"]))])
      .nil,
    set! "theta" := c!"np.deg2rad"[v!"theta"],
    set! "delta_den" := v!"den2" - v!"den1",
    set! "delta_vp" := v!"vp2" - v!"vp1",
    set! "delta_vs" := v!"vs2" - v!"vs1",
    set! "rho_mean" := 0.5 * (v!"den1" + v!"den2"),
    set! "vp_mean" := 0.5 * (v!"vp1" + v!"vp2"),
    set! "vs_mean" := 0.5 * (v!"vs1" + v!"vs2"),
    set! "Rpp0" := 0.5 * (v!"delta_den" / v!"rho_mean" + v!"delta_vp" / v!"vp_mean"),
    set! "M" := -2 * (v!"vs_mean" / v!"vp_mean") ** 2 * (2 * v!"delta_vs" / v!"vs_mean" +
      v!"delta_den" / v!"rho_mean"),
    set! "N" := 0.5 * v!"delta_vp" / v!"vp_mean",
    set! "R_pp" := v!"Rpp0" + v!"M" * c!"np.sin"[v!"theta"] ** 2 + v!"N" * c!"np.tan"[v!"theta"] **
      2,
    set! "gradient" := v!"M" + v!"N",
    set! "p" := c!"np.sin"[v!"theta"] / v!"vp1",
    set! "cos_theta_s" := c!"np.sqrt"[1 - c!"np.sin"[v!"theta"] ** 2. * (v!"vs1" ** 2 / v!"vp1" **
      2)],
    set! "R_ps" := -0.5 * v!"p" * v!"vp_mean" / v!"cos_theta_s" * ((1 - 2 * v!"vs_mean" ** 2 *
      v!"p" ** 2 + 2 * v!"vs_mean" ** 2 * c!"np.cos"[v!"theta"] / v!"vp_mean" * v!"cos_theta_s" /
      v!"vs_mean") * v!"delta_den" / v!"rho_mean" - (4 * v!"p" ** 2 * v!"vs_mean" ** 2 - 4 *
      v!"vs_mean" ** 2 * c!"np.cos"[v!"theta"] / v!"vp_mean" * v!"cos_theta_s" / v!"vs_mean") *
      v!"delta_vs" / v!"vs_mean"),
    .ret t![v!"R_pp", v!"R_ps", v!"Rpp0", v!"gradient"]])

/-- `AVO.zoeppritz`, AVO.py:156-220. -/
def zoeppritz : Fun where
  params := [⟨n!"vp1", .none⟩, ⟨n!"vs1", .none⟩, ⟨n!"rho1", .none⟩, ⟨n!"vp2", .none⟩, ⟨n!"vs2",
    .none⟩, ⟨n!"rho2", .none⟩, ⟨n!"theta", .none⟩]
  body :=
  (.ofList [
    set! "theta1" := c!"np.deg2rad"[v!"theta"],
    set! "p" := c!"np.sin"[v!"theta"] / v!"vp1",
    set! "theta2" := c!"np.arcsin"[v!"p" * v!"vp2"],
    set! "phi1" := c!"np.arcsin"[v!"p" * v!"vs1"],
    set! "phi2" := c!"np.arcsin"[v!"p" * v!"vs2"],
    set! "a" := v!"rho2" * (1 - 2 * c!"np.sin"[v!"phi2"] ** 2) - v!"rho1" * (1 - 2 *
      c!"np.sin"[v!"phi1"] ** 2),
    set! "b" := v!"rho2" * (1 - 2 * c!"np.sin"[v!"phi2"] ** 2) + 2 * v!"rho1" *
      c!"np.sin"[v!"phi1"] ** 2,
    set! "c" := v!"rho1" * (1 - 2 * c!"np.sin"[v!"phi1"] ** 2) + 2 * v!"rho2" *
      c!"np.sin"[v!"phi2"] ** 2,
    set! "d" := 2 * (v!"rho2" * v!"vs2" ** 2 - v!"rho1" * v!"vs1" ** 2),
    set! "H" := v!"a" - v!"d" * c!"np.cos"[v!"theta2"] / v!"vp2" * c!"np.cos"[v!"phi2"] / v!"vs2",
    set! "E" := v!"b" * c!"np.cos"[v!"theta1"] / v!"vp1" + v!"c" * c!"np.cos"[v!"theta2"] / v!"vp2",
    set! "F" := v!"b" * c!"np.cos"[v!"phi1"] / v!"vs1" + v!"c" * c!"np.cos"[v!"phi2"] / v!"vs2",
    set! "G" := v!"a" - v!"d" * c!"np.cos"[v!"theta1"] / v!"vp1" * c!"np.cos"[v!"phi2"] / v!"vs2",
    set! "D" := v!"E" * v!"F" + v!"G" * v!"H" * v!"p" ** 2,
    set! "Rpp" := ((v!"b" * c!"np.cos"[v!"theta1"] / v!"vp1" - v!"c" * c!"np.cos"[v!"theta2"] /
      v!"vp2") * v!"F" - (v!"a" + v!"d" * c!"np.cos"[v!"theta1"] / v!"vp1" * c!"np.cos"[v!"phi2"] /
      v!"vs2") * v!"H" * v!"p" ** 2) / v!"D",
    set! "Rps" := -2 * c!"np.cos"[v!"theta1"] / v!"vp1" * (v!"a" * v!"b" + v!"c" * v!"d" *
      c!"np.cos"[v!"theta2"] / v!"vp2" * c!"np.cos"[v!"phi2"] / v!"vs2") * v!"p" * v!"vp1" /
      (v!"vs1" * v!"D"),
    .ret t![v!"Rpp", v!"Rps"]])

/-- `AVO.AVO_abe`, AVO.py:222-273. -/
def AVO_abe : Fun where
  params := [⟨n!"vp1", .none⟩, ⟨n!"vs1", .none⟩, ⟨n!"d1", .none⟩, ⟨n!"vp2", .none⟩, ⟨n!"vs2",
    .none⟩, ⟨n!"d2", .none⟩]
  body :=
  (.ofList [
    set! "da" := (v!"d1" + v!"d2") / 2,
    set! "Dd" := v!"d2" - v!"d1",
    set! "vpa" := (v!"vp1" + v!"vp2") / 2,
    set! "Dvp" := v!"vp2" - v!"vp1",
    set! "vsa" := (v!"vs1" + v!"vs2") / 2,
    set! "Dvs" := v!"vs2" - v!"vs1",
    set! "Ro" := 0.5 * (v!"Dvp" / v!"vpa" + v!"Dd" / v!"da"),
    set! "A" := v!"Ro",
    set! "poi1" := (0.5 * (v!"vp1" / v!"vs1") ** 2 - 1) / ((v!"vp1" / v!"vs1") ** 2 - 1),
    set! "poi2" := (0.5 * (v!"vp2" / v!"vs2") ** 2 - 1) / ((v!"vp2" / v!"vs2") ** 2 - 1),
    set! "poia" := (v!"poi1" + v!"poi2") / 2,
    set! "Dpoi" := v!"poi2" - v!"poi1",
    set! "Bx" := v!"Dvp" / v!"vpa" / (v!"Dvp" / v!"vpa" + v!"Dd" / v!"da"),
    set! "Ax" := v!"Bx" - 2 * (1 + v!"Bx") * (1 - 2 * v!"poia") / (1 - v!"poia"),
    set! "B1" := v!"Ax" * v!"Ro" + v!"Dpoi" / (1 - v!"poia") ** 2,
    set! "B2" := -2 * v!"vsa" ** 2 * v!"Dd" / (v!"vpa" ** 2 * v!"da") + 0.5 * v!"Dvp" / v!"vpa" - 4
      * v!"vsa" * v!"Dvs" / v!"vpa" ** 2,
    set! "E1" := -0.5 * v!"Dd" / v!"da" - v!"vsa" / v!"vpa" * (v!"Dd" / v!"da" + 2 * v!"Dvs" /
      v!"vsa") + (v!"vsa" / v!"vpa") ** 3 * (0.5 * v!"Dd" / v!"da" + v!"Dvs" / v!"vsa"),
    set! "E2" := -2 * (v!"vs1" / v!"vp1") * (v!"Dd" / v!"da" * (0.5 + 0.25 * v!"vpa" / v!"vsa") +
      v!"Dvs" / v!"vsa"),
    .ret t![v!"A", v!"B1", v!"B2", v!"E1", v!"E2"]])

/-- `AVO.EI_ref`, AVO.py:275-349. -/
def EI_ref : Fun where
  params := [⟨n!"Vp", .none⟩, ⟨n!"Vs", .none⟩, ⟨n!"rho", .none⟩, ⟨n!"theta", .none⟩, ⟨n!"SP",
    .none⟩, ⟨n!"norm", some (.bool true)⟩]
  body :=
  (.ofList [
    .ite c!"isinstance"[v!"Vp", v!"np.ndarray"]
      (.ofList [
        set! "Vp" := (.idx v!"Vp" (.ofList [(.slice .none .none), v!"np.newaxis"])),
        set! "Vs" := (.idx v!"Vs" (.ofList [(.slice .none .none), v!"np.newaxis"])),
        set! "rho" := (.idx v!"rho" (.ofList [(.slice .none .none), v!"np.newaxis"]))])
      .nil,
    set! "theta" := c!"np.deg2rad"[v!"theta"],
    set! "p" := c!"np.sin"[v!"theta"] / v!"Vp",
    set! "theta_s" := c!"np.arcsin"[v!"p" * v!"Vs"],
    set! "ipn" := 1,
    set! "isn" := 1,
    .ite (.cmp .eq v!"norm" (.bool true))
      (.ofList [
        set! "ipn" := c!"np.mean"[v!"Vp"] * c!"np.mean"[v!"rho"],
        set! "isn" := c!"np.mean"[v!"Vs"] * c!"np.mean"[v!"rho"],
        set! "Vp" := v!"Vp" / c!"np.mean"[v!"Vp"],
        set! "Vs" := v!"Vs" / c!"np.mean"[v!"Vs"],
        set! "rho" := v!"rho" / c!"np.mean"[v!"rho"]])
      .nil,
    set! "A" := 1 + c!"np.tan"[v!"theta"] ** 2,
    set! "B" := -8 * v!"SP" ** 2 * c!"np.sin"[v!"theta"] ** 2,
    set! "C" := 1 - 4 * v!"SP" ** 2 * c!"np.sin"[v!"theta"] ** 2,
    set! "EI_pp" := v!"ipn" * v!"Vp" ** v!"A" * v!"Vs" ** v!"B" * v!"rho" ** v!"C",
    set! "B" := c!"np.sin"[v!"theta"] / c!"np.sqrt"[1 - v!"SP" ** 2 * c!"np.sin"[v!"theta"] ** 2] *
      (4 * c!"np.sin"[v!"theta"] ** 2 * v!"SP" ** 2 - 4 * v!"SP" * c!"np.cos"[v!"theta"] *
      c!"np.sqrt"[1 - v!"SP" ** 2 * c!"np.sin"[v!"theta"] ** 2]),
    set! "C" := -c!"np.sin"[v!"theta"] / c!"np.sqrt"[1 - v!"SP" ** 2 * c!"np.sin"[v!"theta"] ** 2]
      * (1 - 2 * c!"np.sin"[v!"theta"] ** 2 * v!"SP" ** 2 + 2 * v!"SP" * c!"np.cos"[v!"theta"] *
      c!"np.sqrt"[1 - v!"SP" ** 2 * c!"np.sin"[v!"theta"] ** 2]),
    set! "EI_psv" := v!"ipn" * v!"Vs" ** v!"B" * v!"rho" ** v!"C",
    set! "B" := c!"np.sin"[v!"theta_s"] / c!"np.sqrt"[1 - 1 / v!"SP" ** 2 * c!"np.sin"[v!"theta_s"]
      ** 2] * (4 * c!"np.sin"[v!"theta_s"] ** 2 - 4 * v!"SP" * c!"np.cos"[v!"theta_s"] *
      c!"np.sqrt"[1 - 1 / v!"SP" ** 2 * c!"np.sin"[v!"theta_s"] ** 2]),
    set! "C" := -c!"np.sin"[v!"theta_s"] / c!"np.sqrt"[1 - 1 / v!"SP" ** 2 *
      c!"np.sin"[v!"theta_s"] ** 2] * (1 - 2 * c!"np.sin"[v!"theta_s"] ** 2 + 2 * v!"SP" *
      c!"np.cos"[v!"theta_s"] * c!"np.sqrt"[1 - 1 / v!"SP" ** 2 * c!"np.sin"[v!"theta_s"] ** 2]),
    set! "EI_svp" := v!"isn" * v!"Vs" ** v!"B" * v!"rho" ** v!"C",
    set! "B" := -1 / c!"np.cos"[v!"theta_s"] ** 2 + 8 * c!"np.sin"[v!"theta_s"] ** 2,
    set! "C" := -1 + 4 * c!"np.sin"[v!"theta_s"] ** 2,
    set! "EI_svsv" := v!"isn" * v!"Vs" ** v!"B" * v!"rho" ** v!"C",
    set! "B" := -1 + c!"np.tan"[v!"theta_s"] ** 2,
    set! "C" := -1,
    set! "EI_shsh" := v!"isn" * v!"Vs" ** v!"B" * v!"rho" ** v!"C",
    .ret t![v!"EI_pp", v!"EI_psv", v!"EI_svp", v!"EI_svsv", v!"EI_shsh"]])

/-- `AVO.AVO_ortho`, AVO.py:351-419. -/
def AVO_ortho : Fun where
  params := [⟨n!"a1", .none⟩, ⟨n!"b1", .none⟩, ⟨n!"e11", .none⟩, ⟨n!"d11", .none⟩, ⟨n!"e12",
    .none⟩, ⟨n!"d12", .none⟩, ⟨n!"g1", .none⟩, ⟨n!"rho1", .none⟩, ⟨n!"a2", .none⟩, ⟨n!"b2", .none⟩,
    ⟨n!"e21", .none⟩, ⟨n!"d21", .none⟩, ⟨n!"e22", .none⟩, ⟨n!"d22", .none⟩, ⟨n!"g2", .none⟩,
    ⟨n!"rho2", .none⟩, ⟨n!"the", .none⟩]
  body :=
  (.ofList [
    set! "Z1" := v!"rho1" * v!"a1",
    set! "Z2" := v!"rho2" * v!"a2",
    set! "G1" := v!"rho1" * v!"b1" * v!"b1",
    set! "G2" := v!"rho2" * v!"b2" * v!"b2",
    set! "G" := (v!"G1" + v!"G2") / 2,
    set! "dG" := v!"G2" - v!"G1",
    set! "a" := (v!"a1" + v!"a2") / 2,
    set! "da" := v!"a2" - v!"a1",
    set! "b" := (v!"b1" + v!"b2") / 2,
    set! "db" := v!"b2" - v!"b1",
    set! "the" := v!"the" * v!"np.pi" / 180,
    set! "sthe2" := c!"np.sin"[v!"the"] ** 2,
    set! "tthe2" := c!"np.tan"[v!"the"] ** 2,
    set! "f" := (2 * v!"b" / v!"a") ** 2,
    set! "Rxz" := (v!"Z2" - v!"Z1") / (v!"Z2" + v!"Z1") + 0.5 * (v!"da" / v!"a" - v!"f" * (v!"dG" /
      v!"G" - 2 * (v!"g2" - v!"g1")) + v!"d22" - v!"d12") * v!"sthe2" + 0.5 * (v!"da" / v!"a" +
      v!"e22" - v!"e12") * v!"sthe2" * v!"tthe2",
    set! "Ryz" := (v!"Z2" - v!"Z1") / (v!"Z2" + v!"Z1") + 0.5 * (v!"da" / v!"a" - v!"f" * v!"dG" /
      v!"G" + v!"d21" - v!"d11") * v!"sthe2" + 0.5 * (v!"da" / v!"a" + v!"e21" - v!"e11") *
      v!"sthe2" * v!"tthe2",
    .ret t![v!"Rxz", v!"Ryz"]])

end RockPhy.Source.AVO
