import Verif.Py.Syntax

/-! # The text of `rockphypy/Fluid.py`

Written by `tools/source.py`; do not edit. -/

namespace RockPhy.Source.Fluid

open RockPhy.Py

/-- `Fluid.Brie`, Fluid.py:12-34. -/
def Brie : Fun where
  params := [⟨n!"Kw", .none⟩, ⟨n!"Kgas", .none⟩, ⟨n!"Sw", .none⟩, ⟨n!"e", .none⟩]
  body :=
  (.ofList [
    set! "Kf" := (v!"Kw" - v!"Kgas") * v!"Sw" ** v!"e" + v!"Kgas",
    .ret v!"Kf"])

/-- `Fluid.Biot`, Fluid.py:36-114. -/
def Biot : Fun where
  params := [⟨n!"Kdry", .none⟩, ⟨n!"Gdry", .none⟩, ⟨n!"K0", .none⟩, ⟨n!"Kfl", .none⟩, ⟨n!"rho0",
    .none⟩, ⟨n!"rhofl", .none⟩, ⟨n!"eta", .none⟩, ⟨n!"phi", .none⟩, ⟨n!"kapa", .none⟩, ⟨n!"a",
    .none⟩, ⟨n!"alpha", .none⟩, ⟨n!"freq", .none⟩]
  body :=
  (.ofList [
    set! "rho" := (1 - v!"phi") * v!"rho0" + v!"phi" * v!"rhofl",
    set! "D" := v!"K0" * (1 + v!"phi" * (v!"K0" / v!"Kfl" - 1)),
    set! "M" := v!"K0" ** 2 / (v!"D" - v!"Kdry"),
    set! "C" := (v!"K0" - v!"Kdry") * v!"K0" / (v!"D" - v!"Kdry"),
    set! "H" := v!"Kdry" + 4 * v!"Gdry" / 3 + (v!"K0" - v!"Kdry") ** 2 / (v!"D" - v!"Kdry"),
    set! "w" := 2 * v!"np.pi" * v!"freq",
    set! "zeta" := c!"np.sqrt"[v!"w" * v!"a" ** 2 * v!"rhofl" / v!"eta"],
    set! "T" := (.call n!"np.zeros" (.ofKw [(.attr v!"zeta" n!"size")] [(n!"dtype", v!"complex")])),
    .assign (.idx n!"T" (.ofList [(.cmp .le v!"zeta" 1e3)])) (c!"np.exp"[(.imag 1.) * 3 * v!"np.pi"
      / 4] * c!"sp.jv"[1, (.idx v!"zeta" (.ofList [(.cmp .le v!"zeta" 1e3)])) * c!"np.exp"[-(.imag
      1.) * v!"np.pi" / 4]] / c!"sp.jv"[0, (.idx v!"zeta" (.ofList [(.cmp .le v!"zeta" 1e3)])) *
      c!"np.exp"[-(.imag 1.) * v!"np.pi" / 4]]),
    .assign (.idx n!"T" (.ofList [(.cmp .gt v!"zeta" 1e3)])) ((1 + (.imag 1.)) / c!"np.sqrt"[2]),
    set! "F" := 1 / 4 * (v!"zeta" * v!"T" / (1 + 2 * (.imag 1.) * v!"T" / v!"zeta")),
    .assign (.idx n!"F" (.ofList [(.cmp .lt v!"zeta" 1e-1)])) (1),
    set! "q" := v!"alpha" * v!"rhofl" / v!"phi" - (.imag 1.) * v!"eta" * v!"F" / (v!"w" * v!"kapa"),
    set! "Ta" := v!"C" ** 2 - v!"M" * v!"H",
    set! "Tb" := v!"H" * v!"q" + v!"M" * v!"rho" - 2 * v!"C" * v!"rhofl",
    set! "Tc" := v!"rhofl" ** 2 - v!"rho" * v!"q",
    set! "P1_slowness2" := (-v!"Tb" + c!"np.sqrt"[v!"Tb" ** 2 - 4 * v!"Ta" * v!"Tc"]) / (2 *
      v!"Ta"),
    set! "P2_slowness2" := (-v!"Tb" - c!"np.sqrt"[v!"Tb" ** 2 - 4 * v!"Ta" * v!"Tc"]) / (2 *
      v!"Ta"),
    set! "S_slowness2" := (v!"rho" * v!"q" - v!"rhofl" ** 2) / (v!"Gdry" * v!"q"),
    set! "Vp_fast" := 1 / (.attr c!"np.sqrt"[v!"P1_slowness2"] n!"real"),
    set! "Vp_slow" := 1 / (.attr c!"np.sqrt"[v!"P2_slowness2"] n!"real"),
    set! "Vs" := 1 / (.attr c!"np.sqrt"[v!"S_slowness2"] n!"real"),
    set! "QP1_inv" := (.attr (1 / v!"P1_slowness2") n!"imag") / (.attr (1 / v!"P1_slowness2")
      n!"real"),
    set! "QP2_inv" := (.attr (1 / v!"P2_slowness2") n!"imag") / (.attr (1 / v!"P2_slowness2")
      n!"real"),
    set! "Qs_inv" := (.attr (1 / v!"S_slowness2") n!"imag") / (.attr (1 / v!"S_slowness2")
      n!"real"),
    .ret t![v!"Vp_fast", v!"Vp_slow", v!"Vs", v!"QP1_inv", v!"QP2_inv", v!"Qs_inv"]])

/-- `Fluid.Biot_HF`, Fluid.py:116-161. -/
def Biot_HF : Fun where
  params := [⟨n!"Kdry", .none⟩, ⟨n!"Gdry", .none⟩, ⟨n!"K0", .none⟩, ⟨n!"Kfl", .none⟩, ⟨n!"rho0",
    .none⟩, ⟨n!"rhofl", .none⟩, ⟨n!"phi", .none⟩, ⟨n!"alpha", .none⟩]
  body :=
  (.ofList [
    set! "rho" := (1 - v!"phi") * v!"rho0" + v!"phi" * v!"rhofl",
    set! "rho12" := (1 - v!"alpha") * v!"phi" * v!"rhofl",
    set! "rho22" := v!"alpha" * v!"phi" * v!"rhofl",
    set! "rho11" := (1 - v!"phi") * v!"rho0" - (1 - v!"alpha") * v!"phi" * v!"rhofl",
    set! "T1" := 1 - v!"phi" - v!"Kdry" / v!"K0",
    set! "T2" := v!"phi" * v!"K0" / v!"Kfl",
    set! "R" := v!"phi" ** 2 * v!"K0" / (v!"T1" + v!"T2"),
    set! "Q" := v!"T1" * v!"phi" * v!"K0" / (v!"T1" + v!"T2"),
    set! "P" := ((1 - v!"phi") * v!"T1" * v!"K0" + v!"T2" * v!"Kdry") / (v!"T1" + v!"T2") + 4 *
      v!"Gdry" / 3,
    set! "Delta" := v!"P" * v!"rho22" + v!"R" * v!"rho11" - 2 * v!"Q" * v!"rho12",
    set! "T3" := v!"rho11" * v!"rho22" - v!"rho12" ** 2,
    set! "T4" := v!"P" * v!"R" - v!"Q" ** 2,
    set! "Vp_fast" := c!"np.sqrt"[(v!"Delta" + c!"np.sqrt"[v!"Delta" ** 2 - 4 * v!"T3" * v!"T4"]) /
      (2 * v!"T3")],
    set! "Vp_slow" := c!"np.sqrt"[(v!"Delta" - c!"np.sqrt"[v!"Delta" ** 2 - 4 * v!"T3" * v!"T4"]) /
      (2 * v!"T3")],
    set! "Vs" := c!"np.sqrt"[v!"Gdry" / (v!"rho" - v!"phi" * v!"rhofl" * v!"alpha" ** (-1))],
    .ret t![v!"Vp_fast", v!"Vp_slow", v!"Vs"]])

/-- `Fluid.Geertsma_Smit_HF`, Fluid.py:163-201. -/
def Geertsma_Smit_HF : Fun where
  params := [⟨n!"Kdry", .none⟩, ⟨n!"Gdry", .none⟩, ⟨n!"K0", .none⟩, ⟨n!"Kfl", .none⟩, ⟨n!"rho0",
    .none⟩, ⟨n!"rhofl", .none⟩, ⟨n!"phi", .none⟩, ⟨n!"alpha", .none⟩]
  body :=
  (.ofList [
    set! "rho" := (1 - v!"phi") * v!"rho0" + v!"phi" * v!"rhofl",
    set! "rho_biot" := v!"rho0" * (1 - v!"phi") + v!"phi" * v!"rhofl" * (1 - v!"alpha" ** (-1)),
    set! "Hdry" := v!"Kdry" + 4 * v!"Gdry" / 3,
    set! "T1" := v!"phi" * v!"rho" / (v!"rhofl" * v!"alpha"),
    set! "alpha_biot" := 1 - v!"Kdry" / v!"K0",
    set! "Vp_fast" := c!"np.sqrt"[1 / v!"rho_biot" * (v!"Hdry" + (v!"T1" + v!"alpha_biot" *
      (v!"alpha_biot" - 2 * v!"phi" / v!"alpha")) / ((v!"alpha_biot" - v!"phi") / v!"K0" + v!"phi"
      / v!"Kfl"))],
    set! "Vs" := c!"np.sqrt"[v!"Gdry" / v!"rho_biot"],
    .ret t![v!"Vp_fast", v!"Vs"]])

/-- `Fluid.Geertsma_Smit_LF`, Fluid.py:203-236. -/
def Geertsma_Smit_LF : Fun where
  params := [⟨n!"Vp0", .none⟩, ⟨n!"Vpinf", .none⟩, ⟨n!"freq", .none⟩, ⟨n!"phi", .none⟩, ⟨n!"rhofl",
    .none⟩, ⟨n!"kapa", .none⟩, ⟨n!"eta", .none⟩]
  body :=
  (.ofList [
    set! "fc" := v!"phi" * v!"eta" / (2 * v!"np.pi" * v!"rhofl" * v!"kapa"),
    set! "a" := (v!"fc" / v!"freq") ** 2,
    set! "Vp" := c!"np.sqrt"[(v!"Vpinf" ** 4 + v!"Vp0" ** 4 * v!"a") / (v!"Vpinf" ** 2 + v!"Vp0" **
      2 * v!"a")],
    .ret v!"Vp"])

/-- `Fluid.Gassmann`, Fluid.py:238-265. -/
def Gassmann : Fun where
  params := [⟨n!"K_dry", .none⟩, ⟨n!"G_dry", .none⟩, ⟨n!"K_mat", .none⟩, ⟨n!"Kf", .none⟩, ⟨n!"phi",
    .none⟩]
  body :=
  (.ofList [
    set! "A" := (1 - v!"K_dry" / v!"K_mat") ** 2,
    set! "B" := v!"phi" / v!"Kf" + (1 - v!"phi") / v!"K_mat" - v!"K_dry" / v!"K_mat" ** 2,
    set! "K_sat" := v!"K_dry" + v!"A" / v!"B",
    set! "G_sat" := v!"G_dry",
    .ret t![v!"K_sat", v!"G_sat"]])

/-- `Fluid.Gassmann_sub`, Fluid.py:267-293. -/
def Gassmann_sub : Fun where
  params := [⟨n!"phi", .none⟩, ⟨n!"K0", .none⟩, ⟨n!"Ksat1", .none⟩, ⟨n!"Kfl1", .none⟩, ⟨n!"Kfl2",
    .none⟩]
  body :=
  (.ofList [
    set! "a" := v!"Ksat1" / (v!"K0" - v!"Ksat1") - v!"Kfl1" / (v!"phi" * (v!"K0" - v!"Kfl1")) +
      v!"Kfl2" / (v!"phi" * (v!"K0" - v!"Kfl2")),
    set! "Ksat2" := v!"a" * v!"K0" / (1 + v!"a"),
    .ret v!"Ksat2"])

/-- `Fluid.vels`, Fluid.py:295-327. -/
def vels : Fun where
  params := [⟨n!"K_dry", .none⟩, ⟨n!"G_dry", .none⟩, ⟨n!"K0", .none⟩, ⟨n!"D0", .none⟩, ⟨n!"Kf",
    .none⟩, ⟨n!"Df", .none⟩, ⟨n!"phi", .none⟩]
  body :=
  (.ofList [
    set! "rho" := v!"D0" * (1 - v!"phi") + v!"Df" * v!"phi",
    set! "K", "_" := c!"Fluid.Gassmann"[v!"K_dry", v!"G_dry", v!"K0", v!"Kf", v!"phi"],
    set! "Vp" := c!"np.sqrt"[(v!"K" + 4. / 3 * v!"G_dry") / v!"rho"] * 1e3,
    set! "Vs" := c!"np.sqrt"[v!"G_dry" / v!"rho"] * 1e3,
    .ret t![v!"Vp", v!"Vs", v!"rho"]])

/-- `Fluid.Gassmann_vels`, Fluid.py:328-366. -/
def Gassmann_vels : Fun where
  params := [⟨n!"Vp1", .none⟩, ⟨n!"Vs1", .none⟩, ⟨n!"rho1", .none⟩, ⟨n!"rhofl1", .none⟩, ⟨n!"Kfl1",
    .none⟩, ⟨n!"rhofl2", .none⟩, ⟨n!"Kfl2", .none⟩, ⟨n!"K0", .none⟩, ⟨n!"phi", .none⟩]
  body :=
  (.ofList [
    set! "rho2" := v!"rho1" - v!"phi" * v!"rhofl1" + v!"phi" * v!"rhofl2",
    set! "G1" := v!"rho1" * v!"Vs1" ** 2,
    set! "Ksat1" := v!"rho1" * v!"Vp1" ** 2 - 4 / 3 * v!"G1",
    set! "k2" := c!"Fluid.Gassmann_sub"[v!"phi", v!"K0", v!"Ksat1", v!"Kfl1", v!"Kfl2"],
    set! "G2" := v!"G1",
    set! "Vp2" := c!"np.sqrt"[(v!"k2" + 4 / 3 * v!"G2") / v!"rho2"],
    set! "Vs2" := c!"np.sqrt"[v!"G2" / v!"rho2"],
    .ret t![v!"Vp2", v!"Vs2"]])

/-- `Fluid.Gassmann_approx`, Fluid.py:368-393. -/
def Gassmann_approx : Fun where
  params := [⟨n!"Msat1", .none⟩, ⟨n!"M0", .none⟩, ⟨n!"Mfl1", .none⟩, ⟨n!"phi", .none⟩, ⟨n!"Mfl2",
    .none⟩]
  body :=
  (.ofList [
    set! "x" := v!"Msat1" / (v!"M0" - v!"Msat1") - v!"Mfl1" / (v!"phi" * (v!"M0" - v!"Mfl1")) +
      v!"Mfl2" / (v!"phi" * (v!"M0" - v!"Mfl2")),
    set! "Msat2" := v!"x" * v!"M0" / (1 + v!"x"),
    .ret v!"Msat2"])

/-- `Fluid.Brown_Korringa_dry2sat`, Fluid.py:395-432. -/
def Brown_Korringa_dry2sat : Fun where
  params := [⟨n!"Sdry", .none⟩, ⟨n!"K0", .none⟩, ⟨n!"G0", .none⟩, ⟨n!"Kfl", .none⟩, ⟨n!"phi",
    .none⟩]
  body :=
  (.ofList [
    set! "beta0" := 1 / v!"K0",
    set! "betadry" := c!"np.sum"[(.idx v!"Sdry" (.ofList [(.slice 0 3), (.slice 0 3)]))],
    set! "betafl" := 1 / v!"Kfl",
    set! "C" := c!"utils.write_iso"[v!"K0", v!"G0"],
    set! "S0" := c!"np.linalg.inv"[v!"C"],
    set! "Sprime" := (.call n!"np.sum" (.ofKw [(.idx v!"Sdry" (.ofList [(.slice 0 3), (.slice .none
      .none)]))] [(n!"axis", 0)])) - (.call n!"np.sum" (.ofKw [(.idx v!"S0" (.ofList [(.slice 0 3),
      (.slice .none .none)]))] [(n!"axis", 0)])),
    set! "Sprime" := (.meth v!"Sprime" n!"reshape" (.ofList [t![1, 6]])),
    set! "denom" := (v!"betafl" - v!"beta0") * v!"phi" + (v!"betadry" - v!"beta0"),
    set! "Ssat" := v!"Sdry" - c!"np.dot"[(.attr v!"Sprime" n!"T"), v!"Sprime"] / v!"denom",
    .ret v!"Ssat"])

/-- `Fluid.Brown_Korringa_sat2dry`, Fluid.py:434-471. -/
def Brown_Korringa_sat2dry : Fun where
  params := [⟨n!"Ssat", .none⟩, ⟨n!"K0", .none⟩, ⟨n!"G0", .none⟩, ⟨n!"Kfl", .none⟩, ⟨n!"phi",
    .none⟩]
  body :=
  (.ofList [
    set! "beta0" := 1 / v!"K0",
    set! "betasat" := c!"np.sum"[(.idx v!"Ssat" (.ofList [(.slice 0 3), (.slice 0 3)]))],
    set! "betafl" := 1 / v!"Kfl",
    set! "C" := c!"utils.write_iso"[v!"K0", v!"G0"],
    set! "S0" := c!"np.linalg.inv"[v!"C"],
    set! "Sprime" := (.call n!"np.sum" (.ofKw [(.idx v!"Ssat" (.ofList [(.slice 0 3), (.slice .none
      .none)]))] [(n!"axis", 0)])) - (.call n!"np.sum" (.ofKw [(.idx v!"S0" (.ofList [(.slice 0 3),
      (.slice .none .none)]))] [(n!"axis", 0)])),
    set! "Sprime" := (.meth v!"Sprime" n!"reshape" (.ofList [t![1, 6]])),
    set! "denom" := (v!"betafl" - v!"beta0") * v!"phi" - (v!"betasat" - v!"beta0"),
    set! "Sdry" := v!"Ssat" + c!"np.dot"[(.attr v!"Sprime" n!"T"), v!"Sprime"] / v!"denom",
    .ret v!"Sdry"])

/-- `Fluid.Brown_Korringa_sub`, Fluid.py:473-504. -/
def Brown_Korringa_sub : Fun where
  params := [⟨n!"Csat", .none⟩, ⟨n!"K0", .none⟩, ⟨n!"G0", .none⟩, ⟨n!"Kfl1", .none⟩, ⟨n!"Kfl2",
    .none⟩, ⟨n!"phi", .none⟩]
  body :=
  (.ofList [
    set! "Ssat" := c!"np.linalg.inv"[v!"Csat"],
    set! "Sdry" := c!"Fluid.Brown_Korringa_sat2dry"[v!"Ssat", v!"K0", v!"G0", v!"Kfl1", v!"phi"],
    set! "Ssat2" := c!"Fluid.Brown_Korringa_dry2sat"[v!"Sdry", v!"K0", v!"G0", v!"Kfl2", v!"phi"],
    set! "Csat2" := c!"np.linalg.inv"[v!"Ssat2"],
    .ret t![v!"Csat2", v!"Ssat2"]])

/-- `Fluid.Mavko_Jizba`, Fluid.py:506-552. -/
def Mavko_Jizba : Fun where
  params := [⟨n!"Vp_hs", .none⟩, ⟨n!"Vs_hs", .none⟩, ⟨n!"Vpdry", .none⟩, ⟨n!"Vsdry", .none⟩,
    ⟨n!"K0", .none⟩, ⟨n!"rhodry", .none⟩, ⟨n!"rhofl", .none⟩, ⟨n!"Kfl", .none⟩, ⟨n!"phi", .none⟩]
  body :=
  (.ofList [
    set! "Kdry", "Gdry" := c!"utils.M_from_V"[v!"rhodry", v!"Vpdry", v!"Vsdry"],
    set! "Khs", "Ghs" := c!"utils.M_from_V"[v!"rhodry", v!"Vp_hs", v!"Vs_hs"],
    set! "Kuf" := v!"Khs",
    set! "Kuf_sat", "_" := c!"Fluid.Gassmann"[v!"Kuf", 1, v!"K0", v!"Kfl", v!"phi"],
    set! "Guf_sat_inv" := 1 / v!"Gdry" - 4 / 15 * (1 / v!"Kdry" - 1 / v!"Kuf"),
    set! "Guf_sat" := 1 / v!"Guf_sat_inv",
    set! "rho_sat" := v!"rhodry" + v!"phi" * v!"rhofl",
    set! "Vp_hf", "Vs_hf" := c!"utils.V"[v!"Kuf_sat", v!"Guf_sat", v!"rho_sat"],
    .ret t![v!"Kuf_sat", v!"Guf_sat", v!"Vp_hf", v!"Vs_hf"]])

/-- `Fluid.Squirt_anisotropic`, Fluid.py:554-597. -/
def Squirt_anisotropic : Fun where
  params := [⟨n!"Sdry", .none⟩, ⟨n!"Sdry_hp", .none⟩]
  body :=
  (.ofList [
    set! "Sdry" := c!"np.asanyarray"[v!"Sdry"],
    set! "Sdry_hp" := c!"np.asanyarray"[v!"Sdry_hp"],
    set! "DSdry" := v!"Sdry" - v!"Sdry_hp",
    set! "DSdry_aabb" := 2 * (.idx v!"DSdry" (.ofList [0])) + 2 * (.idx v!"DSdry" (.ofList [1])) +
      4 * (.idx v!"DSdry" (.ofList [2])) + (.idx v!"DSdry" (.ofList [3])),
    set! "D_Sdry" := v!"DSdry" / v!"DSdry_aabb",
    set! "D_Sdry_abab" := 2 * (.idx v!"D_Sdry" (.ofList [0])) + (.idx v!"D_Sdry" (.ofList [3])) + 4
      * (.idx v!"D_Sdry" (.ofList [4])) + 4 * ((.idx v!"D_Sdry" (.ofList [0])) - (.idx v!"D_Sdry"
      (.ofList [1]))),
    set! "alpha" := 0.25 * (v!"D_Sdry_abab" - 1),
    set! "T" := 1 - 4 * v!"alpha",
    set! "G11" := (.idx v!"D_Sdry" (.ofList [0])) - 4 * v!"alpha" / v!"T" * ((.idx v!"D_Sdry"
      (.ofList [1])) + (.idx v!"D_Sdry" (.ofList [2]))),
    set! "G12" := (.idx v!"D_Sdry" (.ofList [1])) / v!"T",
    set! "G13" := (.idx v!"D_Sdry" (.ofList [2])) / v!"T",
    set! "G33" := (.idx v!"D_Sdry" (.ofList [3])) - 8 * v!"alpha" * (.idx v!"D_Sdry" (.ofList [2]))
      / v!"T",
    set! "G44" := (.idx v!"D_Sdry" (.ofList [4])) / v!"T" - ((.idx v!"D_Sdry" (.ofList [0])) +
      (.idx v!"D_Sdry" (.ofList [2]))) / (4 * v!"T") + (v!"G11" + v!"G33") / 4,
    set! "G" := c!"np.array"[l![v!"G11", v!"G12", v!"G13", v!"G33", v!"G44"]],
    set! "S_wet" := v!"Sdry" - v!"DSdry_aabb" * v!"G",
    .ret v!"S_wet"])

/-- `Fluid.White_Dutta_Ode`, Fluid.py:599-684. -/
def White_Dutta_Ode : Fun where
  params := [⟨n!"Kdry", .none⟩, ⟨n!"Gdry", .none⟩, ⟨n!"K0", .none⟩, ⟨n!"phi", .none⟩, ⟨n!"rho0",
    .none⟩, ⟨n!"rhofl1", .none⟩, ⟨n!"rhofl2", .none⟩, ⟨n!"Kfl1", .none⟩, ⟨n!"Kfl2", .none⟩,
    ⟨n!"eta1", .none⟩, ⟨n!"eta2", .none⟩, ⟨n!"kapa", .none⟩, ⟨n!"a", .none⟩, ⟨n!"sg", .none⟩,
    ⟨n!"freq", .none⟩]
  body :=
  (.ofList [
    set! "omega" := 2 * v!"np.pi" * v!"freq",
    set! "b" := v!"a" / v!"sg" ** (1 / 3),
    set! "K1", "_" := c!"Fluid.Gassmann"[v!"Kdry", 0, v!"K0", v!"Kfl1", v!"phi"],
    set! "K2", "_" := c!"Fluid.Gassmann"[v!"Kdry", 0, v!"K0", v!"Kfl2", v!"phi"],
    set! "G1" := v!"Gdry",
    set! "G2" := v!"G1",
    set! "R1" := (v!"K1" - v!"Kdry") / (1 - v!"Kdry" / v!"K0") * (3 * v!"K2" + 4 * v!"G2") /
      (v!"K2" * (3 * v!"K1" + 4 * v!"G2") + 4 * v!"G2" * (v!"K1" - v!"K2") * v!"sg"),
    set! "R2" := (v!"K2" - v!"Kdry") / (1 - v!"Kdry" / v!"K0") * (3 * v!"K1" + 4 * v!"G1") /
      (v!"K2" * (3 * v!"K1" + 4 * v!"G2") + 4 * v!"G2" * (v!"K1" - v!"K2") * v!"sg"),
    set! "KA1" := (v!"phi" / v!"Kfl1" + (1 - v!"phi") / v!"K0" - v!"Kdry" / v!"K0" ** 2) ** (-1),
    set! "KA2" := (v!"phi" / v!"Kfl2" + (1 - v!"phi") / v!"K0" - v!"Kdry" / v!"K0" ** 2) ** (-1),
    set! "KE1" := (1 - v!"Kfl1" * (1 - v!"K1" / v!"K0") * (1 - v!"Kdry" / v!"K0") / (v!"phi" *
      v!"K1" * (1 - v!"Kfl1" / v!"K0"))) * v!"KA1",
    set! "KE2" := (1 - v!"Kfl2" * (1 - v!"K2" / v!"K0") * (1 - v!"Kdry" / v!"K0") / (v!"phi" *
      v!"K2" * (1 - v!"Kfl2" / v!"K0"))) * v!"KA2",
    set! "alpha1" := ((.imag 1.) * v!"omega" * v!"eta1" / (v!"kapa" * v!"KE1")) ** (1 / 2),
    set! "alpha2" := ((.imag 1.) * v!"omega" * v!"eta2" / (v!"kapa" * v!"KE2")) ** (1 / 2),
    set! "Z1" := v!"eta1" * v!"a" / v!"kapa" * (1 - c!"np.exp"[-2 * v!"alpha1" * v!"a"]) /
      (v!"alpha1" * v!"a" - 1 + (v!"alpha1" * v!"a" + 1) * c!"np.exp"[-2 * v!"alpha1" * v!"a"]),
    set! "Z2" := -v!"eta2" * v!"a" / v!"kapa" * (v!"alpha2" * v!"b" + 1 + (v!"alpha2" * v!"b" - 1)
      * c!"np.exp"[2 * v!"alpha2" * (v!"b" - v!"a")]) / ((v!"alpha2" * v!"b" + 1) * (v!"alpha2" *
      v!"a" - 1) - (v!"alpha2" * v!"b" - 1) * (v!"alpha2" * v!"a" + 1) * c!"np.exp"[2 * v!"alpha2"
      * (v!"b" - v!"a")]),
    set! "Q1" := (1 - v!"Kdry" / v!"K0") * v!"KA1" / v!"K1",
    set! "Q2" := (1 - v!"Kdry" / v!"K0") * v!"KA2" / v!"K2",
    set! "W" := 3 * v!"a" ** 2 * (v!"R1" - v!"R2") * (-v!"Q1" + v!"Q2") / (v!"b" ** 3 * (.imag 1.)
      * v!"omega" * (v!"Z1" + v!"Z2")),
    set! "Kinf" := (v!"K2" * (3 * v!"K1" + 4 * v!"G2") + 4 * v!"G2" * (v!"K1" - v!"K2") * v!"sg") /
      (3 * v!"K1" + 4 * v!"G2" - 3 * (v!"K1" - v!"K2") * v!"sg"),
    set! "Klowf" := (v!"K2" * (v!"K1" - v!"Kdry") + v!"sg" * v!"Kdry" * (v!"K2" - v!"K1")) /
      (v!"K1" - v!"Kdry" + v!"sg" * (v!"K2" - v!"K1")),
    set! "K_star" := v!"Kinf" / (1 - v!"Kinf" * v!"W"),
    set! "K_star_gas" := v!"Kinf" / (1 + 3 * v!"a" ** 2 * v!"R2" * v!"Q2" * v!"Kinf" / (v!"b" ** 3
      * (.imag 1.) * v!"omega" * v!"Z2")),
    set! "M" := v!"K_star" + 4 * v!"Gdry" / 3,
    set! "rho" := (1 - v!"phi") * v!"rho0" + v!"phi" * v!"sg" * v!"rhofl1" + v!"phi" * (1 - v!"sg")
      * v!"rhofl2",
    set! "theta" := c!"np.arctan"[(.attr v!"M" n!"imag") / (.attr v!"M" n!"real")],
    set! "Vp" := c!"np.sqrt"[c!"np.abs"[v!"M"] / v!"rho"] * 1 / c!"np.cos"[v!"theta" / 2],
    set! "a_w" := v!"omega" / v!"Vp" * c!"np.tan"[v!"theta" / 2],
    .ret t![v!"Vp", v!"a_w", v!"K_star"]])

end RockPhy.Source.Fluid
