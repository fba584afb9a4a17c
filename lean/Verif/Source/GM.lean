import Verif.Py.Syntax

/-! # The text of `rockphypy/GM.py`

Written by `tools/source.py`; do not edit. -/

namespace RockPhy.Source.GM

open RockPhy.Py

/-- `GM.ThomasStieber`, GM.py:17-44. -/
def ThomasStieber : Fun where
  params := [⟨n!"phi_sand", .none⟩, ⟨n!"phi_sh", .none⟩, ⟨n!"vsh", .none⟩]
  body :=
  (.ofList [
    set! "phi1" := v!"phi_sand" - (1 - v!"phi_sh") * v!"vsh",
    set! "phi2" := v!"phi_sh" * v!"vsh",
    set! "phi_ABC" := c!"np.maximum"[v!"phi1", v!"phi2"],
    set! "phi_AD" := v!"phi_sand" + v!"phi_sh" * v!"vsh",
    set! "m" := v!"phi_sh" - v!"phi_sand",
    set! "b" := v!"phi_sand",
    set! "phi_AC" := v!"m" * v!"vsh" + v!"b",
    .ret t![v!"phi_ABC", v!"phi_AC"]])

/-- `GM.silty_shale`, GM.py:46-72. -/
def silty_shale : Fun where
  params := [⟨n!"C", .none⟩, ⟨n!"Kq", .none⟩, ⟨n!"Gq", .none⟩, ⟨n!"Ksh", .none⟩, ⟨n!"Gsh", .none⟩]
  body :=
  (.ofList [
    set! "K_sat" := (v!"C" / (v!"Ksh" + 4 * v!"Gsh" / 3) + (1 - v!"C") / (v!"Kq" + 4 * v!"Gq" / 3))
      ** (-1) - 4 * v!"Gsh" / 3,
    set! "Zsh" := v!"Gsh" / 6 * (9 * v!"Ksh" + 8 * v!"Gsh") / (v!"Ksh" + 2 * v!"Gsh"),
    set! "G_sat" := (v!"C" / (v!"Gsh" + v!"Zsh") + (1 - v!"C") / (v!"Gq" + v!"Zsh")) ** (-1) -
      v!"Zsh",
    .ret t![v!"K_sat", v!"G_sat"]])

/-- `GM.shaly_sand`, GM.py:74-102. -/
def shaly_sand : Fun where
  params := [⟨n!"phis", .none⟩, ⟨n!"C", .none⟩, ⟨n!"Kss", .none⟩, ⟨n!"Gss", .none⟩, ⟨n!"Kcc",
    .none⟩, ⟨n!"Gcc", .none⟩]
  body :=
  (.ofList [
    set! "K_sat" := ((1 - v!"C" / v!"phis") / (v!"Kss" + 4 * v!"Gss" / 3) + v!"C" / v!"phis" /
      (v!"Kcc" + 4 * v!"Gss" / 3)) ** (-1) - 4 * v!"Gss" / 3,
    set! "Zss" := v!"Gss" / 6 * (9 * v!"Kss" + 8 * v!"Gss") / (v!"Kss" + 2 * v!"Gss"),
    set! "G_sat" := ((1 - v!"C" / v!"phis") / (v!"Gss" + v!"Zss") + v!"C" / v!"phis" / (v!"Gcc" +
      v!"Zss")) ** (-1) - v!"Zss",
    .ret t![v!"K_sat", v!"G_sat"]])

/-- `GM.contactcement`, GM.py:104-158. -/
def contactcement : Fun where
  params := [⟨n!"K0", .none⟩, ⟨n!"G0", .none⟩, ⟨n!"Kc", .none⟩, ⟨n!"Gc", .none⟩, ⟨n!"phi", .none⟩,
    ⟨n!"phic", .none⟩, ⟨n!"Cn", .none⟩, ⟨n!"scheme", .none⟩]
  body :=
  (.ofList [
    set! "nu_0" := (3 * v!"K0" - 2 * v!"G0") / (6 * v!"K0" + 2 * v!"G0"),
    set! "nu_c" := (3 * v!"Kc" - 2 * v!"Gc") / (6 * v!"Kc" + 2 * v!"Gc"),
    .ite (.cmp .eq v!"scheme" 1)
      (.ofList [
        set! "alpha" := 2 * ((v!"phic" - v!"phi") / (3 * v!"Cn" * (1 - v!"phic"))) ** (1 / 4)])
      (.ofList [
        set! "alpha" := (2 * (v!"phic" - v!"phi") / (3 * (1 - v!"phic"))) ** (1 / 2)]),
    set! "LambdaN" := 2 * v!"Gc" * (1 - v!"nu_0") * (1 - v!"nu_c") / (v!"np.pi" * v!"G0" * (1 - 2 *
      v!"nu_c")),
    set! "N1" := -0.024153 * v!"LambdaN" ** (-1.3646),
    set! "N2" := 0.20405 * v!"LambdaN" ** (-0.89008),
    set! "N3" := 0.00024649 * v!"LambdaN" ** (-1.9864),
    set! "Sn" := v!"N1" * v!"alpha" ** 2 + v!"N2" * v!"alpha" + v!"N3",
    set! "LambdaT" := v!"Gc" / (v!"np.pi" * v!"G0"),
    set! "T1" := -10 ** (-2) * (2.26 * v!"nu_0" ** 2 + 2.07 * v!"nu_0" + 2.3) * v!"LambdaT" **
      (0.079 * v!"nu_0" ** 2 + 0.1754 * v!"nu_0" - 1.342),
    set! "T2" := (0.0573 * v!"nu_0" ** 2 + 0.0937 * v!"nu_0" + 0.202) * v!"LambdaT" ** (0.0274 *
      v!"nu_0" ** 2 + 0.0529 * v!"nu_0" - 0.8765),
    set! "T3" := 10 ** (-4) * (9.654 * v!"nu_0" ** 2 + 4.945 * v!"nu_0" + 3.1) * v!"LambdaT" **
      (0.01867 * v!"nu_0" ** 2 + 0.4011 * v!"nu_0" - 1.8186),
    set! "St" := v!"T1" * v!"alpha" ** 2 + v!"T2" * v!"alpha" + v!"T3",
    set! "K_dry" := 1 / 6 * v!"Cn" * (1 - v!"phic") * (v!"Kc" + 4 / 3 * v!"Gc") * v!"Sn",
    set! "G_dry" := 3 / 5 * v!"K_dry" + 3 / 20 * v!"Cn" * (1 - v!"phic") * v!"Gc" * v!"St",
    .ret t![v!"K_dry", v!"G_dry"]])

/-- `GM.hertzmindlin`, GM.py:160-197. -/
def hertzmindlin : Fun where
  params := [⟨n!"K0", .none⟩, ⟨n!"G0", .none⟩, ⟨n!"phic", .none⟩, ⟨n!"Cn", .none⟩, ⟨n!"sigma",
    .none⟩, ⟨n!"f", .none⟩]
  body :=
  (.ofList [
    set! "sigma" := v!"sigma" / 1000,
    set! "nu" := (3 * v!"K0" - 2 * v!"G0") / (6 * v!"K0" + 2 * v!"G0"),
    set! "K_dry" := (v!"sigma" * (v!"Cn" ** 2 * (1 - v!"phic") ** 2 * v!"G0" ** 2) / (18 *
      v!"np.pi" ** 2 * (1 - v!"nu") ** 2)) ** (1 / 3),
    set! "G_dry" := (2 + 3 * v!"f" - v!"nu" * (1 + 3 * v!"f")) / (5 * (2 - v!"nu")) * (v!"sigma" *
      (3 * v!"Cn" ** 2 * (1 - v!"phic") ** 2 * v!"G0" ** 2) / (2 * v!"np.pi" ** 2 * (1 - v!"nu") **
      2)) ** (1 / 3),
    .ret t![v!"K_dry", v!"G_dry"]])

/-- `GM.softsand`, GM.py:199-237. -/
def softsand : Fun where
  params := [⟨n!"K0", .none⟩, ⟨n!"G0", .none⟩, ⟨n!"phi", .none⟩, ⟨n!"phic", .none⟩, ⟨n!"Cn",
    .none⟩, ⟨n!"sigma", .none⟩, ⟨n!"f", .none⟩]
  body :=
  (.ofList [
    set! "K_HM", "G_HM" := c!"GM.hertzmindlin"[v!"K0", v!"G0", v!"phic", v!"Cn", v!"sigma", v!"f"],
    set! "K_dry" := -4 / 3 * v!"G_HM" + (v!"phi" / v!"phic" / (v!"K_HM" + 4 / 3 * v!"G_HM") + (1 -
      v!"phi" / v!"phic") / (v!"K0" + 4 / 3 * v!"G_HM")) ** (-1),
    set! "aux" := v!"G_HM" / 6 * ((9 * v!"K_HM" + 8 * v!"G_HM") / (v!"K_HM" + 2 * v!"G_HM")),
    set! "G_dry" := -v!"aux" + (v!"phi" / v!"phic" / (v!"G_HM" + v!"aux") + (1 - v!"phi" /
      v!"phic") / (v!"G0" + v!"aux")) ** (-1),
    .ret t![v!"K_dry", v!"G_dry"]])

/-- `GM.Walton`, GM.py:239-282. -/
def Walton : Fun where
  params := [⟨n!"K0", .none⟩, ⟨n!"G0", .none⟩, ⟨n!"phic", .none⟩, ⟨n!"Cn", .none⟩, ⟨n!"sigma",
    .none⟩, ⟨n!"f", .none⟩]
  body :=
  (.ofList [
    set! "sigma" := v!"sigma" / 1e3,
    set! "lamda" := v!"K0" - 2 * v!"G0" / 3,
    set! "B" := 1 / (4 * v!"np.pi") * (1 / v!"G0" + 1 / (v!"G0" + v!"lamda")),
    set! "K_w" := 1 / 6 * (3 * (1 - v!"phic") ** 2 * v!"Cn" ** 2 * v!"sigma" / (v!"np.pi" ** 4 *
      v!"B" ** 2)) ** (1 / 3),
    set! "G_dry1" := 3 / 5 * v!"K_w",
    set! "nu" := (3 * v!"K0" - 2 * v!"G0") / (6 * v!"K0" + 2 * v!"G0"),
    set! "G_dry2" := 3 / 5 * v!"K_w" * (5 - 4 * v!"nu") / (2 - v!"nu"),
    set! "G_w" := v!"f" * v!"G_dry2" + (1 - v!"f") * v!"G_dry1",
    .ret t![v!"K_w", v!"G_w"]])

/-- `GM.johnson`, GM.py:284-354. -/
def johnson : Fun where
  params := [⟨n!"K0", .none⟩, ⟨n!"G0", .none⟩, ⟨n!"n", .none⟩, ⟨n!"phi", .none⟩, ⟨n!"epsilon",
    .none⟩, ⟨n!"epsilon_axial", .none⟩, ⟨n!"path", some (.str "together")⟩]
  body :=
  (.ofList [
    set! "nu0" := c!"utils.poi"[v!"K0", v!"G0"],
    set! "Cn" := 4 * v!"G0" / (1 - v!"nu0"),
    set! "Ct" := 8 * v!"G0" / (2 - v!"nu0"),
    set! "Bw" := 2 / (v!"np.pi" * v!"Cn"),
    set! "Cw" := 4 / v!"np.pi" * (1 / v!"Ct" - 1 / v!"Cn"),
    set! "gamma" := 3 / 32 * v!"Cn" * v!"Ct" * v!"n" * (1 - v!"phi") * c!"np.sqrt"[-v!"epsilon"],
    set! "alpha" := c!"np.sqrt"[v!"epsilon" / v!"epsilon_axial"],
    set! "I0" := 1 / 2 * (c!"np.sqrt"[1 + v!"alpha" ** 2] + v!"alpha" ** 2 * c!"np.log"[1 +
      c!"np.sqrt"[1 + v!"alpha" ** 2] / v!"alpha"]),
    set! "I2" := 1 / 4 * ((1 + v!"alpha" ** 2) ** (3 / 2) - v!"alpha" ** 2 * v!"I0"),
    set! "I4" := 1 / 6 * ((1 + v!"alpha" ** 2) ** (3 / 2) - 3 * v!"alpha" ** 2 * v!"I2"),
    set! "C11" := v!"gamma" / v!"alpha" * (4 * v!"Bw" / 3 + 2 * v!"Cw" / 5 + v!"epsilon" /
      v!"epsilon_axial" * (2 * v!"Bw" / 15 + v!"Cw" / 35)),
    set! "C33" := v!"gamma" / v!"alpha" * (4 * v!"Bw" * v!"I2" + 2 * v!"Cw" * v!"I4"),
    set! "C13" := v!"gamma" / v!"alpha" * v!"Cw" * (v!"I2" - v!"I4"),
    set! "C44" := v!"gamma" / v!"alpha" * (v!"Bw" / 2 * (v!"I0" + v!"I2") + v!"Cw" * (v!"I2" -
      v!"I4")),
    set! "C66" := v!"gamma" / v!"alpha" * (v!"Bw" * (v!"I0" - v!"I2") + v!"Cw" / 4 * (v!"I0" - 2 *
      v!"I2" + v!"I4")),
    set! "C" := c!"utils.write_VTI_matrix"[v!"C11", v!"C33", v!"C13", v!"C44", v!"C66"],
    set! "Temp" := -(-v!"epsilon") ** (3 / 2) * (1 - v!"phi") * v!"n" / (4 * v!"np.pi" * v!"alpha"
      ** 3),
    .ite (.cmp .eq v!"path" (.str "together"))
      (.ofList [
        set! "sigma33" := 2 * v!"Temp" * (v!"Ct" * (v!"I2" - v!"I4") + v!"Cn" * (v!"alpha" ** 2 *
          v!"I2" + v!"I4")),
        set! "sigma11" := v!"Temp" * (-v!"Ct" * (v!"I2" - v!"I4") + v!"Cn" * (v!"alpha" ** 2 *
          v!"I0" + (1 - v!"alpha" ** 2) * v!"I2" - v!"I4"))])
      (.ofList [
        .ite (.cmp .eq v!"path" (.str "uni_iso"))
          (.ofList [
            set! "sigma33" := 2 * v!"Temp" * (1 / 12 * v!"Ct" + v!"Cn" * (v!"alpha" ** 2 * v!"I2" +
              v!"I4")),
            set! "sigma11" := v!"Temp" * (-1 / 12 * v!"Ct" + v!"Cn" * (v!"alpha" ** 2 * v!"I0" + (1
              - v!"alpha" ** 2) * v!"I2" - v!"I4"))])
          (.ofList [
            .ite (.cmp .eq v!"path" (.str "iso-uni"))
              (.ofList [
                set! "sigma33" := 2 * v!"Temp" * (v!"Ct" * (v!"alpha" ** 2 * v!"I0" + (1 -
                  v!"alpha" ** 2) * v!"I2" - v!"I4" - 2 * v!"alpha" ** 3 / 3) + v!"Cn" * (v!"alpha"
                  ** 2 * v!"I2" + v!"I4")),
                set! "sigma11" := v!"Temp" * (-v!"Ct" * (v!"alpha" ** 2 * v!"I0" + (1 - v!"alpha"
                  ** 2) * v!"I2" - v!"I4" - 2 * v!"alpha" ** 3 / 3 + v!"Cn" * (v!"alpha" ** 2 *
                  v!"I0" + (1 - v!"alpha" ** 2) * v!"I2" - v!"I4")))])
              .nil])]),
    .ret t![v!"C", v!"sigma33", v!"sigma11"]])

/-- `GM.stiffsand`, GM.py:357-391. -/
def stiffsand : Fun where
  params := [⟨n!"K0", .none⟩, ⟨n!"G0", .none⟩, ⟨n!"phi", .none⟩, ⟨n!"phic", .none⟩, ⟨n!"Cn",
    .none⟩, ⟨n!"sigma", .none⟩, ⟨n!"f", .none⟩]
  body :=
  (.ofList [
    set! "K_HM", "G_HM" := c!"GM.hertzmindlin"[v!"K0", v!"G0", v!"phic", v!"Cn", v!"sigma", v!"f"],
    set! "K_dry" := -4 / 3 * v!"G0" + (v!"phi" / v!"phic" / (v!"K_HM" + 4 / 3 * v!"G0") + (1 -
      v!"phi" / v!"phic") / (v!"K0" + 4 / 3 * v!"G0")) ** (-1),
    set! "aux" := v!"G0" / 6 * ((9 * v!"K0" + 8 * v!"G0") / (v!"K0" + 2 * v!"G0")),
    set! "G_dry" := -v!"aux" + (v!"phi" / v!"phic" / (v!"G_HM" + v!"aux") + (1 - v!"phi" /
      v!"phic") / (v!"G0" + v!"aux")) ** (-1),
    .ret t![v!"K_dry", v!"G_dry"]])

/-- `GM.constantcement`, GM.py:393-437. -/
def constantcement : Fun where
  params := [⟨n!"phi_b", .none⟩, ⟨n!"K0", .none⟩, ⟨n!"G0", .none⟩, ⟨n!"Kc", .none⟩, ⟨n!"Gc",
    .none⟩, ⟨n!"phi", .none⟩, ⟨n!"phic", .none⟩, ⟨n!"Cn", .none⟩, ⟨n!"scheme", .none⟩]
  body :=
  (.ofList [
    set! "K_b", "G_b" := c!"GM.contactcement"[v!"K0", v!"G0", v!"Kc", v!"Gc", v!"phi_b", v!"phic",
      v!"Cn", v!"scheme"],
    set! "T" := v!"phi" / v!"phi_b",
    set! "Z" := v!"G_b" / 6 * (9 * v!"K_b" + 8 * v!"G_b") / (v!"K_b" + 2 * v!"G_b"),
    set! "Kdry" := (v!"T" / (v!"K_b" + 4 * v!"G_b" / 3) + (1 - v!"T") / (v!"K0" + 4 * v!"G_b" / 3))
      ** (-1) - 4 * v!"G_b" / 3,
    set! "Gdry" := (v!"T" / (v!"G_b" + v!"Z") + (1 - v!"T") / (v!"G0" + v!"Z")) ** (-1) - v!"Z",
    .ret t![v!"Kdry", v!"Gdry"]])

/-- `GM.MUHS`, GM.py:439-483. -/
def MUHS : Fun where
  params := [⟨n!"K0", .none⟩, ⟨n!"G0", .none⟩, ⟨n!"Kc", .none⟩, ⟨n!"Gc", .none⟩, ⟨n!"phi", .none⟩,
    ⟨n!"phi_b", .none⟩, ⟨n!"phic", .none⟩, ⟨n!"Cn", .none⟩, ⟨n!"scheme", .none⟩]
  body :=
  (.ofList [
    set! "K_b", "G_b" := c!"GM.contactcement"[v!"K0", v!"G0", v!"Kc", v!"Gc", v!"phi_b", v!"phic",
      v!"Cn", v!"scheme"],
    set! "K_dry" := -4 / 3 * v!"G0" + (v!"phi" / v!"phi_b" / (v!"K_b" + 4 / 3 * v!"G0") + (1 -
      v!"phi" / v!"phi_b") / (v!"K0" + 4 / 3 * v!"G0")) ** (-1),
    set! "tmp" := v!"G0" / 6 * ((9 * v!"K0" + 8 * v!"G0") / (v!"K0" + 2 * v!"G0")),
    set! "G_dry" := -v!"tmp" + (v!"phi" / v!"phi_b" / (v!"G_b" + v!"tmp") + (1 - v!"phi" /
      v!"phi_b") / (v!"G0" + v!"tmp")) ** (-1),
    .ret t![v!"K_dry", v!"G_dry"]])

/-- `GM.Digby`, GM.py:485-525. -/
def Digby : Fun where
  params := [⟨n!"K0", .none⟩, ⟨n!"G0", .none⟩, ⟨n!"phi", .none⟩, ⟨n!"Cn", .none⟩, ⟨n!"sigma",
    .none⟩, ⟨n!"a_R", .none⟩]
  body :=
  (.ofList [
    set! "sigma" := v!"sigma" / 1000,
    set! "nu" := (3 * v!"K0" - 2 * v!"G0") / (6 * v!"K0" + 2 * v!"G0"),
    set! "coeff" := c!"np.array"[l![1, 0, 3 / 2 * v!"a_R" ** 2, -3 * v!"np.pi" * (1 - v!"nu") *
      v!"sigma" / (2 * v!"Cn" * (1 - v!"phi") * v!"G0")]],
    set! "roots" := c!"np.roots"[v!"coeff"],
    set! "root" := (.idx (.attr v!"roots" n!"real") (.ofList [(.cmp .ge (.attr v!"roots" n!"real")
      0)])),
    set! "b_R" := c!"np.sqrt"[v!"root" ** 2 + v!"a_R" ** 2],
    set! "Sn_R" := 4 * v!"G0" * v!"b_R" / (1 - v!"nu"),
    set! "St_R" := 8 * v!"G0" * v!"a_R" / (2 - v!"nu"),
    set! "Keff" := v!"Cn" * (1 - v!"phi") * v!"Sn_R" / 12 / v!"np.pi",
    set! "Geff" := v!"Cn" * (1 - v!"phi") * (v!"Sn_R" + 1.5 * v!"St_R") / 20 / v!"np.pi",
    .ret t![v!"Keff", v!"Geff"]])

/-- `GM.pcm`, GM.py:527-617. -/
def pcm : Fun where
  params := [⟨n!"f", .none⟩, ⟨n!"sigma", .none⟩, ⟨n!"K0", .none⟩, ⟨n!"G0", .none⟩, ⟨n!"phi",
    .none⟩, ⟨n!"phic", .none⟩, ⟨n!"v_cem", .none⟩, ⟨n!"v_ci", .none⟩, ⟨n!"Kc", .none⟩, ⟨n!"Gc",
    .none⟩, ⟨n!"Cn", .none⟩, ⟨n!"mode", .none⟩, ⟨n!"scheme", .none⟩, ⟨n!"f_", .none⟩]
  body :=
  (.ofList [
    set! "Kunc", "Gunc" := (.call n!"GM.hertzmindlin" (.ofKw [v!"K0", v!"G0"] [(n!"phic",
      v!"phic"), (n!"Cn", v!"Cn"), (n!"sigma", v!"sigma"), (n!"f", v!"f_")])),
    .ite (.cmp .le v!"v_cem" v!"v_ci")
      (.ofList [
        set! "Kcem", "Gcem" := (.call n!"GM.contactcement" (.ofKw [v!"K0", v!"G0", v!"Kc", v!"Gc",
          v!"phic" - v!"v_cem"] [(n!"phic", v!"phic"), (n!"Cn", v!"Cn"), (n!"scheme",
          v!"scheme")]))])
      (.ofList [
        set! "Kcem", "Gcem" := (.call n!"GM.MUHS" (.ofKw [v!"K0", v!"G0", v!"Kc", v!"Gc", v!"phic"
          - v!"v_cem", v!"phic" - v!"v_ci"] [(n!"phic", v!"phic"), (n!"Cn", v!"Cn"), (n!"scheme",
          v!"scheme")]))]),
    .ite (.cmp .eq v!"mode" (.str "stiff"))
      (.ofList [
        set! "Kp" := v!"Kcem" + (1 - v!"f") / ((v!"Kunc" - v!"Kcem") ** (-1) + v!"f" * (v!"Kcem" +
          4 * v!"Gcem" / 3) ** (-1)),
        set! "Temp" := (v!"Kcem" + 2 * v!"Gcem") / (5 * v!"Gcem" * (v!"Kcem" + 4 * v!"Gcem" / 3)),
        set! "Gp" := v!"Gcem" + (1 - v!"f") / ((v!"Gunc" - v!"Gcem") ** (-1) + 2 * v!"f" *
          v!"Temp")])
      (.ofList [
        set! "Kp" := v!"Kunc" + v!"f" / ((v!"Kcem" - v!"Kunc") ** (-1) + (1 - v!"f") * (v!"Kunc" +
          4 * v!"Gunc" / 3) ** (-1)),
        set! "Temp" := (v!"Kunc" + 2 * v!"Gunc") / (5 * v!"Gunc" * (v!"Kunc" + 4 * v!"Gunc" / 3)),
        set! "Gp" := v!"Gunc" + v!"f" / ((v!"Gcem" - v!"Gunc") ** (-1) + 2 * (1 - v!"f") *
          v!"Temp")]),
    set! "K_DRY" := -4 / 3 * v!"Gp" + (v!"phi" / v!"phic" / (v!"Kp" + 4 / 3 * v!"Gp") + (1 -
      v!"phi" / v!"phic") / (v!"K0" + 4 / 3 * v!"Gp")) ** (-1),
    set! "tmp" := v!"Gp" / 6 * ((9 * v!"Kp" + 8 * v!"Gp") / (v!"Kp" + 2 * v!"Gp")),
    set! "G_DRY" := -v!"tmp" + (v!"phi" / v!"phic" / (v!"Gp" + v!"tmp") + (1 - v!"phi" / v!"phic")
      / (v!"G0" + v!"tmp")) ** (-1),
    .ret t![v!"K_DRY", v!"G_DRY"]])

/-- `GM.diluting`, GM.py:619-641. -/
def diluting : Fun where
  params := [⟨n!"k", .none⟩, ⟨n!"sigma0", .none⟩, ⟨n!"sigma", .none⟩, ⟨n!"m", .none⟩]
  body :=
  (.ofList [
    set! "alpha" := v!"k" * (1 - v!"sigma" / v!"sigma0") ** v!"m",
    .assign (.idx n!"alpha" (.ofList [c!"np.isnan"[v!"alpha"]])) (0),
    .ret v!"alpha"])

/-- `GM.vpcm`, GM.py:643-732. -/
def vpcm : Fun where
  params := [⟨n!"alpha", .none⟩, ⟨n!"f", .none⟩, ⟨n!"sigma", .none⟩, ⟨n!"K0", .none⟩, ⟨n!"G0",
    .none⟩, ⟨n!"phi", .none⟩, ⟨n!"phic", .none⟩, ⟨n!"v_cem", .none⟩, ⟨n!"v_ci", .none⟩, ⟨n!"Kc",
    .none⟩, ⟨n!"Gc", .none⟩, ⟨n!"Cn", .none⟩, ⟨n!"scheme", .none⟩, ⟨n!"f_", .none⟩]
  body :=
  (.ofList [
    set! "Kunc", "Gunc" := (.call n!"GM.hertzmindlin" (.ofKw [v!"K0", v!"G0"] [(n!"phic",
      v!"phic"), (n!"Cn", v!"Cn"), (n!"sigma", v!"sigma"), (n!"f", v!"f_")])),
    .ite (.cmp .le v!"v_cem" v!"v_ci")
      (.ofList [
        set! "Kcem", "Gcem" := (.call n!"GM.contactcement" (.ofKw [v!"K0", v!"G0", v!"Kc", v!"Gc",
          v!"phic" - v!"v_cem"] [(n!"phic", v!"phic"), (n!"Cn", v!"Cn"), (n!"scheme",
          v!"scheme")]))])
      (.ofList [
        set! "Kcem", "Gcem" := (.call n!"GM.MUHS" (.ofKw [v!"K0", v!"G0", v!"Kc", v!"Gc", v!"phic"
          - v!"v_cem", v!"phic" - v!"v_ci"] [(n!"phic", v!"phic"), (n!"Cn", v!"Cn"), (n!"scheme",
          v!"scheme")]))]),
    set! "Kp_stiff" := v!"Kcem" + (1 - v!"f") / ((v!"Kunc" - v!"Kcem") ** (-1) + v!"f" * (v!"Kcem"
      + 4 * v!"Gcem" / 3) ** (-1)),
    set! "Temp_stiff" := (v!"Kcem" + 2 * v!"Gcem") / (5 * v!"Gcem" * (v!"Kcem" + 4 * v!"Gcem" / 3)),
    set! "Gp_stiff" := v!"Gcem" + (1 - v!"f") / ((v!"Gunc" - v!"Gcem") ** (-1) + 2 * v!"f" *
      v!"Temp_stiff"),
    set! "Kp_soft" := v!"Kunc" + v!"f" / ((v!"Kcem" - v!"Kunc") ** (-1) + (1 - v!"f") * (v!"Kunc" +
      4 * v!"Gunc" / 3) ** (-1)),
    set! "Temp_soft" := (v!"Kunc" + 2 * v!"Gunc") / (5 * v!"Gunc" * (v!"Kunc" + 4 * v!"Gunc" / 3)),
    set! "Gp_soft" := v!"Gunc" + v!"f" / ((v!"Gcem" - v!"Gunc") ** (-1) + 2 * (1 - v!"f") *
      v!"Temp_soft"),
    set! "Kp" := v!"Kp_stiff" * (1 - v!"alpha") + v!"Kp_soft" * v!"alpha",
    set! "Gp" := v!"Gp_stiff" * (1 - v!"alpha") + v!"Gp_soft" * v!"alpha",
    set! "K_DRY" := -4 / 3 * v!"Gp" + (v!"phi" / v!"phic" / (v!"Kp" + 4 / 3 * v!"Gp") + (1 -
      v!"phi" / v!"phic") / (v!"K0" + 4 / 3 * v!"Gp")) ** (-1),
    set! "tmp" := v!"Gp" / 6 * ((9 * v!"Kp" + 8 * v!"Gp") / (v!"Kp" + 2 * v!"Gp")),
    set! "G_DRY" := -v!"tmp" + (v!"phi" / v!"phic" / (v!"Gp" + v!"tmp") + (1 - v!"phi" / v!"phic")
      / (v!"G0" + v!"tmp")) ** (-1),
    .ret t![v!"K_DRY", v!"G_DRY"]])

end RockPhy.Source.GM
