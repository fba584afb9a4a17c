import Verif.Py.Syntax

/-! # The text of `rockphypy/BW.py`

Written by `tools/source.py`; do not edit. -/

namespace RockPhy.Source.BW

open RockPhy.Py

/-- `BW.dz_dp`, BW.py:15-24. -/
def dz_dp : Fun where
  params := [⟨n!"P_pr", .none⟩, ⟨n!"T_pr", .none⟩]
  body :=
  (.ofList [
    set! "dzdp" := 0.03 + 0.00527 * (3.5 - v!"T_pr") ** 3 + 0.109 * (3.85 - v!"T_pr") ** 2 * 1.2 *
      v!"P_pr" ** 0.2 * -(0.45 + 8 * (0.56 - 1 / v!"T_pr") ** 2) / v!"T_pr" * c!"np.exp"[-(0.45 + 8
      * (0.56 - 1 / v!"T_pr") ** 2) * v!"P_pr" ** 1.2 / v!"T_pr"],
    .ret v!"dzdp"])

/-- `BW.pseudo_p_t`, BW.py:27-52. -/
def pseudo_p_t : Fun where
  params := [⟨n!"P", .none⟩, ⟨n!"T", .none⟩, ⟨n!"G", .none⟩]
  body :=
  (.ofList [
    set! "Ta" := v!"T" + 273.15,
    set! "P_pr" := v!"P" / (4.892 - 0.4048 * v!"G"),
    set! "T_pr" := v!"Ta" / (94.72 + 170.75 * v!"G"),
    .ret t![v!"Ta", v!"P_pr", v!"T_pr"]])

/-- `BW.rho_K_co2`, BW.py:55-93. -/
def rho_K_co2 : Fun where
  params := [⟨n!"P", .none⟩, ⟨n!"T", .none⟩, ⟨n!"G", .none⟩]
  body :=
  (.ofList [
    set! "R" := 8.3145,
    set! "Ta" := v!"T" + 273.15,
    set! "P_pr" := v!"P" / 7.4,
    set! "T_pr" := v!"Ta" / (31.1 + 273.5),
    set! "E" := 0.109 * (3.85 - v!"T_pr") ** 2 * c!"np.exp"[-(0.45 + 8 * (0.56 - 1 / v!"T_pr") **
      2) * v!"P_pr" ** 1.2 / v!"T_pr"],
    set! "Z" := (0.03 + 0.00527 * (3.5 - v!"T_pr") ** 3) * v!"P_pr" + (0.642 * v!"T_pr" - 0.007 *
      v!"T_pr" ** 4 - 0.52) + v!"E",
    set! "rho" := 28.8 * v!"G" * v!"P" / (v!"Z" * v!"R" * v!"Ta"),
    set! "r_0" := 0.85 + 5.6 / (v!"P_pr" + 2) + 27.1 / (v!"P_pr" + 3.5) ** 2 - 8.7 *
      c!"np.exp"[-0.65 * (v!"P_pr" + 1)],
    set! "dzdp" := c!"BW.dz_dp"[v!"P_pr", v!"T_pr"],
    set! "K" := v!"P" / (1 - v!"P_pr" * v!"dzdp" / v!"Z") * v!"r_0",
    .ret t![v!"rho", v!"K" / 1000]])

/-- `BW.rho_K_gas`, BW.py:96-126. -/
def rho_K_gas : Fun where
  params := [⟨n!"P", .none⟩, ⟨n!"T", .none⟩, ⟨n!"G", .none⟩]
  body :=
  (.ofList [
    set! "R" := 8.3145,
    set! "Ta", "P_pr", "T_pr" := c!"BW.pseudo_p_t"[v!"P", v!"T", v!"G"],
    set! "E" := 0.109 * (3.85 - v!"T_pr") ** 2 * c!"np.exp"[-(0.45 + 8 * (0.56 - 1 / v!"T_pr") **
      2) * v!"P_pr" ** 1.2 / v!"T_pr"],
    set! "Z" := (0.03 + 0.00527 * (3.5 - v!"T_pr") ** 3) * v!"P_pr" + (0.642 * v!"T_pr" - 0.007 *
      v!"T_pr" ** 4 - 0.52) + v!"E",
    set! "rho" := 28.8 * v!"G" * v!"P" / (v!"Z" * v!"R" * v!"Ta"),
    set! "r_0" := 0.85 + 5.6 / (v!"P_pr" + 2) + 27.1 / (v!"P_pr" + 3.5) ** 2 - 8.7 *
      c!"np.exp"[-0.65 * (v!"P_pr" + 1)],
    set! "dzdp" := c!"BW.dz_dp"[v!"P_pr", v!"T_pr"],
    set! "K" := v!"P" / (1 - v!"P_pr" * v!"dzdp" / v!"Z") * v!"r_0",
    .ret t![v!"rho", v!"K" / 1000]])

/-- `BW.rho_K_oil`, BW.py:129-153. -/
def rho_K_oil : Fun where
  params := [⟨n!"P", .none⟩, ⟨n!"T", .none⟩, ⟨n!"den", .none⟩]
  body :=
  (.ofList [
    set! "rho_p" := v!"den" + (0.00277 * v!"P" - 1.71 * 0.0000001 * v!"P" ** 3) * (v!"den" - 1.15)
      ** 2 + 3.49 * 0.0001 * v!"P",
    set! "rho" := v!"rho_p" / (0.972 + 3.81 * 0.0001 * (v!"T" + 17.78) ** 1.175),
    set! "v" := 2096 * (v!"den" / (2.6 - v!"den")) ** 0.5 - 3.7 * v!"T" + 4.64 * v!"P" + 0.0115 *
      (4.12 * (1.08 / v!"den" - 1) ** 0.5 - 1) * v!"T" * v!"P",
    set! "K" := v!"rho" * v!"v" ** 2,
    .ret t![v!"rho", v!"K" / 1e6]])

/-- `BW.rho_K_go`, BW.py:156-190. -/
def rho_K_go : Fun where
  params := [⟨n!"P", .none⟩, ⟨n!"T", .none⟩, ⟨n!"den", .none⟩, ⟨n!"G", .none⟩, ⟨n!"Rg", .none⟩]
  body :=
  (.ofList [
    .ite (.cmp .eq v!"Rg" .none)
      (.ofList [
        set! "Rg" := 0.02123 * v!"G" * (v!"P" * c!"np.exp"[4.072 / v!"den" - 0.00377 * v!"T"]) **
          1.205])
      .nil,
    set! "B" := 0.972 + 0.00038 * (2.4 * v!"Rg" * (v!"G" / v!"den") ** 0.5 + v!"T" + 17.8) ** 1.175,
    set! "rho_p" := v!"den" * (1 + 0.001 * v!"Rg") ** (-1) * v!"B" ** (-1),
    set! "v" := 2096 * (v!"rho_p" / (2.6 - v!"rho_p")) ** 0.5 - 3.7 * v!"T" + 4.64 * v!"P" + 0.0115
      * (4.12 * (1.08 / v!"rho_p" - 1) ** 0.5 - 1) * v!"T" * v!"P",
    set! "rho_g" := (v!"den" + 0.0012 * v!"G" * v!"Rg") / v!"B",
    set! "K" := v!"rho_g" * v!"v" ** 2,
    .ret t![v!"rho_g", v!"K" / 1e6]])

/-- `BW.rho_K_water`, BW.py:194-219. -/
def rho_K_water : Fun where
  params := [⟨n!"T", .none⟩, ⟨n!"P", .none⟩]
  body :=
  (.ofList [
    set! "rho_w" := 1 + 1e-6 * (-80 * v!"T" - 3.3 * v!"T" ** 2 + 0.00175 * v!"T" ** 3 + 489 * v!"P"
      - 2 * v!"T" * v!"P" + 0.016 * v!"P" * v!"T" ** 2 - 1.3e-5 * v!"T" ** 3 * v!"P" - 0.333 *
      v!"P" ** 2 - 0.002 * v!"T" * v!"P" ** 2),
    set! "v_w" := c!"BW.v_water"[v!"T", v!"P"],
    set! "K_w" := v!"rho_w" * v!"v_w" ** 2 * 1e-6,
    .ret t![v!"rho_w", v!"K_w"]])

/-- `BW.v_water`, BW.py:221-250. -/
def v_water : Fun where
  params := [⟨n!"T", .none⟩, ⟨n!"P", .none⟩]
  body :=
  (.ofList [
    .ite c!"np.any"[(.cmp .gt v!"P" 100)]
      (.ofList [
        .expr c!"warnings.warn"[(.str "pressures above about 100 MPa-> inaccurate estimations")]])
      .nil,
    set! "w" := c!"np.array"[l![l![1.40285e+03, 1.52400e+00, 3.43700e-03, -1.19700e-05],
      l![4.87100e+00, -1.11000e-02, 1.73900e-04, -1.62800e-06], l![-4.78300e-02, 2.74700e-04,
      -2.13500e-06, 1.23700e-08], l![1.48700e-04, -6.50300e-07, -1.45500e-08, 1.32700e-10],
      l![-2.19700e-07, 7.98700e-10, 5.23000e-11, -4.61400e-13]]],
    set! "v_w" := c!"sum"[(.gen n!"i" c!"range"[5] (.gen n!"j" c!"range"[4] (.yield ((.idx v!"w"
      (.ofList [v!"i", v!"j"])) * v!"T" ** v!"i" * v!"P" ** v!"j"))))],
    .ret v!"v_w"])

/-- `BW.rho_K_brine`, BW.py:252-277. -/
def rho_K_brine : Fun where
  params := [⟨n!"T", .none⟩, ⟨n!"P", .none⟩, ⟨n!"S", .none⟩]
  body :=
  (.ofList [
    set! "rho_w", "_" := c!"BW.rho_K_water"[v!"T", v!"P"],
    set! "x" := 300 * v!"P" - 2400 * v!"P" * v!"S" + v!"T" * (80 + 3 * v!"T" - 3300 * v!"S" - 13 *
      v!"P" + 47 * v!"P" * v!"S"),
    set! "rho_b" := v!"rho_w" + v!"S" * (0.668 + 0.44 * v!"S" + 1e-6 * v!"x"),
    set! "v_b" := c!"BW.v_brine"[v!"T", v!"P", v!"S"],
    set! "K_b" := v!"rho_b" * v!"v_b" ** 2 * 1e-6,
    .ret t![v!"rho_b", v!"K_b"]])

/-- `BW.v_brine`, BW.py:279-303. -/
def v_brine : Fun where
  params := [⟨n!"T", .none⟩, ⟨n!"P", .none⟩, ⟨n!"S", .none⟩]
  body :=
  (.ofList [
    set! "v_w" := c!"BW.v_water"[v!"T", v!"P"],
    set! "s1" := 1170 - 9.6 * v!"T" + 0.055 * v!"T" ** 2 - 8.5e-5 * v!"T" ** 3 + 2.6 * v!"P" -
      0.0029 * v!"T" * v!"P" - 0.0476 * v!"P" ** 2,
    set! "s15" := 780 - 10 * v!"P" + 0.16 * v!"P" ** 2,
    set! "s2" := -820,
    set! "v_b" := v!"v_w" + v!"s1" * v!"S" + v!"s15" * v!"S" ** 1.5 + v!"s2" * v!"S" ** 2,
    .ret v!"v_b"])

/-- `BW.co2_brine`, BW.py:305-340. -/
def co2_brine : Fun where
  params := [⟨n!"temperature", .none⟩, ⟨n!"pressure", .none⟩, ⟨n!"salinity", .none⟩, ⟨n!"Sco2",
    .none⟩, ⟨n!"brie_component", some .none⟩, ⟨n!"bw", some (.bool false)⟩]
  body :=
  (.ofList [
    set! "G" := 1.5349,
    .ite (.cmp .is v!"bw" (.bool true))
      (.ofList [
        set! "rho_co2", "K_co2" := c!"BW.rho_K_gas"[v!"pressure", v!"temperature", v!"G"]])
      (.ofList [
        set! "rho_co2", "K_co2" := c!"BW.rho_K_co2"[v!"pressure", v!"temperature", v!"G"]]),
    set! "rho_brine", "K_b" := c!"BW.rho_K_brine"[v!"temperature", v!"pressure", v!"salinity"],
    set! "den_mix" := (1 - v!"Sco2") * v!"rho_brine" + v!"Sco2" * v!"rho_co2",
    .ite (.cmp .eq v!"brie_component" .none)
      (.ofList [
        set! "Kf_mix" := ((1 - v!"Sco2") / v!"K_b" + v!"Sco2" / v!"K_co2") ** (-1)])
      (.ofList [
        set! "Kf_mix" := c!"Fluid.Brie"[v!"K_b", v!"K_co2", 1 - v!"Sco2", v!"brie_component"]]),
    .ret t![v!"den_mix", v!"Kf_mix"]])

end RockPhy.Source.BW
