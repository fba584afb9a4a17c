import Verif.Py.Syntax

/-! # The text of `rockphypy/EM.py`

Written by `tools/source.py`; do not edit. -/

namespace RockPhy.Source.EM

open RockPhy.Py

/-- `EM.VRH`, EM.py:14-40. -/
def VRH : Fun where
  params := [⟨n!"volumes", .none⟩, ⟨n!"M", .none⟩]
  body :=
  (.ofList [
    set! "volumes" := c!"np.asanyarray"[v!"volumes"],
    set! "M" := c!"np.asanyarray"[v!"M"],
    set! "M_v" := c!"np.dot"[v!"volumes", v!"M"],
    set! "M_r" := c!"np.dot"[v!"volumes", 1 / v!"M"] ** (-1),
    set! "M_h" := 0.5 * (v!"M_r" + v!"M_v"),
    .ret t![v!"M_v", v!"M_r", v!"M_h"]])

/-- `EM.cripor`, EM.py:42-66. -/
def cripor : Fun where
  params := [⟨n!"K0", .none⟩, ⟨n!"G0", .none⟩, ⟨n!"phi", .none⟩, ⟨n!"phic", .none⟩]
  body :=
  (.ofList [
    set! "K_dry" := v!"K0" * (1 - v!"phi" / v!"phic"),
    set! "G_dry" := v!"G0" * (1 - v!"phi" / v!"phic"),
    .ret t![v!"K_dry", v!"G_dry"]])

/-- `EM.cripor_reuss`, EM.py:68-99. -/
def cripor_reuss : Fun where
  params := [⟨n!"M0", .none⟩, ⟨n!"Mf", .none⟩, ⟨n!"phic", .none⟩, ⟨n!"den", some (.bool false)⟩]
  body :=
  (.ofList [
    .ite (.cmp .is v!"den" (.bool false))
      (.ofList [
        set! "M" := (.idx c!"EM.VRH"[c!"np.array"[l![t![1 - v!"phic", v!"phic"]]],
          c!"np.array"[l![v!"M0", v!"Mf"]]] (.ofList [1]))])
      (.ofList [
        set! "M" := (.idx c!"EM.VRH"[c!"np.array"[l![t![1 - v!"phic", v!"phic"]]],
          c!"np.array"[l![v!"M0", v!"Mf"]]] (.ofList [0]))]),
    .ret v!"M"])

/-- `EM.HS`, EM.py:101-136. -/
def HS : Fun where
  params := [⟨n!"f", .none⟩, ⟨n!"K1", .none⟩, ⟨n!"K2", .none⟩, ⟨n!"G1", .none⟩, ⟨n!"G2", .none⟩,
    ⟨n!"bound", some (.str "upper")⟩]
  body :=
  (.ofList [
    .ite (.cmp .eq v!"bound" (.str "upper"))
      (.ofList [
        set! "K" := v!"K1" + (1 - v!"f") / ((v!"K2" - v!"K1") ** (-1) + v!"f" * (v!"K1" + 4 *
          v!"G1" / 3) ** (-1)),
        set! "Temp" := (v!"K1" + 2 * v!"G1") / (5 * v!"G1" * (v!"K1" + 4 * v!"G1" / 3)),
        set! "G" := v!"G1" + (1 - v!"f") / ((v!"G2" - v!"G1") ** (-1) + 2 * v!"f" * v!"Temp")])
      (.ofList [
        set! "K" := v!"K2" + v!"f" / ((v!"K1" - v!"K2") ** (-1) + (1 - v!"f") * (v!"K2" + 4 *
          v!"G2" / 3) ** (-1)),
        set! "Temp" := (v!"K2" + 2 * v!"G2") / (5 * v!"G2" * (v!"K2" + 4 * v!"G2" / 3)),
        set! "G" := v!"G2" + v!"f" / ((v!"G1" - v!"G2") ** (-1) + 2 * (1 - v!"f") * v!"Temp")]),
    .ret t![v!"K", v!"G"]])

/-- `EM.Eshelby_Cheng`, EM.py:138-213. -/
def Eshelby_Cheng : Fun where
  params := [⟨n!"K", .none⟩, ⟨n!"G", .none⟩, ⟨n!"phi", .none⟩, ⟨n!"alpha", .none⟩, ⟨n!"Kf", .none⟩,
    ⟨n!"mat", some (.bool false)⟩]
  body :=
  (.ofList [
    set! "lamda" := v!"K" - 2 * v!"G" / 3,
    set! "sigma" := (3 * v!"K" - 2 * v!"G") / (6 * v!"K" + 2 * v!"G"),
    set! "R" := (1 - 2 * v!"sigma") / (8 * v!"np.pi" * (1 - v!"sigma")),
    set! "Q" := 3 * v!"R" / (1 - 2 * v!"sigma"),
    set! "Sa" := c!"np.sqrt"[1 - v!"alpha" ** 2],
    set! "Ia" := 2 * v!"np.pi" * v!"alpha" * (c!"np.arccos"[v!"alpha"] - v!"alpha" * v!"Sa") /
      v!"Sa" ** 3,
    set! "Ic" := 4 * v!"np.pi" - 2 * v!"Ia",
    set! "Iac" := (v!"Ic" - v!"Ia") / (3 * v!"Sa" ** 2),
    set! "Iaa" := v!"np.pi" - 3 * v!"Iac" / 4,
    set! "Iab" := v!"Iaa" / 3,
    set! "S11" := v!"Q" * v!"Iaa" + v!"R" * v!"Ia",
    set! "S33" := v!"Q" * (4 * v!"np.pi" / 3 - 2 * v!"Iac" * v!"alpha" ** 2) + v!"Ic" * v!"R",
    set! "S12" := v!"Q" * v!"Iab" - v!"R" * v!"Ia",
    set! "S13" := v!"Q" * v!"Iac" * v!"alpha" ** 2 - v!"R" * v!"Ia",
    set! "S31" := v!"Q" * v!"Iac" - v!"R" * v!"Ic",
    set! "S1212" := v!"Q" * v!"Iab" + v!"R" * v!"Ia",
    set! "S1313" := v!"Q" * (1 + v!"alpha" ** 2) * v!"Iac" / 2 + v!"R" * (v!"Ia" + v!"Ic") / 2,
    set! "C" := v!"Kf" / (3 * (v!"K" - v!"Kf")),
    set! "D" := v!"S33" * v!"S11" + v!"S33" * v!"S12" - 2 * v!"S31" * v!"S13" - (v!"S11" + v!"S12"
      + v!"S33" - 1 - 3 * v!"C") - v!"C" * (v!"S11" + v!"S12" + 2 * (v!"S33" - v!"S13" - v!"S31")),
    set! "E" := v!"S33" * v!"S11" - v!"S31" * v!"S13" - (v!"S33" + v!"S11" - 2 * v!"C" - 1) + v!"C"
      * (v!"S31" + v!"S13" - v!"S11" - v!"S33"),
    set! "C11_1" := v!"lamda" * (v!"S31" - v!"S33" + 1) + 2 * v!"G" * v!"E" / (v!"D" * (v!"S12" -
      v!"S11" + 1)),
    set! "C33_1" := ((v!"lamda" + 2 * v!"G") * (-v!"S12" - v!"S11" + 1) + 2 * v!"lamda" * v!"S13" +
      4 * v!"G" * v!"C") / v!"D",
    set! "C13_1" := ((v!"lamda" + 2 * v!"G") * (v!"S13" + v!"S31") - 4 * v!"G" * v!"C" + v!"lamda"
      * (v!"S13" - v!"S12" - v!"S11" - v!"S33" + 2)) / (2 * v!"D"),
    set! "C44_1" := v!"G" / (1 - 2 * v!"S1313"),
    set! "C66_1" := v!"G" / (1 - 2 * v!"S1212"),
    set! "C11_0" := v!"lamda" + 2 * v!"G",
    set! "C13_0" := v!"lamda",
    set! "C33_0" := v!"C11_0",
    set! "C44_0" := v!"G",
    set! "C66_0" := v!"G",
    set! "C11" := v!"C11_0" - v!"phi" * v!"C11_1",
    set! "C13" := v!"C13_0" - v!"phi" * v!"C13_1",
    set! "C33" := v!"C33_0" - v!"phi" * v!"C33_1",
    set! "C44" := v!"C44_0" - v!"phi" * v!"C44_1",
    set! "C66" := v!"C66_0" - v!"phi" * v!"C66_1",
    .ite (.cmp .eq v!"mat" (.bool false))
      (.ofList [
        set! "C_eff" := c!"np.array"[l![v!"C11", v!"C33", v!"C13", v!"C44", v!"C66"]]])
      (.ofList [
        set! "C_eff" := c!"utils.write_VTI_matrix"[v!"C11", v!"C33", v!"C13", v!"C44", v!"C66"]]),
    .ret v!"C_eff"])

/-- `EM.hudson`, EM.py:215-285. -/
def hudson : Fun where
  params := [⟨n!"K", .none⟩, ⟨n!"G", .none⟩, ⟨n!"Ki", .none⟩, ⟨n!"Gi", .none⟩, ⟨n!"alpha", .none⟩,
    ⟨n!"crd", .none⟩, ⟨n!"order", some 1⟩, ⟨n!"axis", some 3⟩]
  body :=
  (.ofList [
    set! "lamda" := v!"K" - 2 * v!"G" / 3,
    set! "kapa" := (v!"Ki" + 4 * v!"Gi" / 3) * (v!"lamda" + 2 * v!"G") / (v!"np.pi" * v!"alpha" *
      v!"G" * (v!"lamda" + v!"G")),
    set! "M" := 4 * v!"Gi" * (v!"lamda" + v!"G") / (v!"np.pi" * v!"alpha" * v!"G" * (3 * v!"lamda"
      + 4 * v!"G")),
    set! "U1" := 16 * (v!"lamda" + 2 * v!"G") / (3 * (3 * v!"lamda" + 4 * v!"G") * (1 + v!"M")),
    set! "U3" := 4 * (v!"lamda" + 2 * v!"G") / (3 * (v!"lamda" + v!"G") * (1 + v!"kapa")),
    set! "C11_1" := -v!"lamda" ** 2 * v!"crd" * v!"U3" / v!"G",
    set! "C13_1" := -v!"lamda" * (v!"lamda" + 2 * v!"G") * v!"crd" * v!"U3" / v!"G",
    set! "C33_1" := -(v!"lamda" + 2 * v!"G") ** 2 * v!"crd" * v!"U3" / v!"G",
    set! "C44_1" := -v!"G" * v!"crd" * v!"U1",
    set! "q" := 15 * v!"lamda" ** 2 / v!"G" ** 2 + 28 * v!"lamda" / v!"G" + 28,
    set! "C11_2" := v!"q" / 15 * v!"lamda" ** 2 / (v!"lamda" + 2 * v!"G") * (v!"crd" * v!"U3") ** 2,
    set! "C13_2" := v!"q" / 15 * v!"lamda" * (v!"crd" * v!"U3") ** 2,
    set! "C33_2" := v!"q" / 15 * (v!"lamda" + 2 * v!"G") * (v!"crd" * v!"U3") ** 2,
    set! "C44_2" := 2 / 15 * v!"G" * (3 * v!"lamda" + 8 * v!"G") / (v!"lamda" + 2 * v!"G") *
      (v!"crd" * v!"U1") ** 2,
    .ite (.cmp .eq v!"order" 1)
      (.ofList [
        set! "C11" := v!"lamda" + 2 * v!"G" + v!"C11_1",
        set! "C13" := v!"lamda" + v!"C13_1",
        set! "C33" := v!"lamda" + 2 * v!"G" + v!"C33_1",
        set! "C44" := v!"G" + v!"C44_1",
        set! "C66" := v!"G"])
      (.ofList [
        .ite (.cmp .eq v!"order" 2)
          (.ofList [
            set! "C11" := v!"lamda" + 2 * v!"G" + v!"C11_1" + v!"C11_2",
            set! "C13" := v!"lamda" + v!"C13_1" + v!"C13_2",
            set! "C33" := v!"lamda" + 2 * v!"G" + v!"C33_1" + v!"C33_2",
            set! "C44" := v!"G" + v!"C44_1" + v!"C44_2",
            set! "C66" := v!"G"])
          .nil]),
    .ite (.cmp .eq v!"axis" 3)
      (.ofList [
        set! "C_eff" := c!"utils.write_VTI_matrix"[v!"C11", v!"C33", v!"C13", v!"C44", v!"C66"]])
      (.ofList [
        .ite (.cmp .eq v!"axis" 1)
          (.ofList [
            set! "C_eff" := c!"utils.write_HTI_matrix"[v!"C33", v!"C11", v!"C13", v!"C66",
              v!"C44"]])
          .nil]),
    .ret v!"C_eff"])

/-- `EM.hudson_rand`, EM.py:287-323. -/
def hudson_rand : Fun where
  params := [⟨n!"K", .none⟩, ⟨n!"G", .none⟩, ⟨n!"Ki", .none⟩, ⟨n!"Gi", .none⟩, ⟨n!"alpha", .none⟩,
    ⟨n!"crd", .none⟩]
  body :=
  (.ofList [
    set! "lamda" := v!"K" - 2 * v!"G" / 3,
    set! "kapa" := (v!"Ki" + 4 * v!"Gi" / 3) * (v!"lamda" + 2 * v!"G") / (v!"np.pi" * v!"alpha" *
      v!"G" * (v!"lamda" + v!"G")),
    set! "M" := 4 * v!"Gi" * (v!"lamda" + v!"G") / (v!"np.pi" * v!"alpha" * v!"G" * (3 * v!"lamda"
      + 4 * v!"G")),
    set! "U1" := 16 * (v!"lamda" + 2 * v!"G") / (3 * (3 * v!"lamda" + 4 * v!"G") * (1 + v!"M")),
    set! "U3" := 4 * (v!"lamda" + 2 * v!"G") / (3 * (v!"lamda" + v!"G") * (1 + v!"kapa")),
    set! "G_1" := -2 * v!"G" * v!"crd" * (3 * v!"U1" + 2 * v!"U3"),
    set! "lamda_1" := 1 / 3 * (-(3 * v!"lamda" + 2 * v!"G") ** 2 * v!"crd" * v!"U3" / (3 * v!"G") -
      2 * v!"G_1"),
    set! "lamda_eff" := v!"lamda" + v!"lamda_1",
    set! "G_eff" := v!"G" + v!"G_1",
    set! "K_eff" := v!"lamda_eff" + 2 * v!"G_eff" / 3,
    .ret t![v!"K_eff", v!"G_eff"]])

/-- `EM.hudson_ortho`, EM.py:325-378. -/
def hudson_ortho : Fun where
  params := [⟨n!"K", .none⟩, ⟨n!"G", .none⟩, ⟨n!"Ki", .none⟩, ⟨n!"Gi", .none⟩, ⟨n!"alpha", .none⟩,
    ⟨n!"crd", .none⟩]
  body :=
  (.ofList [
    set! "alpha" := c!"np.asanyarray"[v!"alpha"],
    set! "crd" := c!"np.asanyarray"[v!"crd"],
    set! "lamda" := v!"K" - 2 * v!"G" / 3,
    set! "kapa" := (v!"Ki" + 4 * v!"Gi" / 3) * (v!"lamda" + 2 * v!"G") / (v!"np.pi" * v!"alpha" *
      v!"G" * (v!"lamda" + v!"G")),
    set! "M" := 4 * v!"Gi" * (v!"lamda" + v!"G") / (v!"np.pi" * v!"alpha" * v!"G" * (3 * v!"lamda"
      + 4 * v!"G")),
    set! "U1" := 16 * (v!"lamda" + 2 * v!"G") / (3 * (3 * v!"lamda" + 4 * v!"G") * (1 + v!"M")),
    set! "U3" := 4 * (v!"lamda" + 2 * v!"G") / (3 * (v!"lamda" + v!"G") * (1 + v!"kapa")),
    set! "C11_1" := -v!"lamda" ** 2 * v!"crd" * v!"U3" / v!"G",
    set! "C13_1" := -v!"lamda" * (v!"lamda" + 2 * v!"G") * v!"crd" * v!"U3" / v!"G",
    set! "C33_1" := -(v!"lamda" + 2 * v!"G") ** 2 * v!"crd" * v!"U3" / v!"G",
    set! "C44_1" := -v!"G" * v!"crd" * v!"U1",
    set! "C12_1" := v!"C11_1",
    set! "C11" := v!"lamda" + 2 * v!"G" + (.idx v!"C33_1" (.ofList [0])) + (.idx v!"C11_1" (.ofList
      [1])) + (.idx v!"C11_1" (.ofList [2])),
    set! "C12" := v!"lamda" + (.idx v!"C13_1" (.ofList [0])) + (.idx v!"C13_1" (.ofList [1])) +
      (.idx v!"C12_1" (.ofList [2])),
    set! "C13" := v!"lamda" + (.idx v!"C13_1" (.ofList [0])) + (.idx v!"C12_1" (.ofList [1])) +
      (.idx v!"C13_1" (.ofList [2])),
    set! "C22" := v!"lamda" + 2 * v!"G" + (.idx v!"C11_1" (.ofList [0])) + (.idx v!"C33_1" (.ofList
      [1])) + (.idx v!"C11_1" (.ofList [2])),
    set! "C23" := v!"lamda" + (.idx v!"C12_1" (.ofList [0])) + (.idx v!"C13_1" (.ofList [1])) +
      (.idx v!"C13_1" (.ofList [2])),
    set! "C33" := v!"lamda" + 2 * v!"G" + (.idx v!"C11_1" (.ofList [0])) + (.idx v!"C11_1" (.ofList
      [1])) + (.idx v!"C33_1" (.ofList [2])),
    set! "C44" := v!"G" + (.idx v!"C44_1" (.ofList [1])) + (.idx v!"C44_1" (.ofList [2])),
    set! "C55" := v!"G" + (.idx v!"C44_1" (.ofList [0])) + (.idx v!"C44_1" (.ofList [2])),
    set! "C66" := v!"G" + (.idx v!"C44_1" (.ofList [0])) + (.idx v!"C44_1" (.ofList [1])),
    set! "C_eff" := c!"utils.write_matrix"[v!"C11", v!"C22", v!"C33", v!"C12", v!"C13", v!"C23",
      v!"C44", v!"C55", v!"C66"],
    .ret v!"C_eff"])

/-- `EM.hudson_cone`, EM.py:380-440. -/
def hudson_cone : Fun where
  params := [⟨n!"K", .none⟩, ⟨n!"G", .none⟩, ⟨n!"Ki", .none⟩, ⟨n!"Gi", .none⟩, ⟨n!"alpha", .none⟩,
    ⟨n!"crd", .none⟩, ⟨n!"theta", .none⟩]
  body :=
  (.ofList [
    set! "theta" := c!"np.deg2rad"[v!"theta"],
    set! "lamda" := v!"K" - 2 * v!"G" / 3,
    set! "kapa" := (v!"Ki" + 4 * v!"Gi" / 3) * (v!"lamda" + 2 * v!"G") / (v!"np.pi" * v!"alpha" *
      v!"G" * (v!"lamda" + v!"G")),
    set! "M" := 4 * v!"Gi" * (v!"lamda" + v!"G") / (v!"np.pi" * v!"alpha" * v!"G" * (3 * v!"lamda"
      + 4 * v!"G")),
    set! "U1" := 16 * (v!"lamda" + 2 * v!"G") / (3 * (3 * v!"lamda" + 4 * v!"G") * (1 + v!"M")),
    set! "U3" := 4 * (v!"lamda" + 2 * v!"G") / (3 * (v!"lamda" + v!"G") * (1 + v!"kapa")),
    set! "C11_1" := -v!"crd" / (2 * v!"G") * (v!"U3" * (2 * v!"lamda" ** 2 + 4 * v!"lamda" * v!"G"
      * c!"np.sin"[v!"theta"] ** 2 + 3 * v!"G" ** 2 * c!"np.sin"[v!"theta"] ** 4) + v!"U1" * v!"G"
      ** 2 * c!"np.sin"[v!"theta"] ** 2 * (4 - 3 * c!"np.sin"[v!"theta"] ** 2)),
    set! "C33_1" := -v!"crd" / v!"G" * (v!"U3" * (v!"lamda" + 2 * v!"G" * c!"np.cos"[v!"theta"] **
      2) ** 2 + v!"U1" * v!"G" ** 2 * 4 * c!"np.cos"[v!"theta"] ** 2 * c!"np.sin"[v!"theta"] ** 2),
    set! "C12_1" := -v!"crd" / (2 * v!"G") * (v!"U3" * (2 * v!"lamda" ** 2 + 4 * v!"lamda" * v!"G"
      * c!"np.sin"[v!"theta"] ** 2 + v!"G" ** 2 * c!"np.sin"[v!"theta"] ** 4) - v!"U1" * v!"G" ** 2
      * c!"np.sin"[v!"theta"] ** 4),
    set! "C13_1" := -v!"crd" / v!"G" * (v!"U3" * (v!"lamda" + v!"G" * c!"np.sin"[v!"theta"] ** 2) *
      (v!"lamda" + 2 * v!"G" * c!"np.cos"[v!"theta"] ** 2) - v!"U1" * v!"G" ** 2 * 2 *
      c!"np.sin"[v!"theta"] ** 2 * c!"np.cos"[v!"theta"] ** 2),
    set! "C44_1" := -v!"crd" / 2 * v!"G" * (v!"U3" * 4 * c!"np.sin"[v!"theta"] ** 2 *
      c!"np.cos"[v!"theta"] ** 2 + v!"U1" * (c!"np.sin"[v!"theta"] ** 2 + 2 * c!"np.cos"[v!"theta"]
      ** 2 - 4 * c!"np.sin"[v!"theta"] ** 2 * c!"np.cos"[v!"theta"] ** 2)),
    set! "C66_1" := -v!"crd" / 2 * v!"G" * (v!"U3" * 4 * c!"np.sin"[v!"theta"] ** 4 + v!"U1" *
      c!"np.sin"[v!"theta"] ** 2 * (2 - c!"np.sin"[v!"theta"] ** 2)),
    set! "C11" := v!"lamda" + 2 * v!"G" + v!"C11_1",
    set! "C12" := v!"lamda" + v!"C12_1",
    set! "C13" := v!"lamda" + v!"C13_1",
    set! "C33" := v!"lamda" + 2 * v!"G" + v!"C33_1",
    set! "C44" := v!"G" + v!"C44_1",
    set! "C66" := v!"G" + v!"C66_1",
    set! "C_eff" := c!"utils.write_matrix"[v!"C11", v!"C11", v!"C33", v!"C12", v!"C13", v!"C13",
      v!"C44", v!"C44", v!"C66"],
    .ret v!"C_eff"])

/-- `EM.Berryman_sc`, EM.py:442-467. -/
def Berryman_sc : Fun where
  params := [⟨n!"K", .none⟩, ⟨n!"G", .none⟩, ⟨n!"X", .none⟩, ⟨n!"Alpha", .none⟩]
  body :=
  (.ofList [
    set! "K" := c!"np.asanyarray"[v!"K"],
    set! "G" := c!"np.asanyarray"[v!"G"],
    set! "X" := c!"np.asanyarray"[v!"X"],
    set! "Alpha" := c!"np.asanyarray"[v!"Alpha"],
    set! "K_sc", "G_sc" := (.call n!"fsolve" (.ofKw [v!"EM.Berryman_func", t![(.meth v!"K" n!"mean"
      (.ofList [])), (.meth v!"G" n!"mean" (.ofList []))]] [(n!"args", t![v!"K", v!"G", v!"X",
      v!"Alpha"])])),
    .ret t![v!"K_sc", v!"G_sc"]])

/-- `EM.PQ_vectorize`, EM.py:469-524. -/
def PQ_vectorize : Fun where
  params := [⟨n!"Km", .none⟩, ⟨n!"Gm", .none⟩, ⟨n!"Ki", .none⟩, ⟨n!"Gi", .none⟩, ⟨n!"alpha", .none⟩]
  body :=
  (.ofList [
    set! "dim" := (.attr v!"Ki" n!"size"),
    set! "P" := c!"np.empty"[v!"dim"],
    set! "Q" := c!"np.empty"[v!"dim"],
    set! "theta" := c!"np.empty"[v!"dim"],
    set! "alpha_" := v!"alpha",
    .assign (.idx n!"alpha_" (.ofList [(.cmp .eq v!"alpha" 1)])) (0.999),
    .assign (.idx n!"theta" (.ofList [(.cmp .lt v!"alpha_" 1)])) ((.idx v!"alpha_" (.ofList [(.cmp
      .lt v!"alpha_" 1)])) / (1.0 - (.idx v!"alpha_" (.ofList [(.cmp .lt v!"alpha_" 1)])) ** 2) **
      (3.0 / 2.0) * (c!"np.arccos"[(.idx v!"alpha_" (.ofList [(.cmp .lt v!"alpha_" 1)]))] - (.idx
      v!"alpha_" (.ofList [(.cmp .lt v!"alpha_" 1)])) * c!"np.sqrt"[1.0 - (.idx v!"alpha_" (.ofList
      [(.cmp .lt v!"alpha_" 1)])) ** 2])),
    .assign (.idx n!"theta" (.ofList [(.cmp .gt v!"alpha_" 1)])) ((.idx v!"alpha_" (.ofList [(.cmp
      .gt v!"alpha_" 1)])) / ((.idx v!"alpha_" (.ofList [(.cmp .gt v!"alpha_" 1)])) ** 2 - 1) **
      (3.0 / 2.0) * ((.idx v!"alpha_" (.ofList [(.cmp .gt v!"alpha_" 1)])) * ((.idx v!"alpha_"
      (.ofList [(.cmp .gt v!"alpha_" 1)])) ** 2 - 1) ** 0.5 - c!"np.cosh"[(.idx v!"alpha_" (.ofList
      [(.cmp .gt v!"alpha_" 1)]))] ** (-1))),
    set! "f" := v!"alpha_" ** 2 * (3.0 * v!"theta" - 2.0) / (1.0 - v!"alpha_" ** 2),
    set! "A" := v!"Gi" / v!"Gm" - 1.0,
    set! "B" := (v!"Ki" / v!"Km" - v!"Gi" / v!"Gm") / 3.0,
    set! "R" := v!"Gm" / (v!"Km" + 4.0 / 3.0 * v!"Gm"),
    set! "F1" := 1.0 + v!"A" * (1.5 * (v!"f" + v!"theta") - v!"R" * (1.5 * v!"f" + 2.5 * v!"theta"
      - 4.0 / 3.0)),
    set! "F2" := 1.0 + v!"A" * (1.0 + 1.5 * (v!"f" + v!"theta") - v!"R" * (1.5 * v!"f" + 2.5 *
      v!"theta")) + v!"B" * (3.0 - 4.0 * v!"R") + v!"A" * (v!"A" + 3.0 * v!"B") * (1.5 - 2.0 *
      v!"R") * (v!"f" + v!"theta" - v!"R" * (v!"f" - v!"theta" + 2.0 * v!"theta" ** 2)),
    set! "F3" := 1.0 + v!"A" * (1.0 - v!"f" - 1.5 * v!"theta" + v!"R" * (v!"f" + v!"theta")),
    set! "F4" := 1.0 + v!"A" / 4.0 * (v!"f" + 3.0 * v!"theta" - v!"R" * (v!"f" - v!"theta")),
    set! "F5" := v!"A" * (-v!"f" + v!"R" * (v!"f" + v!"theta" - 4.0 / 3.0)) + v!"B" * v!"theta" *
      (3.0 - 4.0 * v!"R"),
    set! "F6" := 1.0 + v!"A" * (1.0 + v!"f" - v!"R" * (v!"f" + v!"theta")) + v!"B" * (1.0 -
      v!"theta") * (3.0 - 4.0 * v!"R"),
    set! "F7" := 2.0 + v!"A" / 4.0 * (3.0 * v!"f" + 9.0 * v!"theta" - v!"R" * (3.0 * v!"f" + 5.0 *
      v!"theta")) + v!"B" * v!"theta" * (3.0 - 4.0 * v!"R"),
    set! "F8" := v!"A" * (1.0 - 2.0 * v!"R" + v!"f" / 2.0 * (v!"R" - 1.0) + v!"theta" / 2.0 * (5.0
      * v!"R" - 3.0)) + v!"B" * (1.0 - v!"theta") * (3.0 - 4.0 * v!"R"),
    set! "F9" := v!"A" * ((v!"R" - 1.0) * v!"f" - v!"R" * v!"theta") + v!"B" * v!"theta" * (3.0 -
      4.0 * v!"R"),
    set! "Tiijj" := 3 * v!"F1" / v!"F2",
    set! "Tijij" := v!"Tiijj" / 3 + 2 / v!"F3" + 1 / v!"F4" + (v!"F4" * v!"F5" + v!"F6" * v!"F7" -
      v!"F8" * v!"F9") / (v!"F2" * v!"F4"),
    set! "P" := v!"Tiijj" / 3,
    set! "Q" := (v!"Tijij" - v!"P") / 5,
    .assign (.idx n!"P" (.ofList [(.cmp .eq v!"alpha" 1)])) ((v!"Km" + 4 * v!"Gm" / 3) / ((.idx
      v!"Ki" (.ofList [(.cmp .eq v!"alpha" 1)])) + 4 * v!"Gm" / 3)),
    set! "kesai" := v!"Gm" / 6 * (9 * v!"Km" + 8 * v!"Gm") / (v!"Km" + 2 * v!"Gm"),
    .assign (.idx n!"Q" (.ofList [(.cmp .eq v!"alpha" 1)])) ((v!"Gm" + v!"kesai") / ((.idx v!"Gi"
      (.ofList [(.cmp .eq v!"alpha" 1)])) + v!"kesai")),
    .ret t![v!"P", v!"Q"]])

/-- `EM.Berryman_func`, EM.py:526-553. -/
def Berryman_func : Fun where
  params := [⟨n!"params", .none⟩, ⟨n!"K", .none⟩, ⟨n!"G", .none⟩, ⟨n!"X", .none⟩, ⟨n!"Alpha",
    .none⟩]
  body :=
  (.ofList [
    set! "K_sc", "G_sc" := v!"params",
    set! "P", "Q" := c!"EM.PQ_vectorize"[v!"K_sc", v!"G_sc", v!"K", v!"G", v!"Alpha"],
    set! "eq1" := c!"np.sum"[v!"X" * (v!"K" - v!"K_sc") * v!"P"],
    set! "eq2" := c!"np.sum"[v!"X" * (v!"G" - v!"G_sc") * v!"Q"],
    .ret l![v!"eq1", v!"eq2"]])

/-- `EM.Swiss_cheese`, EM.py:556-579. -/
def Swiss_cheese : Fun where
  params := [⟨n!"Ks", .none⟩, ⟨n!"Gs", .none⟩, ⟨n!"phi", .none⟩]
  body :=
  (.ofList [
    .ite c!"isinstance"[v!"Ks", v!"np.ndarray"]
      (.ofList [
        set! "Ks" := (.idx v!"Ks" (.ofList [(.slice .none .none), v!"np.newaxis"])),
        set! "Gs" := (.idx v!"Gs" (.ofList [(.slice .none .none), v!"np.newaxis"]))])
      .nil,
    set! "Kdry" := (1 / v!"Ks" * (1 + (1 + 3 * v!"Ks" / (4 * v!"Gs")) * v!"phi")) ** (-1),
    set! "Gdry" := (1 / v!"Gs" * (1 + (15 * v!"Ks" + 20 * v!"Gs") * v!"phi" / (9 * v!"Ks" + 8 *
      v!"Gs"))) ** (-1),
    .ret t![v!"Kdry", v!"Gdry"]])

/-- `EM.SC`, EM.py:581-606. -/
def SC : Fun where
  params := [⟨n!"phi", .none⟩, ⟨n!"Ks", .none⟩, ⟨n!"Gs", .none⟩, ⟨n!"iter_n", .none⟩]
  body :=
  (.ofList [
    set! "K_eff" := v!"Ks",
    set! "G_eff" := v!"Gs",
    .each (.var n!"i") c!"range"[v!"iter_n"]
      (.ofList [
        set! "K_eff" := (1 / v!"Ks" + (1 / v!"K_eff" + 3 / (4 * v!"G_eff")) * v!"phi") ** (-1),
        set! "G_eff" := (1 / v!"Gs" + (15 * v!"K_eff" + 20 * v!"G_eff") / (9 * v!"K_eff" + 8 *
          v!"G_eff") * v!"phi" / v!"G_eff") ** (-1)]),
    .ret t![v!"K_eff", v!"G_eff"]])

/-- `EM.Dilute_crack`, EM.py:608-631. -/
def Dilute_crack : Fun where
  params := [⟨n!"Ks", .none⟩, ⟨n!"Gs", .none⟩, ⟨n!"cd", .none⟩]
  body :=
  (.ofList [
    set! "nu" := (3 * v!"Ks" - 2 * v!"Gs") / (2 * (3 * v!"Ks" + v!"Gs")),
    set! "K_eff" := (1 / v!"Ks" * (1 + 16 / 9 * (1 - v!"nu" ** 2) / (1 - 2 * v!"nu") * v!"cd")) **
      (-1),
    set! "G_eff" := (1 / v!"Gs" * (1 + 32 * (1 - v!"nu") * (5 - v!"nu") / (45 * (2 - v!"nu")) *
      v!"cd")) ** (-1),
    .ret t![v!"K_eff", v!"G_eff"]])

/-- `EM.OConnell_Budiansky`, EM.py:633-657. -/
def OConnell_Budiansky : Fun where
  params := [⟨n!"K0", .none⟩, ⟨n!"G0", .none⟩, ⟨n!"crd", .none⟩]
  body :=
  (.ofList [
    set! "nu0" := (3 * v!"K0" - 2 * v!"G0") / (6 * v!"K0" + 2 * v!"G0"),
    set! "nu_eff" := v!"nu0" * (1 - 16 * v!"crd" / 9),
    set! "K_dry" := v!"K0" * (1 - 16 * (1 - v!"nu_eff" ** 2) * v!"crd" / (9 * (1 - 2 *
      v!"nu_eff"))),
    set! "G_dry" := v!"G0" * (1 - 32 * (1 - v!"nu_eff") * (5 - v!"nu_eff") * v!"crd" / (45 * (2 -
      v!"nu_eff"))),
    .ret t![v!"K_dry", v!"G_dry"]])

/-- `EM.OConnell_Budiansky_fl`, EM.py:660-694. -/
def OConnell_Budiansky_fl : Fun where
  params := [⟨n!"K0", .none⟩, ⟨n!"G0", .none⟩, ⟨n!"Kfl", .none⟩, ⟨n!"crd", .none⟩, ⟨n!"alpha",
    .none⟩]
  body :=
  (.ofList [
    set! "nu0" := (3 * v!"K0" - 2 * v!"G0") / (6 * v!"K0" + 2 * v!"G0"),
    set! "w" := v!"Kfl" / v!"alpha" / v!"K0",
    set! "nu_eff", "D" := (.call n!"fsolve" (.ofKw [v!"EM.OC_R_funcs", t![0.2, 0.9]] [(n!"args",
      t![v!"crd", v!"nu0", v!"w"])])),
    set! "K_sat" := v!"K0" * (1 - 16 * (1 - v!"nu_eff" ** 2) * v!"crd" * v!"D" / (9 * (1 - 2 *
      v!"nu_eff"))),
    set! "G_sat" := v!"G0" * (1 - 32 / 45 * (1 - v!"nu_eff") * (v!"D" + 3 / (2 - v!"nu_eff")) *
      v!"crd"),
    .ret t![v!"K_sat", v!"G_sat"]])

/-- `EM.OC_R_funcs`, EM.py:696-721. -/
def OC_R_funcs : Fun where
  params := [⟨n!"params", .none⟩, ⟨n!"crd", .none⟩, ⟨n!"nu_0", .none⟩, ⟨n!"w", .none⟩]
  body :=
  (.ofList [
    set! "nu_eff", "D" := v!"params",
    set! "eq1" := 45 / 16 * (v!"nu_0" - v!"nu_eff") / (1 - v!"nu_eff" ** 2) * (2 - v!"nu_eff") /
      (v!"D" * (1 + 3 * v!"nu_0") * (2 - v!"nu_eff") - 2 * (1 - 2 * v!"nu_0")) - v!"crd",
    set! "eq2" := v!"crd" * v!"D" ** 2 - (v!"crd" + 9 / 16 * (1 - 2 * v!"nu_eff") / (1 - v!"nu_0"
      ** 2) + 3 * v!"w" / (4 * v!"np.pi")) * v!"D" + 9 / 16 * (1 - 2 * v!"nu_eff") / (1 - v!"nu_0"
      ** 2),
    .ret l![v!"eq1", v!"eq2"]])

/-- `EM.PQ`, EM.py:723-776. -/
def PQ : Fun where
  params := [⟨n!"Km", .none⟩, ⟨n!"Gm", .none⟩, ⟨n!"Ki", .none⟩, ⟨n!"Gi", .none⟩, ⟨n!"alpha", .none⟩]
  body :=
  (.ofList [
    .ite (.cmp .eq v!"alpha" 1)
      (.ofList [
        set! "P" := (v!"Km" + 4 * v!"Gm" / 3) / (v!"Ki" + 4 * v!"Gm" / 3),
        set! "kesai" := v!"Gm" / 6 * (9 * v!"Km" + 8 * v!"Gm") / (v!"Km" + 2 * v!"Gm"),
        set! "Q" := (v!"Gm" + v!"kesai") / (v!"Gi" + v!"kesai")])
      (.ofList [
        .ite (.cmp .lt v!"alpha" 1)
          (.ofList [
            set! "theta" := v!"alpha" / (1.0 - v!"alpha" ** 2) ** (3.0 / 2.0) *
              (c!"np.arccos"[v!"alpha"] - v!"alpha" * c!"np.sqrt"[1.0 - v!"alpha" ** 2])])
          (.ofList [
            set! "theta" := v!"alpha" / (v!"alpha" ** 2 - 1) ** (3.0 / 2.0) * (v!"alpha" *
              (v!"alpha" ** 2 - 1) ** 0.5 - c!"np.cosh"[v!"alpha"] ** (-1))]),
        set! "f" := v!"alpha" ** 2 * (3.0 * v!"theta" - 2.0) / (1.0 - v!"alpha" ** 2),
        set! "A" := v!"Gi" / v!"Gm" - 1.0,
        set! "B" := (v!"Ki" / v!"Km" - v!"Gi" / v!"Gm") / 3.0,
        set! "R" := v!"Gm" / (v!"Km" + 4.0 / 3.0 * v!"Gm"),
        set! "F1" := 1.0 + v!"A" * (1.5 * (v!"f" + v!"theta") - v!"R" * (1.5 * v!"f" + 2.5 *
          v!"theta" - 4.0 / 3.0)),
        set! "F2" := 1.0 + v!"A" * (1.0 + 1.5 * (v!"f" + v!"theta") - v!"R" * (1.5 * v!"f" + 2.5 *
          v!"theta")) + v!"B" * (3.0 - 4.0 * v!"R") + v!"A" * (v!"A" + 3.0 * v!"B") * (1.5 - 2.0 *
          v!"R") * (v!"f" + v!"theta" - v!"R" * (v!"f" - v!"theta" + 2.0 * v!"theta" ** 2)),
        set! "F3" := 1.0 + v!"A" * (1.0 - v!"f" - 1.5 * v!"theta" + v!"R" * (v!"f" + v!"theta")),
        set! "F4" := 1.0 + v!"A" / 4.0 * (v!"f" + 3.0 * v!"theta" - v!"R" * (v!"f" - v!"theta")),
        set! "F5" := v!"A" * (-v!"f" + v!"R" * (v!"f" + v!"theta" - 4.0 / 3.0)) + v!"B" * v!"theta"
          * (3.0 - 4.0 * v!"R"),
        set! "F6" := 1.0 + v!"A" * (1.0 + v!"f" - v!"R" * (v!"f" + v!"theta")) + v!"B" * (1.0 -
          v!"theta") * (3.0 - 4.0 * v!"R"),
        set! "F7" := 2.0 + v!"A" / 4.0 * (3.0 * v!"f" + 9.0 * v!"theta" - v!"R" * (3.0 * v!"f" +
          5.0 * v!"theta")) + v!"B" * v!"theta" * (3.0 - 4.0 * v!"R"),
        set! "F8" := v!"A" * (1.0 - 2.0 * v!"R" + v!"f" / 2.0 * (v!"R" - 1.0) + v!"theta" / 2.0 *
          (5.0 * v!"R" - 3.0)) + v!"B" * (1.0 - v!"theta") * (3.0 - 4.0 * v!"R"),
        set! "F9" := v!"A" * ((v!"R" - 1.0) * v!"f" - v!"R" * v!"theta") + v!"B" * v!"theta" * (3.0
          - 4.0 * v!"R"),
        set! "Tiijj" := 3 * v!"F1" / v!"F2",
        set! "Tijij" := v!"Tiijj" / 3 + 2 / v!"F3" + 1 / v!"F4" + (v!"F4" * v!"F5" + v!"F6" *
          v!"F7" - v!"F8" * v!"F9") / (v!"F2" * v!"F4"),
        set! "P" := v!"Tiijj" / 3,
        set! "Q" := (v!"Tijij" - v!"P") / 5]),
    .ret t![v!"P", v!"Q"]])

/-- `EM.DEM`, EM.py:778-787. -/
def DEM : Fun where
  params := [⟨n!"y", .none⟩, ⟨n!"t", .none⟩, ⟨n!"params", .none⟩]
  body :=
  (.ofList [
    set! "K_eff", "G_eff" := v!"y",
    set! "Gi", "Ki", "alpha" := v!"params",
    set! "P", "Q" := c!"EM.PQ"[v!"K_eff", v!"G_eff", v!"Ki", v!"Gi", v!"alpha"],
    set! "derivs" := l![1 / (1 - v!"t") * (v!"Ki" - v!"K_eff") * v!"P", 1 / (1 - v!"t") * (v!"Gi" -
      v!"G_eff") * v!"Q"],
    .ret v!"derivs"])

/-- `EM.Berryman_DEM`, EM.py:789-819. -/
def Berryman_DEM : Fun where
  params := [⟨n!"Km", .none⟩, ⟨n!"Gm", .none⟩, ⟨n!"Ki", .none⟩, ⟨n!"Gi", .none⟩, ⟨n!"alpha",
    .none⟩, ⟨n!"phi", .none⟩]
  body :=
  (.ofList [
    set! "params" := l![v!"Gi", v!"Ki", v!"alpha"],
    set! "y0" := l![v!"Km", v!"Gm"],
    set! "tStop" := v!"phi",
    set! "tInc" := 0.01,
    set! "t" := c!"np.arange"[0, v!"tStop" + v!"tInc", v!"tInc"],
    set! "psoln" := (.call n!"odeint" (.ofKw [v!"EM.DEM", v!"y0", v!"t"] [(n!"args",
      t![v!"params"])])),
    set! "K_dry_dem" := (.idx v!"psoln" (.ofList [(.slice .none .none), 0])),
    set! "G_dry_dem" := (.idx v!"psoln" (.ofList [(.slice .none .none), 1])),
    .ret t![v!"K_dry_dem", v!"G_dry_dem", v!"t"]])

/-- `EM.SC_dilute`, EM.py:821-859. -/
def SC_dilute : Fun where
  params := [⟨n!"Km", .none⟩, ⟨n!"Gm", .none⟩, ⟨n!"Ki", .none⟩, ⟨n!"Gi", .none⟩, ⟨n!"f", .none⟩,
    ⟨n!"mode", .none⟩]
  body :=
  (.ofList [
    set! "nu" := 0.5 * (3 * v!"Km" - 2 * v!"Gm") / (3 * v!"Km" + v!"Gm"),
    set! "S1" := 1 / 3 * (1 + v!"nu") / (1 - v!"nu"),
    set! "S2" := 2 / 15 * (4 - 5 * v!"nu") / (1 - v!"nu"),
    .ite (.cmp .eq v!"mode" (.str "stress"))
      (.ofList [
        set! "K" := (1 + v!"f" * (v!"Km" / (v!"Km" - v!"Ki") - v!"S1") ** (-1)) ** (-1),
        set! "G" := (1 + v!"f" * (v!"Gm" / (v!"Gm" - v!"Gi") - v!"S2") ** (-1)) ** (-1)])
      (.ofList [
        .ite (.cmp .eq v!"mode" (.str "strain"))
          (.ofList [
            set! "K" := 1 - v!"f" * (v!"Km" / (v!"Km" - v!"Ki") - v!"S1") ** (-1),
            set! "G" := 1 - v!"f" * (v!"Gm" / (v!"Gm" - v!"Gi") - v!"S2") ** (-1)])
          .nil]),
    .ret t![v!"K", v!"G"]])

/-- `EM.SC_flex`, EM.py:861-899. -/
def SC_flex : Fun where
  params := [⟨n!"f", .none⟩, ⟨n!"iter_n", .none⟩, ⟨n!"Km", .none⟩, ⟨n!"Ki", .none⟩, ⟨n!"Gm",
    .none⟩, ⟨n!"Gi", .none⟩]
  body :=
  (.ofList [
    set! "K_eff" := v!"Km",
    set! "G_eff" := v!"Km",
    .each (.var n!"i") c!"range"[v!"iter_n"]
      (.ofList [
        set! "nu" := 0.5 * (3 * v!"K_eff" - 2 * v!"G_eff") / (3 * v!"K_eff" + v!"G_eff"),
        set! "S1" := 1 / 3 * (1 + v!"nu") / (1 - v!"nu"),
        set! "S2" := 2 / 15 * (4 - 5 * v!"nu") / (1 - v!"nu"),
        set! "K_eff" := (1 - v!"f" * v!"K_eff" * (v!"Km" - v!"Ki") / (v!"Km" * (v!"K_eff" -
          v!"Ki")) * (v!"K_eff" / (v!"K_eff" - v!"Ki") - v!"S1") ** (-1)) * v!"Km",
        set! "G_eff" := (1 - v!"f" * v!"G_eff" * (v!"Gm" - v!"Gi") / (v!"Gm" * (v!"G_eff" -
          v!"Gi")) * (v!"G_eff" / (v!"G_eff" - v!"Gi") - v!"S2") ** (-1)) * v!"Gm"]),
    .ret t![v!"K_eff", v!"G_eff"]])

/-- `EM.MT_average`, EM.py:901-935. -/
def MT_average : Fun where
  params := [⟨n!"f", .none⟩, ⟨n!"Kmat", .none⟩, ⟨n!"Gmat", .none⟩, ⟨n!"K1", .none⟩, ⟨n!"G1",
    .none⟩, ⟨n!"K2", .none⟩, ⟨n!"G2", .none⟩]
  body :=
  (.ofList [
    set! "possion" := (3 * v!"Kmat" - 2 * v!"Gmat") / (2 * (3 * v!"Kmat" + v!"Gmat")),
    set! "alpha" := (1 + v!"possion") / (3 * (1 - v!"possion")),
    set! "beta" := 2 * (4 - 5 * v!"possion") / (15 * (1 - v!"possion")),
    set! "K_ave" := (v!"f" * v!"Kmat" * v!"K1" / (v!"Kmat" - (v!"Kmat" - v!"K1") * v!"alpha") + (1
      - v!"f") * v!"Kmat" * v!"K2" / (v!"Kmat" - (v!"Kmat" - v!"K2") * v!"alpha")) / (v!"f" *
      v!"Kmat" / (v!"Kmat" - (v!"Kmat" - v!"K1") * v!"alpha") + (1 - v!"f") * v!"Kmat" / (v!"Kmat"
      - (v!"Kmat" - v!"K2") * v!"alpha")),
    set! "G_ave" := (v!"f" * v!"Gmat" * v!"G1" / (v!"Gmat" - (v!"Gmat" - v!"G1") * v!"beta") + (1 -
      v!"f") * v!"Gmat" * v!"G2" / (v!"Gmat" - (v!"Gmat" - v!"G2") * v!"beta")) / (v!"f" * v!"Gmat"
      / (v!"Gmat" - (v!"Gmat" - v!"G1") * v!"beta") + (1 - v!"f") * v!"Gmat" / (v!"Gmat" -
      (v!"Gmat" - v!"G2") * v!"beta")),
    .ret t![v!"K_ave", v!"G_ave"]])

end RockPhy.Source.EM
