import Verif.Py.Syntax

/-! # The text of `rockphypy/Anisotropy.py`

Written by `tools/source.py`; do not edit. -/

namespace RockPhy.Source.Anisotropy

open RockPhy.Py

/-- `Anisotropy.Thomsen`, Anisotropy.py:11-39. -/
def Thomsen : Fun where
  params := [⟨n!"C11", .none⟩, ⟨n!"C33", .none⟩, ⟨n!"C13", .none⟩, ⟨n!"C44", .none⟩, ⟨n!"C66",
    .none⟩, ⟨n!"den", .none⟩, ⟨n!"theta", .none⟩]
  body :=
  (.ofList [
    set! "alpha" := c!"np.sqrt"[v!"C33" / v!"den"] * 1e3,
    set! "beta" := c!"np.sqrt"[v!"C44" / v!"den"] * 1e3,
    set! "epsilon" := 0.5 * (v!"C11" - v!"C33") / v!"C33",
    set! "gamma" := 0.5 * (v!"C66" - v!"C44") / v!"C44",
    set! "theta" := c!"np.deg2rad"[v!"theta"],
    set! "delta" := ((v!"C13" + v!"C44") ** 2 - (v!"C33" - v!"C44") ** 2) / (2 * v!"C33" * (v!"C33"
      - v!"C44")),
    set! "VP" := v!"alpha" * (1 + v!"delta" * c!"np.sin"[v!"theta"] ** 2 * c!"np.cos"[v!"theta"] **
      2 + v!"epsilon" * c!"np.sin"[v!"theta"] ** 4),
    set! "VSV" := v!"beta" * (1 + v!"alpha" ** 2 / v!"beta" ** 2 * (v!"epsilon" - v!"delta") *
      c!"np.sin"[v!"theta"] ** 2 * c!"np.cos"[v!"theta"] ** 2),
    set! "VSH" := v!"beta" * (1 + v!"gamma" * c!"np.sin"[v!"theta"] ** 2),
    .ret t![v!"VP", v!"VSV", v!"VSH", v!"epsilon", v!"gamma", v!"delta"]])

/-- `Anisotropy.Thomsen_Tsvankin`, Anisotropy.py:41-71. -/
def Thomsen_Tsvankin : Fun where
  params := [⟨n!"C11", .none⟩, ⟨n!"C22", .none⟩, ⟨n!"C33", .none⟩, ⟨n!"C12", .none⟩, ⟨n!"C13",
    .none⟩, ⟨n!"C23", .none⟩, ⟨n!"C44", .none⟩, ⟨n!"C55", .none⟩, ⟨n!"C66", .none⟩]
  body :=
  (.ofList [
    set! "epsilon_1" := (v!"C22" - v!"C33") / (2 * v!"C33"),
    set! "delta_1" := ((v!"C23" + v!"C44") ** 2 - (v!"C33" - v!"C44") ** 2) / (2 * v!"C33" *
      (v!"C33" - v!"C44")),
    set! "gamma_1" := (v!"C66" - v!"C55") / 2 / v!"C55",
    set! "epsilon_2" := (v!"C11" - v!"C33") / (2 * v!"C33"),
    set! "delta_2" := ((v!"C13" + v!"C55") ** 2 - (v!"C33" - v!"C55") ** 2) / (2 * v!"C33" *
      (v!"C33" - v!"C55")),
    set! "gamma_2" := (v!"C66" - v!"C44") / 2 / v!"C44",
    set! "delta_3" := ((v!"C12" + v!"C66") ** 2 - (v!"C11" - v!"C66") ** 2) / 2 / v!"C11" /
      (v!"C11" - v!"C66"),
    .ret t![v!"epsilon_1", v!"delta_1", v!"gamma_1", v!"epsilon_2", v!"delta_2", v!"gamma_2",
      v!"delta_3"]])

/-- `Anisotropy.Backus`, Anisotropy.py:73-109. -/
def Backus : Fun where
  params := [⟨n!"V", .none⟩, ⟨n!"lamda", .none⟩, ⟨n!"G", .none⟩]
  body :=
  (.ofList [
    set! "V" := c!"np.asanyarray"[v!"V"],
    set! "V" := v!"V" / c!"np.sum"[v!"V"],
    set! "lamda" := c!"np.asanyarray"[v!"lamda"],
    set! "G" := c!"np.asanyarray"[v!"G"],
    set! "C33" := c!"np.dot"[v!"V", 1 / (v!"lamda" + 2 * v!"G")] ** (-1),
    set! "C44" := c!"np.dot"[v!"V", 1 / v!"G"] ** (-1),
    set! "C66" := c!"np.dot"[v!"V", v!"G"],
    set! "C13" := c!"np.dot"[v!"V", 1 / (v!"lamda" + 2 * v!"G")] ** (-1) * c!"np.dot"[v!"V",
      v!"lamda" / (v!"lamda" + 2 * v!"G")],
    set! "C11" := c!"np.dot"[v!"V", 4 * v!"G" * (v!"lamda" + v!"G") / (v!"lamda" + 2 * v!"G")] +
      c!"np.dot"[v!"V", 1 / (v!"lamda" + 2 * v!"G")] ** (-1) * c!"np.dot"[v!"V", v!"lamda" /
      (v!"lamda" + 2 * v!"G")] ** 2,
    .ret t![v!"C11", v!"C33", v!"C13", v!"C44", v!"C66"]])

/-- `Anisotropy.Backus_log`, Anisotropy.py:111-145. -/
def Backus_log : Fun where
  params := [⟨n!"Vp", .none⟩, ⟨n!"Vs", .none⟩, ⟨n!"Den", .none⟩, ⟨n!"Depth", .none⟩]
  body :=
  (.ofList [
    set! "Vp", "Vs", "Den", "Depth" := t![c!"np.asanyarray"[v!"Vp"], c!"np.asanyarray"[v!"Vs"],
      c!"np.asanyarray"[v!"Den"], c!"np.asanyarray"[v!"Depth"]],
    set! "G" := v!"Den" * v!"Vs" ** 2,
    set! "lamda" := v!"Den" * v!"Vp" ** 2 - 2 * v!"G",
    set! "thickness" := c!"np.diff"[v!"Depth"],
    set! "V" := v!"thickness" / (.meth v!"thickness" n!"sum" (.ofList [])),
    set! "C11", "C33", "C13", "C44", "C66" := c!"Anisotropy.Backus"[v!"V", v!"lamda", v!"G"],
    set! "den" := c!"np.dot"[v!"V", v!"Den"],
    .ret t![v!"C11", v!"C33", v!"C13", v!"C44", v!"C66", v!"den"]])

/-- `Anisotropy.vel_azi_HTI`, Anisotropy.py:147-179. -/
def vel_azi_HTI : Fun where
  params := [⟨n!"C", .none⟩, ⟨n!"Den", .none⟩, ⟨n!"azimuth", .none⟩]
  body :=
  (.ofList [
    set! "azimuth" := c!"np.radians"[v!"azimuth"],
    set! "C11" := (.idx v!"C" (.ofList [0, 0])),
    set! "C12" := (.idx v!"C" (.ofList [0, 1])),
    set! "C33" := (.idx v!"C" (.ofList [2, 2])),
    set! "C44" := (.idx v!"C" (.ofList [3, 3])),
    set! "C55" := (.idx v!"C" (.ofList [4, 4])),
    set! "R" := c!"np.sqrt"[((v!"C33" - v!"C55") * c!"np.sin"[v!"azimuth"] ** 2 - (v!"C11" -
      v!"C55") * c!"np.cos"[v!"azimuth"] ** 2) ** 2 + 4 * (v!"C12" + v!"C55") ** 2 *
      c!"np.sin"[v!"azimuth"] ** 2 * c!"np.cos"[v!"azimuth"] ** 2],
    set! "Vp" := 0.5 / v!"Den" * ((v!"C33" + v!"C55") * c!"np.sin"[v!"azimuth"] ** 2 + (v!"C11" +
      v!"C55") * c!"np.cos"[v!"azimuth"] ** 2 + v!"R"),
    set! "Vsh" := 0.5 / v!"Den" * ((v!"C33" + v!"C55") * c!"np.sin"[v!"azimuth"] ** 2 + (v!"C11" +
      v!"C55") * c!"np.cos"[v!"azimuth"] ** 2 - v!"R"),
    set! "Vsv" := 1 / v!"Den" * (v!"C55" + (v!"C44" - v!"C55") * c!"np.sin"[v!"azimuth"] ** 2),
    set! "VP" := c!"np.sqrt"[v!"Vp"],
    set! "VSH" := c!"np.sqrt"[v!"Vsh"],
    set! "VSV" := c!"np.sqrt"[v!"Vsv"],
    .ret t![v!"VP", v!"VSH", v!"VSV"]])

/-- `Anisotropy.vel_azi_VTI`, Anisotropy.py:181-215. -/
def vel_azi_VTI : Fun where
  params := [⟨n!"C", .none⟩, ⟨n!"Den", .none⟩, ⟨n!"azimuth", .none⟩]
  body :=
  (.ofList [
    set! "azimuth" := c!"np.radians"[v!"azimuth"],
    set! "C11" := (.idx v!"C" (.ofList [0, 0])),
    set! "C13" := (.idx v!"C" (.ofList [0, 2])),
    set! "C33" := (.idx v!"C" (.ofList [2, 2])),
    set! "C44" := (.idx v!"C" (.ofList [3, 3])),
    set! "C66" := (.idx v!"C" (.ofList [5, 5])),
    set! "R" := c!"np.sqrt"[((v!"C11" - v!"C44") * c!"np.sin"[v!"azimuth"] ** 2 - (v!"C33" -
      v!"C44") * c!"np.cos"[v!"azimuth"] ** 2) ** 2 + (v!"C13" + v!"C44") ** 2 * c!"np.sin"[2 *
      v!"azimuth"] ** 2],
    set! "Vp" := 0.5 / v!"Den" * (v!"C11" * c!"np.sin"[v!"azimuth"] ** 2 + v!"C33" *
      c!"np.cos"[v!"azimuth"] ** 2 + v!"C44" + v!"R"),
    set! "Vsv" := 0.5 / v!"Den" * (v!"C11" * c!"np.sin"[v!"azimuth"] ** 2 + v!"C33" *
      c!"np.cos"[v!"azimuth"] ** 2 + v!"C44" - v!"R"),
    set! "Vsh" := 1 / v!"Den" * (v!"C66" * c!"np.sin"[v!"azimuth"] ** 2 + v!"C44" *
      c!"np.cos"[v!"azimuth"] ** 2),
    set! "VP" := c!"np.sqrt"[v!"Vp"],
    set! "VSH" := c!"np.sqrt"[v!"Vsh"],
    set! "VSV" := c!"np.sqrt"[v!"Vsv"],
    .ret t![v!"VP", v!"VSH", v!"VSV"]])

/-- `Anisotropy.Bond_trans`, Anisotropy.py:217-282. -/
def Bond_trans : Fun where
  params := [⟨n!"C", .none⟩, ⟨n!"theta", .none⟩, ⟨n!"axis", some 3⟩]
  body :=
  (.ofList [
    set! "theta" := c!"np.deg2rad"[v!"theta"],
    .ite (.cmp .eq v!"axis" 3)
      (.ofList [
        set! "b11" := c!"np.cos"[v!"theta"],
        set! "b22" := c!"np.cos"[v!"theta"],
        set! "b33" := 1,
        set! "b21" := c!"np.cos"[v!"theta" + v!"np.pi" / 2],
        set! "b12" := c!"np.cos"[v!"np.pi" / 2 - v!"theta"],
        set! "b13" := 0,
        set! "b31" := 0,
        set! "b23" := 0,
        set! "b32" := 0])
      (.ofList [
        .ite (.cmp .eq v!"axis" 1)
          (.ofList [
            set! "b11" := 1,
            set! "b22" := c!"np.cos"[v!"theta"],
            set! "b33" := c!"np.cos"[v!"theta"],
            set! "b21" := 0,
            set! "b12" := 0,
            set! "b13" := 0,
            set! "b31" := 0,
            set! "b23" := c!"np.cos"[v!"theta" + v!"np.pi" / 2],
            set! "b32" := c!"np.cos"[v!"np.pi" / 2 - v!"theta"]])
          .nil]),
    set! "M1" := (.meth c!"np.array"[l![v!"b11" ** 2, v!"b12" ** 2, v!"b13" ** 2, v!"b21" ** 2,
      v!"b22" ** 2, v!"b23" ** 2, v!"b31" ** 2, v!"b32" ** 2, v!"b33" ** 2]] n!"reshape" (.ofList
      [t![3, 3]])),
    set! "M2" := (.meth c!"np.array"[l![v!"b12" * v!"b13", v!"b13" * v!"b11", v!"b11" * v!"b12",
      v!"b22" * v!"b23", v!"b23" * v!"b21", v!"b21" * v!"b22", v!"b32" * v!"b33", v!"b33" *
      v!"b31", v!"b31" * v!"b32"]] n!"reshape" (.ofList [t![3, 3]])),
    set! "M3" := (.meth c!"np.array"[l![v!"b21" * v!"b31", v!"b22" * v!"b32", v!"b23" * v!"b33",
      v!"b31" * v!"b11", v!"b32" * v!"b12", v!"b33" * v!"b13", v!"b11" * v!"b21", v!"b12" *
      v!"b22", v!"b13" * v!"b23"]] n!"reshape" (.ofList [t![3, 3]])),
    set! "M4" := (.meth c!"np.array"[l![v!"b22" * v!"b33" + v!"b23" * v!"b32", v!"b21" * v!"b33" +
      v!"b23" * v!"b31", v!"b22" * v!"b31" + v!"b21" * v!"b32", v!"b12" * v!"b33" + v!"b13" *
      v!"b32", v!"b11" * v!"b33" + v!"b13" * v!"b31", v!"b11" * v!"b32" + v!"b12" * v!"b31",
      v!"b22" * v!"b13" + v!"b12" * v!"b23", v!"b11" * v!"b23" + v!"b13" * v!"b21", v!"b22" *
      v!"b11" + v!"b12" * v!"b21"]] n!"reshape" (.ofList [t![3, 3]])),
    set! "M" := c!"np.block"[l![l![v!"M1", v!"M2"], l![v!"M3", v!"M4"]]],
    set! "C_trans" := v!"M" @@ v!"C" @@ (.attr v!"M" n!"T"),
    .ret v!"C_trans"])

end RockPhy.Source.Anisotropy
