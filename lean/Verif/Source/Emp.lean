import Verif.Py.Syntax

/-! # The text of `rockphypy/Emp.py`

Written by `tools/source.py`; do not edit. -/

namespace RockPhy.Source.Empirical

open RockPhy.Py

/-- `Empirical.krief`, Emp.py:11-34. -/
def krief : Fun where
  params := [⟨n!"phi", .none⟩, ⟨n!"Kg", .none⟩, ⟨n!"Gg", .none⟩]
  body :=
  (.ofList [
    set! "a0" := 1 - (1 - v!"phi") ** (3 / (1 - v!"phi")),
    set! "G" := (1 - v!"a0") * v!"Gg",
    set! "K" := (1 - v!"a0") * v!"Kg",
    set! "lamda" := v!"K" - 2 * v!"G" / 3,
    .ret t![v!"lamda", v!"G", v!"K"]])

/-- `Empirical.esti_VS`, Emp.py:36-64. -/
def esti_VS : Fun where
  params := [⟨n!"Vp", .none⟩, ⟨n!"vsh", .none⟩]
  body :=
  (.ofList [
    set! "Vs_sand" := 0.80416 * v!"Vp" / 1000 - 0.85588,
    set! "Vs_shale" := 0.76969 * v!"Vp" / 1000 - 0.86735,
    set! "Vs_arith" := (1 - v!"vsh") * v!"Vs_sand" + v!"vsh" * v!"Vs_shale",
    set! "Vs_harm" := ((1 - v!"vsh") / v!"Vs_sand" + v!"vsh" / v!"Vs_shale") ** (-1),
    set! "Vs" := 0.5 * (v!"Vs_arith" + v!"Vs_harm"),
    .ret (v!"Vs" * 1000)])

/-- `Empirical.han`, Emp.py:66-84. -/
def han : Fun where
  params := [⟨n!"phi", .none⟩, ⟨n!"C", .none⟩]
  body :=
  (.ofList [
    set! "vp" := 5.59 - 6.93 * v!"phi" - 2.81 * v!"C",
    set! "vs" := 3.52 - 4.91 * v!"phi" - 1.89 * v!"C",
    .ret t![v!"vp" * 1000, v!"vs" * 1000]])

/-- `Empirical.ehrenberg`, Emp.py:86-107. -/
def ehrenberg : Fun where
  params := [⟨n!"Z", .none⟩]
  body :=
  (.ofList [
    set! "Z" := v!"Z" / 1000,
    set! "phi" := -0.092200747 * v!"Z" + 0.4802422,
    .ret v!"phi"])

/-- `Empirical.yu_segment_trend`, Emp.py:109-127. -/
def yu_segment_trend : Fun where
  params := [⟨n!"Z", .none⟩]
  body :=
  (.ofList [
    set! "V1" := 1707.998 + 0.66 * (.idx v!"Z" (.ofList [(.cmp .le v!"Z" 2630)])),
    set! "V2" := 1200.84 + 0.853 * (.idx v!"Z" (.ofList [(.cmp .gt v!"Z" 2630)])),
    set! "V" := c!"np.hstack"[t![v!"V1", v!"V2"]],
    .ret v!"V"])

/-- `Empirical.ramm_porosity`, Emp.py:129-150. -/
def ramm_porosity : Fun where
  params := [⟨n!"Z", .none⟩, ⟨n!"HB", some (.bool true)⟩]
  body :=
  (.ofList [
    .ite (.cmp .eq v!"HB" (.bool true))
      (.ofList [
        set! "phi" := 46.4 - 0.0085 * v!"Z"])
      (.ofList [
        set! "phi" := 42.7 - 0.0069 * v!"Z"]),
    .ret (v!"phi" / 100)])

/-- `Empirical.ramm_porosity_segment`, Emp.py:152-169. -/
def ramm_porosity_segment : Fun where
  params := [⟨n!"Z", .none⟩]
  body :=
  (.ofList [
    set! "phi1" := 45 * c!"np.exp"[-0.00025 * v!"Z"],
    set! "phi2" := 25 - 0.013 * (v!"Z" - 2500),
    .assign (.idx n!"phi1" (.ofList [(.cmp .gt v!"phi1" v!"phi2")])) ((.idx v!"phi2" (.ofList
      [(.cmp .lt v!"phi2" v!"phi1")]))),
    .ret v!"phi1"])

/-- `Empirical.empirical_StPeter`, Emp.py:171-196. -/
def empirical_StPeter : Fun where
  params := [⟨n!"Pe", .none⟩, ⟨n!"sample", some 1⟩]
  body :=
  (.ofList [
    .ite (.cmp .eq v!"sample" 1)
      (.ofList [
        set! "Vp" := 4.21 + 0.187 * v!"Pe" - 0.746 * c!"np.exp"[-24 * v!"Pe"],
        set! "Vs" := 2.58 + 0.160 * v!"Pe" - 0.781 * c!"np.exp"[-20 * v!"Pe"]])
      (.ofList [
        .ite (.cmp .eq v!"sample" 2)
          (.ofList [
            set! "Vp" := 4.55 + 0.298 * v!"Pe" - 0.8 * c!"np.exp"[-19 * v!"Pe"],
            set! "Vs" := 2.83 + 0.195 * v!"Pe" - 0.741 * c!"np.exp"[-16 * v!"Pe"]])
          .nil]),
    .ret t![v!"Vp" * 1000, v!"Vs" * 1000]])

/-- `Empirical.Scherbaum`, Emp.py:198-217. -/
def Scherbaum : Fun where
  params := [⟨n!"Z", .none⟩]
  body :=
  (.ofList [
    set! "V" := 2325 + 0.51 * v!"Z",
    .ret v!"V"])

/-- `Empirical.Sclater`, Emp.py:219-234. -/
def Sclater : Fun where
  params := [⟨n!"phi", .none⟩]
  body :=
  (.ofList [
    set! "Z" := 3.7 * c!"np.log"[0.49 / v!"phi"],
    .ret v!"Z"])

/-- `Empirical.Storvoll`, Emp.py:236-251. -/
def Storvoll : Fun where
  params := [⟨n!"Z", .none⟩]
  body :=
  (.ofList [
    set! "V" := 1 / 1.76 * v!"Z" + 2600,
    .ret v!"V"])

/-- `Empirical.Hillis`, Emp.py:253-269. -/
def Hillis : Fun where
  params := [⟨n!"Z", .none⟩]
  body :=
  (.ofList [
    set! "transit" := 135.9 - 20.22 * v!"Z" / 1000,
    set! "V" := 304.8 * 1000 / v!"transit",
    .ret v!"V"])

/-- `Empirical.Japsen`, Emp.py:271-291. -/
def Japsen : Fun where
  params := [⟨n!"Z", .none⟩]
  body :=
  (.ofList [
    set! "V1" := 1550 + 0.6 * (.idx v!"Z" (.ofList [(.cmp .lt v!"Z" 1393)])),
    set! "V2" := -400 + 2 * (.idx v!"Z" (.ofList [(.bin .bitand (.cmp .ge v!"Z" 1393) (.cmp .lt
      v!"Z" 2000))])),
    set! "V3" := 2600 + 0.5 * (.idx v!"Z" (.ofList [(.bin .bitand (.cmp .ge v!"Z" 2000) (.cmp .lt
      v!"Z" 3500))])),
    set! "V4" := 3475 + 0.25 * (.idx v!"Z" (.ofList [(.bin .bitand (.cmp .ge v!"Z" 3500) (.cmp .lt
      v!"Z" 5300))])),
    set! "V" := c!"np.hstack"[t![v!"V1", v!"V2", v!"V3", v!"V4"]],
    .ret v!"V"])

/-- `Empirical.hjelstuen`, Emp.py:293-309. -/
def hjelstuen : Fun where
  params := [⟨n!"Z", .none⟩]
  body :=
  (.ofList [
    set! "V" := 1.87 + 0.55 * (v!"Z" / 1000),
    .ret (v!"V" * 1000)])

/-- `Empirical.Cp`, Emp.py:311-326. -/
def Cp : Fun where
  params := [⟨n!"phi", .none⟩]
  body :=
  (.ofList [
    .ret (20 - 34 * v!"phi" + 14 * v!"phi" ** 2)])

end RockPhy.Source.Empirical
