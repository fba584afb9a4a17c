import Verif.Model.GM

/-! # Model of `rockphypy/Emp.py` -/

namespace RockPhy.Empirical

variable {α : Type} [PyNum α]

/-- `Empirical.krief`, Emp.py:12-34; returns `(lamda, G, K)`. -/
def krief (phi Kg Gg : α) : α × α × α :=
  let a0 := 1 - (1 - phi) **. (3 / (1 - phi))
  let G := (1 - a0) * Gg
  let K := (1 - a0) * Kg
  let lamda := K - 2 * G / 3
  (lamda, G, K)

/-- `Empirical.esti_VS`, Emp.py:37-64. -/
def esti_VS (Vp vsh : α) : α :=
  let Vs_sand := 0.80416 * Vp / 1000 - 0.85588
  let Vs_shale := 0.76969 * Vp / 1000 - 0.86735
  let Vs_arith := (1 - vsh) * Vs_sand + vsh * Vs_shale
  let Vs_harm := inv ((1 - vsh) / Vs_sand + vsh / Vs_shale)
  let Vs := 0.5 * (Vs_arith + Vs_harm)
  Vs * 1000

/-- `Empirical.han`, Emp.py:67-84. -/
def han (phi C : α) : α × α :=
  let vp := 5.59 - 6.93 * phi - 2.81 * C
  let vs := 3.52 - 4.91 * phi - 1.89 * C
  (vp * 1000, vs * 1000)

/-- `Empirical.ehrenberg`, Emp.py:87-107. -/
def ehrenberg (Z : α) : α :=
  let Z := Z / 1000
  (-0.092200747) * Z + 0.4802422

/-- `Empirical.yu_segment_trend`, Emp.py:110-127, for a one dimensional array. -/
def yu_segment_trend (Z : List α) : List α :=
  let V1 := (Z.filter fun z => PyNum.le z 2630).map fun z => 1707.998 + 0.66 * z
  let V2 := (Z.filter fun z => PyNum.lt 2630 z).map fun z => 1200.84 + 0.853 * z
  V1 ++ V2

/-- `Empirical.ramm_porosity`, Emp.py:130-150; `HB` is the comparison `HB==True`. -/
def ramm_porosity (Z : α) (HB : Bool) : α :=
  let phi := if HB then 46.4 - 0.0085 * Z else 42.7 - 0.0069 * Z
  phi / 100

/-- `a[mask] = v` for one dimensional arrays: the selected positions are filled in order with the
entries of `v`; numpy raises `ValueError` when their number differs (unless `v` has one entry). -/
def setMask : List α → List Bool → List α → Except PyErr (List α)
  | [], _, [] => .ok []
  | [], _, _ :: _ => .error .ValueError
  | a :: as, [], v => (setMask as [] v).map (a :: ·)
  | a :: as, false :: m, v => (setMask as m v).map (a :: ·)
  | _ :: as, true :: m, x :: v => (setMask as m v).map (x :: ·)
  | _ :: _, true :: _, [] => .error .ValueError

/-- `a[mask]` for one dimensional arrays of equal length. -/
def getMask : List α → List Bool → List α
  | a :: as, true :: m => a :: getMask as m
  | _ :: as, false :: m => getMask as m
  | _, _ => []

/-- `Empirical.ramm_porosity_segment`, Emp.py:153-169, for a one dimensional array; the masked
assignment is done with `getMask` and `setMask`.  (Equal counts always, so the one-entry broadcast
of numpy does not matter.) -/
def ramm_porosity_segment (Z : List α) : Except PyErr (List α) :=
  let phi1 := Z.map fun z => 45 * exp (-0.00025 * z)
  let phi2 := Z.map fun z => 25 - 0.013 * (z - 2500)
  let m1 := List.zipWith (fun x y => PyNum.lt y x) phi1 phi2
  let m2 := List.zipWith (fun x y => PyNum.lt y x) phi1 phi2
  setMask phi1 m1 (getMask phi2 m2)

/-- `Empirical.empirical_StPeter`, Emp.py:172-196. -/
def empirical_StPeter (Pe : α) (sample : Int) : Except PyErr (α × α) :=
  if sample = 1 then
    let Vp := 4.21 + 0.187 * Pe - 0.746 * exp (-24 * Pe)
    let Vs := 2.58 + 0.160 * Pe - 0.781 * exp (-20 * Pe)
    .ok (Vp * 1000, Vs * 1000)
  else if sample = 2 then
    let Vp := 4.55 + 0.298 * Pe - 0.8 * exp (-19 * Pe)
    let Vs := 2.83 + 0.195 * Pe - 0.741 * exp (-16 * Pe)
    .ok (Vp * 1000, Vs * 1000)
  else .error .UnboundLocalError

/-- `Empirical.Scherbaum`, Emp.py:199-217. -/
def Scherbaum (Z : α) : α := 2325 + 0.51 * Z

/-- `Empirical.Sclater`, Emp.py:220-234. -/
def Sclater (phi : α) : α := 3.7 * log (0.49 / phi)

/-- `Empirical.Storvoll`, Emp.py:237-251. -/
def Storvoll (Z : α) : α := 1 / 1.76 * Z + 2600

/-- `Empirical.Hillis`, Emp.py:254-269. -/
def Hillis (Z : α) : α :=
  let transit := 135.9 - 20.22 * Z / 1000
  304.8 * 1000 / transit

/-- `Empirical.Japsen`, Emp.py:272-291, for a one dimensional array. -/
def Japsen (Z : List α) : List α :=
  let V1 := (Z.filter fun z => PyNum.lt z 1393).map fun z => 1550 + 0.6 * z
  let V2 := (Z.filter fun z => PyNum.le 1393 z && PyNum.lt z 2000).map fun z => -400 + 2 * z
  let V3 := (Z.filter fun z => PyNum.le 2000 z && PyNum.lt z 3500).map fun z => 2600 + 0.5 * z
  let V4 := (Z.filter fun z => PyNum.le 3500 z && PyNum.lt z 5300).map fun z => 3475 + 0.25 * z
  V1 ++ V2 ++ V3 ++ V4

/-- `Empirical.hjelstuen`, Emp.py:294-309. -/
def hjelstuen (Z : α) : α :=
  let V := 1.87 + 0.55 * (Z / 1000)
  V * 1000

/-- `Empirical.Cp`, Emp.py:312-326. -/
def Cp (phi : α) : α := 20 - 34 * phi + 14 * phi ** 2

end RockPhy.Empirical
