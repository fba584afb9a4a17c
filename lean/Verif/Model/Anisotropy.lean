import Verif.Num

/-! # Model of `rockphypy/Anisotropy.py` -/

namespace RockPhy.Anisotropy

variable {α : Type} [PyNum α]

/-- `Anisotropy.Thomsen`, Anisotropy.py:12-39; returns
`(VP, VSV, VSH, epsilon, gamma, delta)`. -/
def Thomsen (C11 C33 C13 C44 C66 den theta : α) : α × α × α × α × α × α :=
  let alpha := sqrt (C33 / den) * 1e3
  let beta := sqrt (C44 / den) * 1e3
  let epsilon := 0.5 * (C11 - C33) / C33
  let gamma := 0.5 * (C66 - C44) / C44
  let theta := deg2rad theta
  let delta := ((C13 + C44) ** 2 - (C33 - C44) ** 2) / (2 * C33 * (C33 - C44))
  let VP := alpha * (1 + delta * sin theta ** 2 * cos theta ** 2 + epsilon * sin theta ** 4)
  let VSV := beta * (1 + alpha ** 2 / beta ** 2 * (epsilon - delta) * sin theta ** 2 * cos theta ** 2)
  let VSH := beta * (1 + gamma * sin theta ** 2)
  (VP, VSV, VSH, epsilon, gamma, delta)

/-- `Anisotropy.Thomsen_Tsvankin`, Anisotropy.py:42-71; returns
`(epsilon_1, delta_1, gamma_1, epsilon_2, delta_2, gamma_2, delta_3)`. -/
def Thomsen_Tsvankin (C11 C22 C33 C12 C13 C23 C44 C55 C66 : α) :
    α × α × α × α × α × α × α :=
  let epsilon_1 := (C22 - C33) / (2 * C33)
  let delta_1 := ((C23 + C44) ** 2 - (C33 - C44) ** 2) / (2 * C33 * (C33 - C44))
  let gamma_1 := (C66 - C55) / 2 / C55
  let epsilon_2 := (C11 - C33) / (2 * C33)
  let delta_2 := ((C13 + C55) ** 2 - (C33 - C55) ** 2) / (2 * C33 * (C33 - C55))
  let gamma_2 := (C66 - C44) / 2 / C44
  let delta_3 := ((C12 + C66) ** 2 - (C11 - C66) ** 2) / 2 / C11 / (C11 - C66)
  (epsilon_1, delta_1, gamma_1, epsilon_2, delta_2, gamma_2, delta_3)

/-- `Anisotropy.Backus`, Anisotropy.py:74-109, for one dimensional arrays; returns
`(C11, C33, C13, C44, C66)`.  `lamda` and `G` are combined with numpy broadcasting; `np.dot`
raises when the lengths differ. -/
def Backus (V lamda G : List α) : Except PyErr (α × α × α × α × α) := do
  let V := V.map (· / lsum V)
  let C33 := inv (← dot V (← bzip (fun l g => 1 / (l + 2 * g)) lamda G))
  let C44 := inv (← dot V (G.map (fun g => 1 / g)))
  let C66 ← dot V G
  let C13 := inv (← dot V (← bzip (fun l g => 1 / (l + 2 * g)) lamda G))
    * (← dot V (← bzip (fun l g => l / (l + 2 * g)) lamda G))
  let C11 := (← dot V (← bzip (fun l g => 4 * g * (l + g) / (l + 2 * g)) lamda G))
    + inv (← dot V (← bzip (fun l g => 1 / (l + 2 * g)) lamda G))
      * (← dot V (← bzip (fun l g => l / (l + 2 * g)) lamda G)) ** 2
  return (C11, C33, C13, C44, C66)

/-- `np.diff` of a one dimensional array. -/
def diff (l : List α) : List α := List.zipWith (fun a b => b - a) l l.tail

/-- `Anisotropy.Backus_log`, Anisotropy.py:112-145; returns `(C11, C33, C13, C44, C66, den)`. -/
def Backus_log (Vp Vs Den Depth : List α) : Except PyErr (α × α × α × α × α × α) := do
  let G ← bzip (fun d v => d * v ** 2) Den Vs
  let lamda ← bzip (· - ·) (← bzip (fun d v => d * v ** 2) Den Vp) (G.map (2 * ·))
  let thickness := diff Depth
  let V := thickness.map (· / lsum thickness)
  let (C11, C33, C13, C44, C66) ← Backus V lamda G
  let den ← dot V Den
  return (C11, C33, C13, C44, C66, den)

/-- `Anisotropy.vel_azi_HTI`, Anisotropy.py:148-179; returns `(VP, VSH, VSV)`. -/
def vel_azi_HTI (C : Mat6 α) (Den azimuth : α) : α × α × α :=
  let azimuth := deg2rad azimuth
  let C11 := C 0 0
  let C12 := C 0 1
  let C33 := C 2 2
  let C44 := C 3 3
  let C55 := C 4 4
  let R := sqrt (((C33 - C55) * sin azimuth ** 2 - (C11 - C55) * cos azimuth ** 2) ** 2
    + 4 * (C12 + C55) ** 2 * sin azimuth ** 2 * cos azimuth ** 2)
  let Vp := 0.5 / Den * ((C33 + C55) * sin azimuth ** 2 + (C11 + C55) * cos azimuth ** 2 + R)
  let Vsh := 0.5 / Den * ((C33 + C55) * sin azimuth ** 2 + (C11 + C55) * cos azimuth ** 2 - R)
  let Vsv := 1 / Den * (C55 + (C44 - C55) * sin azimuth ** 2)
  let VP := sqrt Vp
  let VSH := sqrt Vsh
  let VSV := sqrt Vsv
  (VP, VSH, VSV)

/-- `Anisotropy.vel_azi_VTI`, Anisotropy.py:182-215; returns `(VP, VSH, VSV)`. -/
def vel_azi_VTI (C : Mat6 α) (Den azimuth : α) : α × α × α :=
  let azimuth := deg2rad azimuth
  let C11 := C 0 0
  let C13 := C 0 2
  let C33 := C 2 2
  let C44 := C 3 3
  let C66 := C 5 5
  let R := sqrt (((C11 - C44) * sin azimuth ** 2 - (C33 - C44) * cos azimuth ** 2) ** 2
    + (C13 + C44) ** 2 * sin (2 * azimuth) ** 2)
  let Vp := 0.5 / Den * (C11 * sin azimuth ** 2 + C33 * cos azimuth ** 2 + C44 + R)
  let Vsv := 0.5 / Den * (C11 * sin azimuth ** 2 + C33 * cos azimuth ** 2 + C44 - R)
  let Vsh := 1 / Den * (C66 * sin azimuth ** 2 + C44 * cos azimuth ** 2)
  let VP := sqrt Vp
  let VSH := sqrt Vsh
  let VSV := sqrt Vsv
  (VP, VSH, VSV)

/-- The 6x6 Bond matrix assembled by `Anisotropy.Bond_trans` from the direction cosines,
Anisotropy.py:269-280 (blocks `M1 M2 / M3 M4`, each given row by row). -/
def bondMatrix (b11 b12 b13 b21 b22 b23 b31 b32 b33 : α) : Mat6 α :=
  ![![b11 ** 2, b12 ** 2, b13 ** 2, b12 * b13, b13 * b11, b11 * b12],
    ![b21 ** 2, b22 ** 2, b23 ** 2, b22 * b23, b23 * b21, b21 * b22],
    ![b31 ** 2, b32 ** 2, b33 ** 2, b32 * b33, b33 * b31, b31 * b32],
    ![b21 * b31, b22 * b32, b23 * b33,
      b22 * b33 + b23 * b32, b21 * b33 + b23 * b31, b22 * b31 + b21 * b32],
    ![b31 * b11, b32 * b12, b33 * b13,
      b12 * b33 + b13 * b32, b11 * b33 + b13 * b31, b11 * b32 + b12 * b31],
    ![b11 * b21, b12 * b22, b13 * b23,
      b22 * b13 + b12 * b23, b11 * b23 + b13 * b21, b22 * b11 + b12 * b21]]

/-- `Anisotropy.Bond_trans`, Anisotropy.py:218-282.  An axis other than 1 or 3 leaves the
direction cosines unbound. -/
def Bond_trans (C : Mat6 α) (theta : α) (axis : Int) : Except PyErr (Mat6 α) := do
  let theta := deg2rad theta
  let M ←
    if axis = 3 then
      .ok (bondMatrix (cos theta) (cos (pi / 2 - theta)) 0 (cos (theta + pi / 2)) (cos theta) 0
        0 0 1)
    else if axis = 1 then
      .ok (bondMatrix 1 0 0 0 (cos theta) (cos (theta + pi / 2)) 0 (cos (pi / 2 - theta))
        (cos theta))
    else .error .UnboundLocalError
  return matmul6 (matmul6 M C) M.transpose

end RockPhy.Anisotropy
