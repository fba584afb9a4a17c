import Verif.Model.Utils

/-!
# Model of rockphypy/GM.py

Granular medium models.  Functions that numpy maps over an array are modelled for one entry.
`np.roots` (used by `Digby`) is a parameter.
-/

namespace RockPhy

/-- `np.maximum` of two numbers; `nan` is returned when either is `nan` (then neither comparison
holds and the sum is `nan`). -/
def maximum {α} [PyNum α] (a b : α) : α :=
  if PyNum.le a b then b else if PyNum.lt b a then a else a + b

/-- `np.minimum` of two numbers. -/
def minimum {α} [PyNum α] (a b : α) : α :=
  if PyNum.le a b then a else if PyNum.lt b a then b else a + b

end RockPhy

namespace RockPhy.GM

variable {α : Type} [PyNum α]

/-- `GM.ThomasStieber`, GM.py:18-44; returns `(phi_ABC, phi_AC)`. -/
def ThomasStieber (phi_sand phi_sh vsh : α) : α × α :=
  let phi1 := phi_sand - (1 - phi_sh) * vsh
  let phi2 := phi_sh * vsh
  let phi_ABC := maximum phi1 phi2
  let m := phi_sh - phi_sand
  let b := phi_sand
  let phi_AC := m * vsh + b
  (phi_ABC, phi_AC)

/-- `GM.silty_shale`, GM.py:47-72. -/
def silty_shale (C Kq Gq Ksh Gsh : α) : α × α :=
  let K_sat := inv (C / (Ksh + 4 * Gsh / 3) + (1 - C) / (Kq + 4 * Gq / 3)) - 4 * Gsh / 3
  let Zsh := Gsh / 6 * (9 * Ksh + 8 * Gsh) / (Ksh + 2 * Gsh)
  let G_sat := inv (C / (Gsh + Zsh) + (1 - C) / (Gq + Zsh)) - Zsh
  (K_sat, G_sat)

/-- `GM.shaly_sand`, GM.py:75-102. -/
def shaly_sand (phis C Kss Gss Kcc Gcc : α) : α × α :=
  let K_sat := inv ((1 - C / phis) / (Kss + 4 * Gss / 3) + (C / phis) / (Kcc + 4 * Gss / 3))
    - 4 * Gss / 3
  let Zss := Gss / 6 * (9 * Kss + 8 * Gss) / (Kss + 2 * Gss)
  let G_sat := inv ((1 - C / phis) / (Gss + Zss) + (C / phis) / (Gcc + Zss)) - Zss
  (K_sat, G_sat)

/-- `GM.contactcement`, GM.py:105-158. -/
def contactcement (K0 G0 Kc Gc phi phic Cn : α) (scheme : Int) : α × α :=
  let nu_0 := (3 * K0 - 2 * G0) / (6 * K0 + 2 * G0)
  let nu_c := (3 * Kc - 2 * Gc) / (6 * Kc + 2 * Gc)
  let alpha :=
    if scheme = 1 then 2 * ((phic - phi) / (3 * Cn * (1 - phic))) **. (1 / 4)
    else ((2 * (phic - phi)) / (3 * (1 - phic))) **. (1 / 2)
  let LambdaN := (2 * Gc * (1 - nu_0) * (1 - nu_c)) / (pi * G0 * (1 - 2 * nu_c))
  let N1 := -0.024153 * LambdaN **. (-1.3646)
  let N2 := 0.20405 * LambdaN **. (-0.89008)
  let N3 := 0.00024649 * LambdaN **. (-1.9864)
  let Sn := N1 * alpha ** 2 + N2 * alpha + N3
  let LambdaT := Gc / (pi * G0)
  let T1 := -(1 / 10 ** 2) * (2.26 * nu_0 ** 2 + 2.07 * nu_0 + 2.3)
    * LambdaT **. (0.079 * nu_0 ** 2 + 0.1754 * nu_0 - 1.342)
  let T2 := (0.0573 * nu_0 ** 2 + 0.0937 * nu_0 + 0.202)
    * LambdaT **. (0.0274 * nu_0 ** 2 + 0.0529 * nu_0 - 0.8765)
  let T3 := (1 / 10 ** 4) * (9.654 * nu_0 ** 2 + 4.945 * nu_0 + 3.1)
    * LambdaT **. (0.01867 * nu_0 ** 2 + 0.4011 * nu_0 - 1.8186)
  let St := T1 * alpha ** 2 + T2 * alpha + T3
  let K_dry := 1 / 6 * Cn * (1 - phic) * (Kc + (4 / 3) * Gc) * Sn
  let G_dry := 3 / 5 * K_dry + 3 / 20 * Cn * (1 - phic) * Gc * St
  (K_dry, G_dry)

/-- `GM.hertzmindlin`, GM.py:161-197. -/
def hertzmindlin (K0 G0 phic Cn sigma f : α) : α × α :=
  let sigma := sigma / 1000
  let nu := (3 * K0 - 2 * G0) / (6 * K0 + 2 * G0)
  let K_dry := (sigma * (Cn ** 2 * (1 - phic) ** 2 * G0 ** 2)
    / (18 * pi ** 2 * (1 - nu) ** 2)) **. (1 / 3)
  let G_dry := ((2 + 3 * f - nu * (1 + 3 * f)) / (5 * (2 - nu)))
    * (sigma * (3 * Cn ** 2 * (1 - phic) ** 2 * G0 ** 2)
      / (2 * pi ** 2 * (1 - nu) ** 2)) **. (1 / 3)
  (K_dry, G_dry)

/-- `GM.softsand`, GM.py:200-237. -/
def softsand (K0 G0 phi phic Cn sigma f : α) : α × α :=
  let HM := hertzmindlin K0 G0 phic Cn sigma f
  let K_HM := HM.1
  let G_HM := HM.2
  let K_dry := -4 / 3 * G_HM
    + inv ((phi / phic) / (K_HM + 4 / 3 * G_HM) + (1 - phi / phic) / (K0 + 4 / 3 * G_HM))
  let aux := G_HM / 6 * ((9 * K_HM + 8 * G_HM) / (K_HM + 2 * G_HM))
  let G_dry := -aux + inv ((phi / phic) / (G_HM + aux) + (1 - phi / phic) / (G0 + aux))
  (K_dry, G_dry)

/-- `GM.Walton`, GM.py:240-282. -/
def Walton (K0 G0 phic Cn sigma f : α) : α × α :=
  let sigma := sigma / 1e3
  let lamda := K0 - 2 * G0 / 3
  let B := 1 / (4 * pi) * (1 / G0 + 1 / (G0 + lamda))
  let K_w := 1 / 6 * (3 * (1 - phic) ** 2 * Cn ** 2 * sigma / (pi ** 4 * B ** 2)) **. (1 / 3)
  let G_dry1 := 3 / 5 * K_w
  let nu := (3 * K0 - 2 * G0) / (6 * K0 + 2 * G0)
  let G_dry2 := 3 / 5 * K_w * (5 - 4 * nu) / (2 - nu)
  let G_w := f * G_dry2 + (1 - f) * G_dry1
  (K_w, G_w)

/-- `GM.johnson`, GM.py:285-354; returns `(C, sigma33, sigma11)`.  With an unrecognised `path`
neither stress is assigned and the return statement raises. -/
def johnson (K0 G0 n phi epsilon epsilon_axial : α) (path : String) :
    Except PyErr (Mat6 α × α × α) :=
  let nu0 := utils.poi K0 G0
  let Cn := 4 * G0 / (1 - nu0)
  let Ct := (8 * G0) / (2 - nu0)
  let Bw := 2 / (pi * Cn)
  let Cw := 4 / pi * (1 / Ct - 1 / Cn)
  let gamma := (3 / 32) * Cn * Ct * n * (1 - phi) * sqrt (-epsilon)
  let alpha := sqrt (epsilon / epsilon_axial)
  let I0 := (1 / 2) * (sqrt (1 + alpha ** 2) + alpha ** 2 * log (1 + sqrt (1 + alpha ** 2) / alpha))
  let I2 := (1 / 4) * ((1 + alpha ** 2) **. (3 / 2) - alpha ** 2 * I0)
  let I4 := (1 / 6) * ((1 + alpha ** 2) **. (3 / 2) - 3 * alpha ** 2 * I2)
  let C11 := gamma / alpha * (4 * Bw / 3 + 2 * Cw / 5
    + epsilon / epsilon_axial * (2 * Bw / 15 + Cw / 35))
  let C33 := (gamma / alpha) * (4 * Bw * I2 + 2 * Cw * I4)
  let C13 := (gamma / alpha) * Cw * (I2 - I4)
  let C44 := (gamma / alpha) * ((Bw / 2) * (I0 + I2) + Cw * (I2 - I4))
  let C66 := (gamma / alpha) * (Bw * (I0 - I2) + (Cw / 4) * (I0 - 2 * I2 + I4))
  let C := utils.write_VTI_matrix C11 C33 C13 C44 C66
  let Temp := -((-epsilon) **. (3 / 2)) * (1 - phi) * n / (4 * pi * alpha ** 3)
  if path = "together" then
    let sigma33 := 2 * Temp * (Ct * (I2 - I4) + Cn * (alpha ** 2 * I2 + I4))
    let sigma11 := Temp * (-Ct * (I2 - I4) + Cn * (alpha ** 2 * I0 + (1 - alpha ** 2) * I2 - I4))
    .ok (C, sigma33, sigma11)
  else if path = "uni_iso" then
    let sigma33 := 2 * Temp * (1 / 12 * Ct + Cn * (alpha ** 2 * I2 + I4))
    let sigma11 := Temp * (-1 / 12 * Ct + Cn * (alpha ** 2 * I0 + (1 - alpha ** 2) * I2 - I4))
    .ok (C, sigma33, sigma11)
  else if path = "iso-uni" then
    let sigma33 := 2 * Temp * (Ct * (alpha ** 2 * I0 + (1 - alpha ** 2) * I2 - I4
      - 2 * alpha ** 3 / 3) + Cn * (alpha ** 2 * I2 + I4))
    let sigma11 := Temp * (-Ct * (alpha ** 2 * I0 + (1 - alpha ** 2) * I2 - I4
      - 2 * alpha ** 3 / 3 + Cn * (alpha ** 2 * I0 + (1 - alpha ** 2) * I2 - I4)))
    .ok (C, sigma33, sigma11)
  else .error .UnboundLocalError

/-- `GM.stiffsand`, GM.py:358-391. -/
def stiffsand (K0 G0 phi phic Cn sigma f : α) : α × α :=
  let HM := hertzmindlin K0 G0 phic Cn sigma f
  let K_HM := HM.1
  let G_HM := HM.2
  let K_dry := -4 / 3 * G0
    + inv ((phi / phic) / (K_HM + 4 / 3 * G0) + (1 - phi / phic) / (K0 + 4 / 3 * G0))
  let aux := G0 / 6 * ((9 * K0 + 8 * G0) / (K0 + 2 * G0))
  let G_dry := -aux + inv ((phi / phic) / (G_HM + aux) + (1 - phi / phic) / (G0 + aux))
  (K_dry, G_dry)

/-- `GM.constantcement`, GM.py:394-437. -/
def constantcement (phi_b K0 G0 Kc Gc phi phic Cn : α) (scheme : Int) : α × α :=
  let b := contactcement K0 G0 Kc Gc phi_b phic Cn scheme
  let K_b := b.1
  let G_b := b.2
  let T := phi / phi_b
  let Z := (G_b / 6) * (9 * K_b + 8 * G_b) / (K_b + 2 * G_b)
  let Kdry := inv (T / (K_b + 4 * G_b / 3) + (1 - T) / (K0 + 4 * G_b / 3)) - 4 * G_b / 3
  let Gdry := inv (T / (G_b + Z) + (1 - T) / (G0 + Z)) - Z
  (Kdry, Gdry)

/-- `GM.MUHS`, GM.py:440-483. -/
def MUHS (K0 G0 Kc Gc phi phi_b phic Cn : α) (scheme : Int) : α × α :=
  let b := contactcement K0 G0 Kc Gc phi_b phic Cn scheme
  let K_b := b.1
  let G_b := b.2
  let K_dry := -4 / 3 * G0
    + inv ((phi / phi_b) / (K_b + 4 / 3 * G0) + (1 - phi / phi_b) / (K0 + 4 / 3 * G0))
  let tmp := G0 / 6 * ((9 * K0 + 8 * G0) / (K0 + 2 * G0))
  let G_dry := -tmp + inv ((phi / phi_b) / (G_b + tmp) + (1 - phi / phi_b) / (G0 + tmp))
  (K_dry, G_dry)

/-- `GM.Digby`, GM.py:486-525.  `roots a b c d` stands for `np.roots([a, b, c, d])`, a list of
complex numbers given as pairs (real part, imaginary part).  The selected roots, and so the two
results, are arrays. -/
def Digby (roots : α → α → α → α → List (α × α)) (K0 G0 phi Cn sigma a_R : α) :
    List α × List α :=
  let sigma := sigma / 1000
  let nu := (3 * K0 - 2 * G0) / (6 * K0 + 2 * G0)
  let rts := roots 1 0 (3 / 2 * a_R ** 2) (-3 * pi * (1 - nu) * sigma / (2 * Cn * (1 - phi) * G0))
  let root := (rts.map Prod.fst).filter fun x => PyNum.le 0 x
  let b_R := root.map fun r => sqrt (r ** 2 + a_R ** 2)
  let Sn_R := b_R.map fun b => 4 * G0 * b / (1 - nu)
  let St_R := 8 * G0 * a_R / (2 - nu)
  let Keff := Sn_R.map fun s => Cn * (1 - phi) * s / 12 / pi
  let Geff := Sn_R.map fun s => Cn * (1 - phi) * (s + 1.5 * St_R) / 20 / pi
  (Keff, Geff)

/-- The cemented end member of `GM.pcm` and `GM.vpcm`, GM.py:587-594 and 696-703. -/
def cemented (K0 G0 phic v_cem v_ci Kc Gc Cn : α) (scheme : Int) : α × α :=
  if PyNum.le v_cem v_ci then contactcement K0 G0 Kc Gc (phic - v_cem) phic Cn scheme
  else MUHS K0 G0 Kc Gc (phic - v_cem) (phic - v_ci) phic Cn scheme

/-- `(Kp, Gp)` of `GM.pcm` with `mode == 'stiff'`, GM.py:601-604 (same text in `GM.vpcm`,
GM.py:709-712). -/
def patchyStiff (f Kunc Gunc Kcem Gcem : α) : α × α :=
  let Kp := Kcem + (1 - f) / (inv (Kunc - Kcem) + f * inv (Kcem + 4 * Gcem / 3))
  let Temp := (Kcem + 2 * Gcem) / (5 * Gcem * (Kcem + 4 * Gcem / 3))
  let Gp := Gcem + (1 - f) / (inv (Gunc - Gcem) + 2 * f * Temp)
  (Kp, Gp)

/-- `(Kp, Gp)` of `GM.pcm` for any other mode, GM.py:606-609 (same text in `GM.vpcm`,
GM.py:714-717). -/
def patchySoft (f Kunc Gunc Kcem Gcem : α) : α × α :=
  let Kp := Kunc + f / (inv (Kcem - Kunc) + (1 - f) * inv (Kunc + 4 * Gunc / 3))
  let Temp := (Kunc + 2 * Gunc) / (5 * Gunc * (Kunc + 4 * Gunc / 3))
  let Gp := Gunc + f / (inv (Gcem - Gunc) + 2 * (1 - f) * Temp)
  (Kp, Gp)

/-- The second Hashin-Shtrikman interpolation of `GM.pcm` and `GM.vpcm`, GM.py:613-617 and
728-732. -/
def patchyHS (K0 G0 phi phic Kp Gp : α) : α × α :=
  let K_DRY := -4 / 3 * Gp
    + inv ((phi / phic) / (Kp + 4 / 3 * Gp) + (1 - phi / phic) / (K0 + 4 / 3 * Gp))
  let tmp := Gp / 6 * ((9 * Kp + 8 * Gp) / (Kp + 2 * Gp))
  let G_DRY := -tmp + inv ((phi / phic) / (Gp + tmp) + (1 - phi / phic) / (G0 + tmp))
  (K_DRY, G_DRY)

/-- `GM.pcm`, GM.py:528-617. -/
def pcm (f sigma K0 G0 phi phic v_cem v_ci Kc Gc Cn : α) (mode : String) (scheme : Int) (f_ : α) :
    α × α :=
  let unc := hertzmindlin K0 G0 phic Cn sigma f_
  let cem := cemented K0 G0 phic v_cem v_ci Kc Gc Cn scheme
  let p := if mode = "stiff" then patchyStiff f unc.1 unc.2 cem.1 cem.2
    else patchySoft f unc.1 unc.2 cem.1 cem.2
  patchyHS K0 G0 phi phic p.1 p.2

/-- `GM.diluting`, GM.py:620-641, for one entry of an array; `isnan` is `np.isnan`. -/
def diluting (isnan : α → Bool) (k sigma0 sigma m : α) : α :=
  let alpha := k * (1 - sigma / sigma0) **. m
  if isnan alpha then 0 else alpha

/-- `GM.vpcm`, GM.py:644-732. -/
def vpcm (alpha f sigma K0 G0 phi phic v_cem v_ci Kc Gc Cn : α) (scheme : Int) (f_ : α) : α × α :=
  let unc := hertzmindlin K0 G0 phic Cn sigma f_
  let cem := cemented K0 G0 phic v_cem v_ci Kc Gc Cn scheme
  let stiff := patchyStiff f unc.1 unc.2 cem.1 cem.2
  let soft := patchySoft f unc.1 unc.2 cem.1 cem.2
  let Kp := stiff.1 * (1 - alpha) + soft.1 * alpha
  let Gp := stiff.2 * (1 - alpha) + soft.2 * alpha
  patchyHS K0 G0 phi phic Kp Gp

end RockPhy.GM
