import Verif.Model.Complex
import Verif.Model.Fluid

/-! # Model of the frequency dependent functions of `rockphypy/Fluid.py`

Both functions work entry by entry on the array of frequencies; the model is the computation for
one frequency.  The Bessel functions `scipy.special.jv(0, .)` and `jv(1, .)` are parameters. -/

namespace RockPhy.Fluid

variable {α : Type} [PyNum α]

open Cx (ofR I)

/-- The viscodynamic operator `F` of `Fluid.Biot`, Fluid.py:89-96.  An assignment to the
entries selected by a mask becomes a conditional. -/
def Biot_F (jv0 jv1 : Cx α → Cx α) (zeta : α) : Cx α :=
  let T := ofR 0
  let T := if PyNum.le zeta 1e3 then
      Cx.exp (I * ofR 3 * ofR pi / ofR 4) * jv1 (ofR zeta * Cx.exp (-I * ofR pi / ofR 4))
        / jv0 (ofR zeta * Cx.exp (-I * ofR pi / ofR 4))
    else T
  let T := if PyNum.lt 1e3 zeta then (ofR 1 + I) / ofR (sqrt 2) else T
  if PyNum.lt zeta 1e-1 then ofR 1
  else ofR (1 / 4) * (ofR zeta * T / (ofR 1 + ofR 2 * I * T / ofR zeta))

/-- The three waves of `Fluid.Biot` once `q` is known, Fluid.py:98-112. -/
def Biot_waves (M C H Gdry rho rhofl : α) (q : Cx α) : α × α × α × α × α × α :=
  let Ta := C ** 2 - M * H
  let Tb := ofR H * q + ofR (M * rho) - ofR (2 * C * rhofl)
  let Tc := ofR (rhofl ** 2) - ofR rho * q
  let P1_slowness2 := (-Tb + Cx.sqrt (Tb * Tb - ofR (4 * Ta) * Tc)) / ofR (2 * Ta)
  let P2_slowness2 := (-Tb - Cx.sqrt (Tb * Tb - ofR (4 * Ta) * Tc)) / ofR (2 * Ta)
  let S_slowness2 := (ofR rho * q - ofR (rhofl ** 2)) / (ofR Gdry * q)
  let Vp_fast := 1 / (Cx.sqrt P1_slowness2).re
  let Vp_slow := 1 / (Cx.sqrt P2_slowness2).re
  let Vs := 1 / (Cx.sqrt S_slowness2).re
  let QP1_inv := (ofR 1 / P1_slowness2).im / (ofR 1 / P1_slowness2).re
  let QP2_inv := (ofR 1 / P2_slowness2).im / (ofR 1 / P2_slowness2).re
  let Qs_inv := (ofR 1 / S_slowness2).im / (ofR 1 / S_slowness2).re
  (Vp_fast, Vp_slow, Vs, QP1_inv, QP2_inv, Qs_inv)

/-- `Fluid.Biot`, Fluid.py:36-114, for one frequency; returns
`(Vp_fast, Vp_slow, Vs, QP1_inv, QP2_inv, Qs_inv)`. -/
def Biot (jv0 jv1 : Cx α → Cx α) (Kdry Gdry K0 Kfl rho0 rhofl eta phi kapa a alpha freq : α) :
    α × α × α × α × α × α :=
  let rho := (1 - phi) * rho0 + phi * rhofl
  let D := K0 * (1 + phi * (K0 / Kfl - 1))
  let M := K0 ** 2 / (D - Kdry)
  let C := (K0 - Kdry) * K0 / (D - Kdry)
  let H := Kdry + 4 * Gdry / 3 + (K0 - Kdry) ** 2 / (D - Kdry)
  let w := 2 * pi * freq
  let zeta := sqrt (w * a ** 2 * rhofl / eta)
  let F := Biot_F jv0 jv1 zeta
  let q := ofR (alpha * rhofl / phi) - I * ofR eta * F / ofR (w * kapa)
  Biot_waves M C H Gdry rho rhofl q

/-- `KE1` and `KE2` of `Fluid.White_Dutta_Ode`, Fluid.py:655-658: the modulus of the diffusion
equation of one region. -/
def White_KE (Kdry K0 phi Kfl K KA : α) : α :=
  (1 - Kfl * (1 - K / K0) * (1 - Kdry / K0) / (phi * K * (1 - Kfl / K0))) * KA

/-- `Z1`, the impedance of the central sphere, Fluid.py:662. -/
def White_Z1 (eta1 kapa a : α) (alpha1 : Cx α) : Cx α :=
  ofR (eta1 * a / kapa) * (ofR 1 - Cx.exp (ofR (-2) * alpha1 * ofR a))
    / ((alpha1 * ofR a - ofR 1) + (alpha1 * ofR a + ofR 1) * Cx.exp (ofR (-2) * alpha1 * ofR a))

/-- `Z2`, the impedance of the outer shell, Fluid.py:663. -/
def White_Z2 (eta2 kapa a b : α) (alpha2 : Cx α) : Cx α :=
  ofR (-eta2 * a / kapa)
    * ((alpha2 * ofR b + ofR 1)
      + (alpha2 * ofR b - ofR 1) * Cx.exp (ofR 2 * alpha2 * ofR (b - a)))
    / ((alpha2 * ofR b + ofR 1) * (alpha2 * ofR a - ofR 1)
      - (alpha2 * ofR b - ofR 1) * (alpha2 * ofR a + ofR 1)
        * Cx.exp (ofR 2 * alpha2 * ofR (b - a)))

/-- Velocity and attenuation from the complex bulk modulus, Fluid.py:676-682; returns
`(Vp, a_w)`. -/
def White_wave (Gdry rho omega : α) (K_star : Cx α) : α × α :=
  let M := K_star + ofR (4 * Gdry / 3)
  let theta := arctan (M.im / M.re)
  let Vp := sqrt (M.abs / rho) * 1 / cos (theta / 2)
  let a_w := omega / Vp * tan (theta / 2)
  (Vp, a_w)

/-- `Fluid.White_Dutta_Ode`, Fluid.py:599-684, for one frequency; returns `(Vp, a_w, K_star)`.
The local values `Klowf` and `K_star_gas`, which the function computes and drops, are left out
(they can only add floating point warnings). -/
def White_Dutta_Ode (Kdry Gdry K0 phi rho0 rhofl1 rhofl2 Kfl1 Kfl2 eta1 eta2 kapa a sg freq : α) :
    α × α × Cx α :=
  let omega := 2 * pi * freq
  let b := a / sg **. (1 / 3)
  let K1 := (Gassmann Kdry 0 K0 Kfl1 phi).1
  let K2 := (Gassmann Kdry 0 K0 Kfl2 phi).1
  let G1 := Gdry
  let G2 := G1
  let R1 := (K1 - Kdry) / (1 - Kdry / K0) * (3 * K2 + 4 * G2)
    / (K2 * (3 * K1 + 4 * G2) + 4 * G2 * (K1 - K2) * sg)
  let R2 := (K2 - Kdry) / (1 - Kdry / K0) * (3 * K1 + 4 * G1)
    / (K2 * (3 * K1 + 4 * G2) + 4 * G2 * (K1 - K2) * sg)
  let KA1 := inv (phi / Kfl1 + (1 - phi) / K0 - Kdry / K0 ** 2)
  let KA2 := inv (phi / Kfl2 + (1 - phi) / K0 - Kdry / K0 ** 2)
  let KE1 := White_KE Kdry K0 phi Kfl1 K1 KA1
  let KE2 := White_KE Kdry K0 phi Kfl2 K2 KA2
  let alpha1 := Cx.sqrt (I * ofR omega * ofR eta1 / ofR (kapa * KE1))
  let alpha2 := Cx.sqrt (I * ofR omega * ofR eta2 / ofR (kapa * KE2))
  let Z1 := White_Z1 eta1 kapa a alpha1
  let Z2 := White_Z2 eta2 kapa a b alpha2
  let Q1 := (1 - Kdry / K0) * KA1 / K1
  let Q2 := (1 - Kdry / K0) * KA2 / K2
  let W := ofR (3 * a ** 2 * (R1 - R2) * (-Q1 + Q2))
    / (ofR (b ** 3) * I * ofR omega * (Z1 + Z2))
  let Kinf := (K2 * (3 * K1 + 4 * G2) + 4 * G2 * (K1 - K2) * sg)
    / ((3 * K1 + 4 * G2) - 3 * (K1 - K2) * sg)
  let K_star := ofR Kinf / (ofR 1 - ofR Kinf * W)
  let rho := (1 - phi) * rho0 + phi * sg * rhofl1 + phi * (1 - sg) * rhofl2
  let out := White_wave Gdry rho omega K_star
  (out.1, out.2, K_star)

end RockPhy.Fluid
