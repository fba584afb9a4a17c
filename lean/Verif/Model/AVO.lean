import Verif.Num

/-! # Model of `rockphypy/AVO.py` -/

namespace RockPhy.AVO

variable {α : Type} [PyNum α]

/-- One entry of the array returned by `AVO.AVO_HTI`, AVO.py:10-95, for one pair of angles of the
mesh. -/
def AVO_HTI_entry (D1 D2 : α) (C1 C2 : Mat6 α) (theta azimuth : α) : α :=
  let theta := deg2rad theta
  let azimuth := deg2rad azimuth
  let C11_1 := C1 0 0
  let C13_1 := C1 0 2
  let C33_1 := C1 2 2
  let C44_1 := C1 3 3
  let C55_1 := C1 4 4
  let C66_1 := C1 5 5
  let C11_2 := C2 0 0
  let C13_2 := C2 0 2
  let C33_2 := C2 2 2
  let C44_2 := C2 3 3
  let C55_2 := C2 4 4
  let C66_2 := C2 5 5
  let alpha_1 := sqrt (C33_1 / D1)
  let beta_1 := sqrt (C44_1 / D1)
  let gamma_1 := (C44_1 - C66_1) / (2 * C66_1)
  let epsilon_v_1 := (C11_1 - C33_1) / (2 * C33_1)
  let delta_v_1 := ((C13_1 + C55_1) ** 2 - (C33_1 - C55_1) ** 2) / (2 * C33_1 * (C33_1 - C55_1))
  let Z_1 := D1 * alpha_1
  let mu_1 := D1 * beta_1 ** 2
  let alpha_2 := sqrt (C33_2 / D2)
  let beta_2 := sqrt (C44_2 / D2)
  let gamma_2 := (C44_2 - C66_2) / (2 * C66_2)
  let epsilon_v_2 := (C11_2 - C33_2) / (2 * C33_2)
  let delta_v_2 := ((C13_2 + C55_2) ** 2 - (C33_2 - C55_2) ** 2) / (2 * C33_2 * (C33_2 - C55_2))
  let Z_2 := D2 * alpha_2
  let mu_2 := D2 * beta_2 ** 2
  let dZ := Z_2 - Z_1
  let Z_ := (Z_1 + Z_2) / 2
  let dalpha := alpha_2 - alpha_1
  let alpha_ := (alpha_1 + alpha_2) / 2
  let beta_ := (beta_1 + beta_2) / 2
  let dmu := mu_2 - mu_1
  let mu_ := (mu_1 + mu_2) / 2
  let ddelta := delta_v_2 - delta_v_1
  let dgamma := gamma_2 - gamma_1
  let depsilon := epsilon_v_2 - epsilon_v_1
  0.5 * dZ / Z_
    + 0.5 * (dalpha / alpha_ - (2 * beta_ / alpha_) ** 2 * dmu / mu_
        + (ddelta + 2 * (2 * beta_ / alpha_) ** 2 * dgamma) * cos azimuth ** 2) * sin theta ** 2
    + 0.5 * (dalpha / alpha_ + depsilon * cos azimuth ** 4
        + ddelta * sin azimuth ** 2 * cos azimuth ** 2) * sin theta ** 2 * tan theta ** 2

/-- `AVO.AVO_HTI`, AVO.py:10-95.  `np.meshgrid(theta, azimuth)`: rows follow `azimuth`, columns
follow `theta`.  (The intermediate quantities `beta_v`, `mu_v`, `gamma_v` of the source are not
used by it and are left out.) -/
def AVO_HTI (D1 D2 : α) (C1 C2 : Mat6 α) (theta azimuth : List α) : List (List α) :=
  azimuth.map fun az => theta.map fun th => AVO_HTI_entry D1 D2 C1 C2 th az

/-- `AVO.Aki_Richards`, AVO.py:98-154, for one interface and one angle; returns
`(R_pp, R_ps, Rpp0, gradient)`.  (`np.sin(theta)**2.` is modelled as the square.) -/
def Aki_Richards (theta vp1 vp2 vs1 vs2 den1 den2 : α) : α × α × α × α :=
  let theta := deg2rad theta
  let delta_den := den2 - den1
  let delta_vp := vp2 - vp1
  let delta_vs := vs2 - vs1
  let rho_mean := 0.5 * (den1 + den2)
  let vp_mean := 0.5 * (vp1 + vp2)
  let vs_mean := 0.5 * (vs1 + vs2)
  let Rpp0 := 0.5 * (delta_den / rho_mean + delta_vp / vp_mean)
  let M := -2 * (vs_mean / vp_mean) ** 2 * (2 * delta_vs / vs_mean + delta_den / rho_mean)
  let N := 0.5 * delta_vp / vp_mean
  let R_pp := Rpp0 + M * sin theta ** 2 + N * tan theta ** 2
  let gradient := M + N
  let p := sin theta / vp1
  let cos_theta_s := sqrt (1 - (sin theta ** 2 * (vs1 ** 2 / vp1 ** 2)))
  let R_ps := -0.5 * p * vp_mean / cos_theta_s
    * ((1 - 2 * vs_mean ** 2 * p ** 2
          + 2 * vs_mean ** 2 * cos theta / vp_mean * cos_theta_s / vs_mean) * delta_den / rho_mean
        - (4 * p ** 2 * vs_mean ** 2
          - 4 * vs_mean ** 2 * cos theta / vp_mean * cos_theta_s / vs_mean) * delta_vs / vs_mean)
  (R_pp, R_ps, Rpp0, gradient)

/-- `AVO.zoeppritz`, AVO.py:157-220; returns `(Rpp, Rps)`. -/
def zoeppritz (vp1 vs1 rho1 vp2 vs2 rho2 theta : α) : α × α :=
  let theta1 := deg2rad theta
  let p := sin theta / vp1
  let theta2 := arcsin (p * vp2)
  let phi1 := arcsin (p * vs1)
  let phi2 := arcsin (p * vs2)
  let a := rho2 * (1 - 2 * sin phi2 ** 2) - rho1 * (1 - 2 * sin phi1 ** 2)
  let b := rho2 * (1 - 2 * sin phi2 ** 2) + 2 * rho1 * sin phi1 ** 2
  let c := rho1 * (1 - 2 * sin phi1 ** 2) + 2 * rho2 * sin phi2 ** 2
  let d := 2 * (rho2 * vs2 ** 2 - rho1 * vs1 ** 2)
  let H := a - d * cos theta2 / vp2 * cos phi2 / vs2
  let E := b * cos theta1 / vp1 + c * cos theta2 / vp2
  let F := b * cos phi1 / vs1 + c * cos phi2 / vs2
  let G := a - d * cos theta1 / vp1 * cos phi2 / vs2
  let D := E * F + G * H * p ** 2
  let Rpp := ((b * cos theta1 / vp1 - c * cos theta2 / vp2) * F
    - (a + d * cos theta1 / vp1 * cos phi2 / vs2) * H * p ** 2) / D
  let Rps := (-2 * cos theta1 / vp1 * (a * b + c * d * cos theta2 / vp2 * cos phi2 / vs2) * p * vp1)
    / (vs1 * D)
  (Rpp, Rps)

/-- `AVO.AVO_abe`, AVO.py:223-273; returns `(A, B1, B2, E1, E2)`. -/
def AVO_abe (vp1 vs1 d1 vp2 vs2 d2 : α) : α × α × α × α × α :=
  let da := (d1 + d2) / 2
  let Dd := d2 - d1
  let vpa := (vp1 + vp2) / 2
  let Dvp := vp2 - vp1
  let vsa := (vs1 + vs2) / 2
  let Dvs := vs2 - vs1
  let Ro := 0.5 * ((Dvp / vpa) + (Dd / da))
  let A := Ro
  let poi1 := ((0.5 * (vp1 / vs1) ** 2) - 1) / ((vp1 / vs1) ** 2 - 1)
  let poi2 := ((0.5 * (vp2 / vs2) ** 2) - 1) / ((vp2 / vs2) ** 2 - 1)
  let poia := (poi1 + poi2) / 2
  let Dpoi := poi2 - poi1
  let Bx := (Dvp / vpa) / ((Dvp / vpa) + (Dd / da))
  let Ax := Bx - (2 * (1 + Bx) * (1 - 2 * poia) / (1 - poia))
  let B1 := (Ax * Ro) + (Dpoi / (1 - poia) ** 2)
  let B2 := (-2 * vsa ** 2 * Dd / (vpa ** 2 * da)) + (0.5 * Dvp / vpa) - (4 * vsa * Dvs / (vpa ** 2))
  let E1 := (-0.5 * Dd / da) - ((vsa / vpa) * ((Dd / da) + (2 * Dvs / vsa)))
    + (((vsa / vpa) ** 3) * ((0.5 * Dd / da) + (Dvs / vsa)))
  let E2 := -2 * (vs1 / vp1) * ((Dd / da * (0.5 + (0.25 * vpa / vsa))) + (Dvs / vsa))
  (A, B1, B2, E1, E2)

/-- `np.mean` of a one dimensional array. -/
def mean (l : List α) : α := lsum l / PyNum.nat l.length

/-- One log sample of `AVO.EI_ref`, AVO.py:315-349, at one angle; `ipn`, `isn` and the means are
those computed from the whole log.  Returns `(EI_pp, EI_psv, EI_svp, EI_svsv, EI_shsh)`. -/
def EI_ref_entry (ipn isn mVp mVs mrho : α) (norm : Bool) (Vp Vs rho theta SP : α) :
    α × α × α × α × α :=
  let theta := deg2rad theta
  let p := sin theta / Vp
  let theta_s := arcsin (p * Vs)
  let Vs := if norm then Vs / mVs else Vs
  let Vp := if norm then Vp / mVp else Vp
  let rho := if norm then rho / mrho else rho
  let A := 1 + tan theta ** 2
  let B := -8 * SP ** 2 * sin theta ** 2
  let C := 1 - 4 * SP ** 2 * sin theta ** 2
  let EI_pp := ipn * Vp **. A * Vs **. B * rho **. C
  let B := sin theta / sqrt (1 - SP ** 2 * sin theta ** 2)
    * (4 * sin theta ** 2 * SP ** 2 - 4 * SP * cos theta * sqrt (1 - SP ** 2 * sin theta ** 2))
  let C := -(sin theta) / sqrt (1 - SP ** 2 * sin theta ** 2)
    * (1 - 2 * sin theta ** 2 * SP ** 2 + 2 * SP * cos theta * sqrt (1 - SP ** 2 * sin theta ** 2))
  let EI_psv := ipn * Vs **. B * rho **. C
  let B := sin theta_s / sqrt (1 - 1 / SP ** 2 * sin theta_s ** 2)
    * (4 * sin theta_s ** 2 - 4 * SP * cos theta_s * sqrt (1 - 1 / SP ** 2 * sin theta_s ** 2))
  let C := -(sin theta_s) / sqrt (1 - 1 / SP ** 2 * sin theta_s ** 2)
    * (1 - 2 * sin theta_s ** 2 + 2 * SP * cos theta_s * sqrt (1 - 1 / SP ** 2 * sin theta_s ** 2))
  let EI_svp := isn * Vs **. B * rho **. C
  let B := -1 / cos theta_s ** 2 + 8 * sin theta_s ** 2
  let C := -1 + 4 * sin theta_s ** 2
  let EI_svsv := isn * Vs **. B * rho **. C
  let B := -1 + tan theta_s ** 2
  let EI_shsh := isn * Vs **. B * inv rho
  (EI_pp, EI_psv, EI_svp, EI_svsv, EI_shsh)

/-- `AVO.EI_ref`, AVO.py:276-349, for logs of equal length and one angle; one result per sample.
The means are taken before the logs are normalised, as in the source (`Vp`, then `Vs`, then
`rho` are overwritten one after the other, each mean being taken of a not yet changed log). -/
def EI_ref (Vp Vs rho : List α) (theta SP : α) (norm : Bool) : List (α × α × α × α × α) :=
  let ipn := if norm then mean Vp * mean rho else 1
  let isn := if norm then mean Vs * mean rho else 1
  (List.zip Vp (List.zip Vs rho)).map fun (vp, vs, r) =>
    EI_ref_entry ipn isn (mean Vp) (mean Vs) (mean rho) norm vp vs r theta SP

/-- `AVO.AVO_ortho`, AVO.py:352-419; returns `(Rxz, Ryz)`. -/
def AVO_ortho (a1 b1 e11 d11 e12 d12 g1 rho1 a2 b2 e21 d21 e22 d22 g2 rho2 the : α) : α × α :=
  let Z1 := rho1 * a1
  let Z2 := rho2 * a2
  let G1 := rho1 * b1 * b1
  let G2 := rho2 * b2 * b2
  let G := (G1 + G2) / 2
  let dG := G2 - G1
  let a := (a1 + a2) / 2
  let da := a2 - a1
  let b := (b1 + b2) / 2
  let the := the * pi / 180
  let sthe2 := sin the ** 2
  let tthe2 := tan the ** 2
  let f := (2 * b / a) ** 2
  let Rxz := (Z2 - Z1) / (Z2 + Z1) + 0.5 * (da / a - f * (dG / G - 2 * (g2 - g1)) + d22 - d12) * sthe2
    + 0.5 * (da / a + e22 - e12) * sthe2 * tthe2
  let Ryz := (Z2 - Z1) / (Z2 + Z1) + 0.5 * (da / a - f * dG / G + d21 - d11) * sthe2
    + 0.5 * (da / a + e21 - e11) * sthe2 * tthe2
  (Rxz, Ryz)

end RockPhy.AVO
