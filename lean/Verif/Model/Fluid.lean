import Verif.Model.Utils

/-! # Model of `rockphypy/Fluid.py`

`np.linalg.inv` is a parameter `linv` of the functions that call it; the theorems assume of it
only that it returns the inverse of an invertible matrix. -/

namespace RockPhy.Fluid

variable {α : Type} [PyNum α]

/-- `Fluid.Brie`, Fluid.py:12-34. -/
def Brie (Kw Kgas Sw e : α) : α := (Kw - Kgas) * Sw **. e + Kgas

/-- `Fluid.Biot_HF`, Fluid.py:116-161; returns `(Vp_fast, Vp_slow, Vs)`. -/
def Biot_HF (Kdry Gdry K0 Kfl rho0 rhofl phi alpha : α) : α × α × α :=
  let rho := (1 - phi) * rho0 + phi * rhofl
  let rho12 := (1 - alpha) * phi * rhofl
  let rho22 := alpha * phi * rhofl
  let rho11 := (1 - phi) * rho0 - (1 - alpha) * phi * rhofl
  let T1 := 1 - phi - Kdry / K0
  let T2 := phi * K0 / Kfl
  let R := phi ** 2 * K0 / (T1 + T2)
  let Q := T1 * phi * K0 / (T1 + T2)
  let P := ((1 - phi) * T1 * K0 + T2 * Kdry) / (T1 + T2) + 4 * Gdry / 3
  let Delta := P * rho22 + R * rho11 - 2 * Q * rho12
  let T3 := rho11 * rho22 - rho12 ** 2
  let T4 := P * R - Q ** 2
  let Vp_fast := sqrt ((Delta + sqrt (Delta ** 2 - 4 * T3 * T4)) / (2 * T3))
  let Vp_slow := sqrt ((Delta - sqrt (Delta ** 2 - 4 * T3 * T4)) / (2 * T3))
  let Vs := sqrt (Gdry / (rho - phi * rhofl * inv alpha))
  (Vp_fast, Vp_slow, Vs)

/-- `Fluid.Geertsma_Smit_HF`, Fluid.py:163-201; returns `(Vp_fast, Vs)`. -/
def Geertsma_Smit_HF (Kdry Gdry K0 Kfl rho0 rhofl phi alpha : α) : α × α :=
  let rho := (1 - phi) * rho0 + phi * rhofl
  let rho_biot := rho0 * (1 - phi) + phi * rhofl * (1 - inv alpha)
  let Hdry := Kdry + 4 * Gdry / 3
  let T1 := phi * rho / (rhofl * alpha)
  let alpha_biot := 1 - Kdry / K0
  let Vp_fast := sqrt (1 / rho_biot * (Hdry
    + (T1 + alpha_biot * (alpha_biot - 2 * phi / alpha)) / ((alpha_biot - phi) / K0 + phi / Kfl)))
  let Vs := sqrt (Gdry / rho_biot)
  (Vp_fast, Vs)

/-- `Fluid.Geertsma_Smit_LF`, Fluid.py:203-236. -/
def Geertsma_Smit_LF (Vp0 Vpinf freq phi rhofl kapa eta : α) : α :=
  let fc := phi * eta / (2 * pi * rhofl * kapa)
  let a := (fc / freq) ** 2
  sqrt ((Vpinf ** 4 + Vp0 ** 4 * a) / (Vpinf ** 2 + Vp0 ** 2 * a))

/-- `Fluid.Gassmann`, Fluid.py:238-265; returns `(K_sat, G_sat)`. -/
def Gassmann (K_dry G_dry K_mat Kf phi : α) : α × α :=
  let A := (1 - K_dry / K_mat) ** 2
  let B := phi / Kf + (1 - phi) / K_mat - K_dry / (K_mat ** 2)
  let K_sat := K_dry + A / B
  (K_sat, G_dry)

/-- `Fluid.Gassmann_sub`, Fluid.py:267-293. -/
def Gassmann_sub (phi K0 Ksat1 Kfl1 Kfl2 : α) : α :=
  let a := Ksat1 / (K0 - Ksat1) - Kfl1 / (phi * (K0 - Kfl1)) + Kfl2 / (phi * (K0 - Kfl2))
  a * K0 / (1 + a)

/-- `Fluid.vels`, Fluid.py:295-327; returns `(Vp, Vs, rho)`. -/
def vels (K_dry G_dry K0 D0 Kf Df phi : α) : α × α × α :=
  let rho := D0 * (1 - phi) + Df * phi
  let K := (Gassmann K_dry G_dry K0 Kf phi).1
  let Vp := sqrt ((K + 4. / 3 * G_dry) / rho) * 1e3
  let Vs := sqrt (G_dry / rho) * 1e3
  (Vp, Vs, rho)

/-- `Fluid.Gassmann_vels`, Fluid.py:328-366; returns `(Vp2, Vs2)`. -/
def Gassmann_vels (Vp1 Vs1 rho1 rhofl1 Kfl1 rhofl2 Kfl2 K0 phi : α) : α × α :=
  let rho2 := rho1 - phi * rhofl1 + phi * rhofl2
  let G1 := rho1 * Vs1 ** 2
  let Ksat1 := rho1 * Vp1 ** 2 - (4 / 3) * G1
  let k2 := Gassmann_sub phi K0 Ksat1 Kfl1 Kfl2
  let G2 := G1
  let Vp2 := sqrt ((k2 + (4 / 3) * G2) / rho2)
  let Vs2 := sqrt (G2 / rho2)
  (Vp2, Vs2)

/-- `Fluid.Gassmann_approx`, Fluid.py:368-393. -/
def Gassmann_approx (Msat1 M0 Mfl1 phi Mfl2 : α) : α :=
  let x := Msat1 / (M0 - Msat1) - Mfl1 / (phi * (M0 - Mfl1)) + Mfl2 / (phi * (M0 - Mfl2))
  x * M0 / (1 + x)

/-- `np.sum(S[0:3,:],axis=0)` of a 6x6 array. -/
def rows3 (S : Mat6 α) (j : Fin 6) : α := S 0 j + S 1 j + S 2 j

/-- `np.sum(S[0:3,0:3])` of a 6x6 array. -/
def sum33 (S : Mat6 α) : α := rows3 S 0 + rows3 S 1 + rows3 S 2

/-- `Fluid.Brown_Korringa_dry2sat`, Fluid.py:395-432. -/
def Brown_Korringa_dry2sat (linv : Mat6 α → Except PyErr (Mat6 α)) (Sdry : Mat6 α)
    (K0 G0 Kfl phi : α) : Except PyErr (Mat6 α) := do
  let beta0 := 1 / K0
  let betadry := sum33 Sdry
  let betafl := 1 / Kfl
  let S0 ← linv (utils.write_iso K0 G0)
  let Sprime := fun j => rows3 Sdry j - rows3 S0 j
  let denom := (betafl - beta0) * phi + (betadry - beta0)
  return fun i j => Sdry i j - Sprime i * Sprime j / denom

/-- `Fluid.Brown_Korringa_sat2dry`, Fluid.py:434-471. -/
def Brown_Korringa_sat2dry (linv : Mat6 α → Except PyErr (Mat6 α)) (Ssat : Mat6 α)
    (K0 G0 Kfl phi : α) : Except PyErr (Mat6 α) := do
  let beta0 := 1 / K0
  let betasat := sum33 Ssat
  let betafl := 1 / Kfl
  let S0 ← linv (utils.write_iso K0 G0)
  let Sprime := fun j => rows3 Ssat j - rows3 S0 j
  let denom := (betafl - beta0) * phi - (betasat - beta0)
  return fun i j => Ssat i j + Sprime i * Sprime j / denom

/-- `Fluid.Brown_Korringa_sub`, Fluid.py:473-504; returns `(Csat2, Ssat2)`. -/
def Brown_Korringa_sub (linv : Mat6 α → Except PyErr (Mat6 α)) (Csat : Mat6 α)
    (K0 G0 Kfl1 Kfl2 phi : α) : Except PyErr (Mat6 α × Mat6 α) := do
  let Ssat ← linv Csat
  let Sdry ← Brown_Korringa_sat2dry linv Ssat K0 G0 Kfl1 phi
  let Ssat2 ← Brown_Korringa_dry2sat linv Sdry K0 G0 Kfl2 phi
  let Csat2 ← linv Ssat2
  return (Csat2, Ssat2)

/-- `Fluid.Mavko_Jizba`, Fluid.py:506-552; returns `(Kuf_sat, Guf_sat, Vp_hf, Vs_hf)`. -/
def Mavko_Jizba (Vp_hs Vs_hs Vpdry Vsdry K0 rhodry rhofl Kfl phi : α) : α × α × α × α :=
  let M := utils.M_from_V rhodry Vpdry Vsdry
  let Kdry := M.1
  let Gdry := M.2
  let Khs := (utils.M_from_V rhodry Vp_hs Vs_hs).1
  let Kuf := Khs
  let Kuf_sat := (Gassmann Kuf 1 K0 Kfl phi).1
  let Guf_sat_inv := 1 / Gdry - 4 / 15 * (1 / Kdry - 1 / Kuf)
  let Guf_sat := 1 / Guf_sat_inv
  let rho_sat := rhodry + phi * rhofl
  let v := utils.V Kuf_sat Guf_sat rho_sat
  (Kuf_sat, Guf_sat, v.1, v.2)

/-- `Fluid.Squirt_anisotropic`, Fluid.py:554-597, for the arrays `[S11 S12 S13 S33 S44]`. -/
def Squirt_anisotropic (Sdry Sdry_hp : Fin 5 → α) : Fin 5 → α :=
  let DSdry := fun i => Sdry i - Sdry_hp i
  let DSdry_aabb := 2 * DSdry 0 + 2 * DSdry 1 + 4 * DSdry 2 + DSdry 3
  let D_Sdry := fun i => DSdry i / DSdry_aabb
  let D_Sdry_abab := 2 * D_Sdry 0 + D_Sdry 3 + 4 * D_Sdry 4 + 4 * (D_Sdry 0 - D_Sdry 1)
  let alpha := 0.25 * (D_Sdry_abab - 1)
  let T := 1 - 4 * alpha
  let G11 := D_Sdry 0 - 4 * alpha / T * (D_Sdry 1 + D_Sdry 2)
  let G12 := D_Sdry 1 / T
  let G13 := D_Sdry 2 / T
  let G33 := D_Sdry 3 - 8 * alpha * D_Sdry 2 / T
  let G44 := D_Sdry 4 / T - (D_Sdry 0 + D_Sdry 2) / (4 * T) + (G11 + G33) / 4
  let G : Fin 5 → α := ![G11, G12, G13, G33, G44]
  fun i => Sdry i - DSdry_aabb * G i

end RockPhy.Fluid
