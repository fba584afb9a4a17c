import Verif.Model.Fluid

/-! # Model of `rockphypy/BW.py` (Batzle and Wang fluid properties) -/

namespace RockPhy.BW

variable {α : Type} [PyNum α]

/-- `BW.dz_dp`, BW.py:16-24. -/
def dz_dp (P_pr T_pr : α) : α :=
  (0.03 + 0.00527 * (3.5 - T_pr) ** 3)
    + 0.109 * (3.85 - T_pr) ** 2 * 1.2 * P_pr **. 0.2 * -(0.45 + 8 * (0.56 - 1 / T_pr) ** 2) / T_pr
      * exp (-(0.45 + 8 * (0.56 - 1 / T_pr) ** 2) * P_pr **. 1.2 / T_pr)

/-- `BW.pseudo_p_t`, BW.py:28-52; returns `(Ta, P_pr, T_pr)`. -/
def pseudo_p_t (P T G : α) : α × α × α :=
  let Ta := T + 273.15
  let P_pr := P / (4.892 - 0.4048 * G)
  let T_pr := Ta / (94.72 + 170.75 * G)
  (Ta, P_pr, T_pr)

/-- The common tail of `rho_K_co2` and `rho_K_gas`, BW.py:85-93 and 118-126 (same text in both):
density and modulus from absolute temperature and reduced coordinates. -/
def rho_K_reduced (P G Ta P_pr T_pr : α) : α × α :=
  let R := 8.3145
  let E := 0.109 * (3.85 - T_pr) ** 2
    * exp (-(0.45 + 8 * (0.56 - 1 / T_pr) ** 2) * P_pr **. 1.2 / T_pr)
  let Z := (0.03 + 0.00527 * (3.5 - T_pr) ** 3) * P_pr
    + (0.642 * T_pr - 0.007 * T_pr ** 4 - 0.52) + E
  let rho := 28.8 * G * P / (Z * R * Ta)
  let r_0 := 0.85 + 5.6 / (P_pr + 2) + 27.1 / (P_pr + 3.5) ** 2 - 8.7 * exp (-0.65 * (P_pr + 1))
  let dzdp := dz_dp P_pr T_pr
  let K := P / (1 - P_pr * dzdp / Z) * r_0
  (rho, K / 1000)

/-- `BW.rho_K_co2`, BW.py:56-93. -/
def rho_K_co2 (P T G : α) : α × α :=
  let Ta := T + 273.15
  let P_pr := P / 7.4
  let T_pr := Ta / (31.1 + 273.5)
  rho_K_reduced P G Ta P_pr T_pr

/-- `BW.rho_K_gas`, BW.py:97-126. -/
def rho_K_gas (P T G : α) : α × α :=
  let q := pseudo_p_t P T G
  rho_K_reduced P G q.1 q.2.1 q.2.2

/-- `BW.rho_K_oil`, BW.py:130-153. -/
def rho_K_oil (P T den : α) : α × α :=
  let rho_p := den + (0.00277 * P - 1.71 * 0.0000001 * P ** 3) * (den - 1.15) ** 2
    + 3.49 * 0.0001 * P
  let rho := rho_p / (0.972 + 3.81 * 0.0001 * (T + 17.78) **. 1.175)
  let v := 2096 * (den / (2.6 - den)) **. 0.5 - 3.7 * T + 4.64 * P
    + 0.0115 * (4.12 * (1.08 / den - 1) **. 0.5 - 1) * T * P
  let K := rho * v ** 2
  (rho, K / 1e6)

/-- `BW.rho_K_go`, BW.py:157-190; `Rg = none` is the Python `None`. -/
def rho_K_go (P T den G : α) (Rg : Option α) : α × α :=
  let Rg := match Rg with
    | none => 0.02123 * G * (P * exp (4.072 / den - 0.00377 * T)) **. 1.205
    | some r => r
  let B := 0.972 + 0.00038 * (2.4 * Rg * (G / den) **. 0.5 + T + 17.8) **. 1.175
  let rho_p := den * inv (1 + 0.001 * Rg) * inv B
  let v := 2096 * (rho_p / (2.6 - rho_p)) **. 0.5 - 3.7 * T + 4.64 * P
    + 0.0115 * (4.12 * (1.08 / rho_p - 1) **. 0.5 - 1) * T * P
  let rho_g := (den + 0.0012 * G * Rg) / B
  let K := rho_g * v ** 2
  (rho_g, K / 1e6)

/-- The coefficient table of `BW.v_water`, BW.py:243-247. -/
def waterCoef : Fin 5 → Fin 4 → α :=
  ![![1.40285e+03, 1.52400e+00, 3.43700e-03, -1.19700e-05],
    ![4.87100e+00, -1.11000e-02, 1.73900e-04, -1.62800e-06],
    ![-4.78300e-02, 2.74700e-04, -2.13500e-06, 1.23700e-08],
    ![1.48700e-04, -6.50300e-07, -1.45500e-08, 1.32700e-10],
    ![-2.19700e-07, 7.98700e-10, 5.23000e-11, -4.61400e-13]]

/-- `BW.v_water`, BW.py:222-250 (the warning for high pressure: `Verif/Model/Warn.lean`). -/
def v_water (T P : α) : α :=
  lsum ((List.finRange 5).flatMap fun i => (List.finRange 4).map fun j =>
    waterCoef i j * T ** i.val * P ** j.val)

/-- `BW.rho_K_water`, BW.py:195-219. -/
def rho_K_water (T P : α) : α × α :=
  let rho_w := 1 + 1e-6 * (-80 * T - 3.3 * T ** 2 + 0.00175 * T ** 3 + 489 * P - 2 * T * P
    + 0.016 * P * T ** 2 - 1.3e-5 * T ** 3 * P - 0.333 * P ** 2 - 0.002 * T * P ** 2)
  let v_w := v_water T P
  let K_w := rho_w * v_w ** 2 * 1e-6
  (rho_w, K_w)

/-- `BW.v_brine`, BW.py:280-303. -/
def v_brine (T P S : α) : α :=
  let v_w := v_water T P
  let s1 := 1170 - 9.6 * T + 0.055 * T ** 2 - 8.5e-5 * T ** 3 + 2.6 * P - 0.0029 * T * P
    - 0.0476 * P ** 2
  let s15 := 780 - 10 * P + 0.16 * P ** 2
  let s2 := -820
  v_w + s1 * S + s15 * S **. 1.5 + s2 * S ** 2

/-- `BW.rho_K_brine`, BW.py:253-277. -/
def rho_K_brine (T P S : α) : α × α :=
  let rho_w := (rho_K_water T P).1
  let x := 300 * P - 2400 * P * S + T * (80 + 3 * T - 3300 * S - 13 * P + 47 * P * S)
  let rho_b := rho_w + S * (0.668 + 0.44 * S + 1e-6 * x)
  let v_b := v_brine T P S
  let K_b := rho_b * v_b ** 2 * 1e-6
  (rho_b, K_b)

/-- `BW.co2_brine`, BW.py:306-340; returns `(den_mix, Kf_mix)`.  `brie = none` is the Python
`None`; `bw` is the test `bw is True`. -/
def co2_brine (temperature pressure salinity Sco2 : α) (brie : Option α) (bw : Bool) : α × α :=
  let G := 1.5349
  let co2 := if bw then rho_K_gas pressure temperature G else rho_K_co2 pressure temperature G
  let b := rho_K_brine temperature pressure salinity
  let den_mix := (1 - Sco2) * b.1 + Sco2 * co2.1
  let Kf_mix := match brie with
    | none => inv ((1 - Sco2) / b.2 + Sco2 / co2.2)
    | some e => Fluid.Brie b.2 co2.2 (1 - Sco2) e
  (den_mix, Kf_mix)

end RockPhy.BW
