import Verif.Tests.Util
import Verif.Model.EM
import Verif.Model.Anisotropy

/-! Executable comparison of the model (at `Float`) with `/repo/pytest/test_utils.py`,
`test_Anisotropy.py` and `test_EM.py`.  Tests, not proofs. -/

namespace RockPhy.Tests

open utils Anisotropy EM

#guard approx2 (V 37 44 2.65) (6008.379892351815, 4074.7728261714988)
#guard approx (poi 37 44) 0.07419354838709677
#guard approx (lame 37 44) 7.666666666666668
#guard approx2 (M_from_V 2.65 6000 4000) (38.866666666666674, 42.4)
#guard approxM (write_HTI_matrix 40 20 10 5 30)
  [[40, 10, 10, 0, 0, 0], [10, 20, 10, 0, 0, 0], [10, 10, 20, 0, 0, 0], [0, 0, 0, 5, 0, 0],
   [0, 0, 0, 0, 30, 0], [0, 0, 0, 0, 0, 30]]
#guard approxM (write_VTI_compliance 0.02916667 (-0.00416667) (-0.0125) 0.0625 0.2)
  [[0.02916667, -0.00416667, -0.0125, 0, 0, 0], [-0.00416667, 0.02916667, -0.0125, 0, 0, 0],
   [-0.0125, -0.0125, 0.0625, 0, 0, 0], [0, 0, 0, 0.2, 0, 0], [0, 0, 0, 0, 0.2, 0],
   [0, 0, 0, 0, 0, 0.06666667]]
#guard approxM (write_VTI_matrix 40 20 10 5 15)
  [[40, 10, 10, 0, 0, 0], [10, 40, 10, 0, 0, 0], [10, 10, 20, 0, 0, 0], [0, 0, 0, 5, 0, 0],
   [0, 0, 0, 0, 5, 0], [0, 0, 0, 0, 0, 15]]
#guard approxM (write_matrix 40 5 20 10 10 20 5 30 15)
  [[40, 10, 10, 0, 0, 0], [10, 5, 20, 0, 0, 0], [10, 20, 20, 0, 0, 0], [0, 0, 0, 5, 0, 0],
   [0, 0, 0, 0, 30, 0], [0, 0, 0, 0, 0, 15]]
#guard approxM (write_iso 37 44)
  [[95.66666667, 7.66666667, 7.66666667, 0, 0, 0], [7.66666667, 95.66666667, 7.66666667, 0, 0, 0],
   [7.66666667, 7.66666667, 95.66666667, 0, 0, 0], [0, 0, 0, 44, 0, 0], [0, 0, 0, 0, 44, 0],
   [0, 0, 0, 0, 0, 44]]
#guard approx (crack_por 0.01 0.1) 0.004188790204786391
#guard approxM (v_to_c_VTI 5.5 2.8 4 3 2.8 2.5)
  [[40, 0.8, 14.55337367, 0, 0, 0], [0.8, 40, 14.55337367, 0, 0, 0],
   [14.55337367, 14.55337367, 75.625, 0, 0, 0], [0, 0, 0, 22.5, 0, 0], [0, 0, 0, 0, 22.5, 0],
   [0, 0, 0, 0, 0, 19.6]]

#guard let r := Thomsen (α := Float) 20 20 10 10 20 2 30
  approx3 (r.1, r.2.1, r.2.2.1) (3606.972956129558, 1607.1738588279738, 2515.5764746872637)
    && approx3 r.2.2.2 (0.0, 0.5, 0.75)
#guard let r := Thomsen_Tsvankin (α := Float) 20 5 20 10 10 20 25 30 15
  approxL [r.1, r.2.1, r.2.2.1, r.2.2.2.1, r.2.2.2.2.1, r.2.2.2.2.2.1, r.2.2.2.2.2.2]
    [-0.375, -10.0, -0.25, 0.0, -3.75, -0.2, 3.0]
#guard okAnd (Backus [0.1, 0.2, 0.7] [15, 20, 10] [20, 10, 15]) fun r =>
  approxL [r.1, r.2.1, r.2.2.1, r.2.2.2.1, r.2.2.2.2]
    [41.098130841121495, 41.12149532710281, 12.429906542056075, 13.953488372093023, 14.5]
#guard okAnd (Backus_log [3, 3.5, 4] [1.55, 1.32, 1.4] [2.2, 2.3, 2.35] [1000, 1700, 2300, 4000])
  fun r => approxL [r.1, r.2.1, r.2.2.1, r.2.2.2.1, r.2.2.2.2.1, r.2.2.2.2.2]
    [29.133954660361283, 29.45167576239999, 20.018242129339992, 4.6065956954832,
      4.6448540000000005, 2.305]
#guard approx3 (vel_azi_HTI (write_HTI_matrix 30 30 15 10 25) 2.3 10)
  (3.88601535, 2.9684892, 3.26694211)
#guard approx3 (vel_azi_VTI (write_VTI_matrix 50 30 15 20 10) 2.3 20)
  (4.05016857, 2.8613027, 2.5204093)
#guard okAnd (Bond_trans (write_VTI_matrix 50 30 15 20 10) 30 3) fun M =>
  approxM M [[44.375, 35.625, 15, 0, 0, -2.16506351], [35.625, 44.375, 15, 0, 0, 2.16506351],
    [15, 15, 30, 0, 0, 0], [0, 0, 0, 20, 0, 0], [0, 0, 0, 0, 20, 0],
    [-2.16506351, 2.16506351, 0, 0, 0, 10]]

#guard okAnd (VRH [0.1, 0.2, 0.7] [10, 20, 30]) fun r =>
  approx3 r (26.0, 23.076923076923077, 24.53846153846154)
#guard approx2 (cripor 47 44 1e-6 0.4) (46.9998825, 43.99989)
#guard okAnd (cripor_reuss 10 2.2 0.4 false) fun r => approx r 4.13533835
#guard approx2 (HS 0.5 40 35 20 15 "upper") (37.4025974, 17.34042553)
#guard approx2 (HS 0.5 50 37 30 20 "upper") (42.99401198, 24.55645161)
#guard let c := Eshelby_Cheng_consts (α := Float) 37 45 0.01 0.1 2.1
  approxL [c.1, c.2.1, c.2.2.1, c.2.2.2.1, c.2.2.2.2]
    [96.00459425, 86.77207515, 6.82580934, 41.68262752, 44.48956533]
#guard okAnd (hudson 37 45 2.1 0 0.1 0.01 1 3) fun M => approxM M
  [[96.97879354, 6.97879354, 6.70613902, 0, 0, 0], [6.97879354, 96.97879354, 6.70613902, 0, 0, 0],
   [6.70613902, 6.70613902, 92.92792646, 0, 0, 0], [0, 0, 0, 43.84179104, 0, 0],
   [0, 0, 0, 0, 43.84179104, 0], [0, 0, 0, 0, 0, 45]]
#guard approx2 (hudson_rand 37 45 2.1 0 0.1 0.01) (36.407517410762416, 34.5451882169223)
#guard approxM (hudson_ortho 37 45 2.1 0 ![0.1, 0.01, 1] ![0.001, 0.01, 0.1])
  [[96.32208655, 6.60756844, 3.31174022, 0, 0, 0], [6.60756844, 95.35527413, 3.24666631, 0, 0, 0],
   [3.31174022, 3.24666631, 46.38868342, 0, 0, 0], [0, 0, 0, 32.25970149, 0, 0],
   [0, 0, 0, 0, 33.30208955, 0], [0, 0, 0, 0, 0, 43.72597015]]
#guard approxM (hudson_cone 37 45 2.1 0 0.1 0.01 30)
  [[96.357946, 6.91943677, 6.84590313, 0, 0, 0], [6.91943677, 96.357946, 6.84590313, 0, 0, 0],
   [6.84590313, 6.84590313, 93.72927864, 0, 0, 0], [0, 0, 0, 44.09224946, 0, 0],
   [0, 0, 0, 0, 44.09224946, 0], [0, 0, 0, 0, 0, 44.6370931]]
-- the published solution of `Berryman_sc` is a root of the modelled residuals
#guard okAnd (Berryman_func 38.20809896060306 22.544608086722757 [47, 35] [30, 20] [0.3, 0.7]
  [0.1, 1.2]) fun r => approx r.1 0 && approx r.2.1 0
#guard okAnd (PQ_vectorize 37 44 [2, 2 + 1/3, 2 + 2/3, 3] [0, 0, 0, 0] [0.005, 0.001, 0.01, 0.1])
  fun r => approxL r.1 [15.72732627, 15.39575083, 11.02069818, 3.90846602]
    && approxL r.2.1 [55.03822226, 250.79531002, 29.06865426, 4.82746831]
#guard approx2 (Swiss_cheese 30 10 0.1) (22.64150943, 8.43373494)
#guard approx2 (Swiss_cheese 50 30 0.3) (29.85074627, 18.90410959)
#guard approx2 (SC 0.1 37 44 10) (30.84267143, 34.82985709)
#guard approx2 (SC 0.3 37 44 10) (17.39208156, 16.94540536)
#guard approx2 (Dilute_crack 37 44 0.1) (30.63915556, 37.65858256)
#guard approx2 (OConnell_Budiansky 37 44 0.1) (29.53604499, 36.51631015)
#guard approx2 (PQ 37 44 2.1 0 0.1) (4.234473045076649, 4.924519092069241)
#guard okAnd (SC_dilute (3 * (13 / 6)) 3 (3 * (13 / 6) * 50) 150 0.1 "stress") fun r =>
  approx2 r (1.18537201, 1.25214408)
#guard approx2 (SC_flex 0.4 100 (3 * (13 / 6)) (3 * (13 / 6) * 50) 3 150)
  (19.66902292, 11.64810309)
#guard approx2 (MT_average 0.25 37 45 37 45 5 10) (10.84269663, 15.77381712)

end RockPhy.Tests
