import Verif.Tests.Util
import Verif.Model.Emp
import Verif.Model.Perm
import Verif.Model.AVO
import Verif.Model.BW
import Verif.Model.QI

/-! Executable comparison of the model (at `Float`) with the expected values in
`/repo/pytest/test_{Emp,Perm,AVO,BW}.py`.  Tests, not proofs. -/

namespace RockPhy.Tests

/-! ## Emp -/
#guard approx3 (Empirical.krief (0.4 : Float) 47 44) (1.37376, 3.42144, 3.65472)
#guard approx3 (Empirical.krief (1e-6 : Float) 47 44) (17.66661367, 43.999868, 46.999859)
#guard approx (Empirical.esti_VS (3000 : Float) 0.1) 1544.70332922
#guard approx (Empirical.esti_VS (3500 : Float) 0.2) 1931.5034334
#guard approx (Empirical.esti_VS (2300 : Float) 0.15) 979.50251832
#guard approx (Empirical.Cp (0.4 : Float)) 8.64

/-! ## Perm -/
#guard approx (1e12 * Permeability.Kozeny_Carman (0.3 : Float) 0.0001) 3.0612244897959185

/-! ## AVO -/
def htiC : Mat6 Float := !![100, 30, 15, 0, 0, 0; 30, 100, 15, 0, 0, 0; 15, 15, 30, 0, 0, 0;
  0, 0, 0, 20, 0, 0; 0, 0, 0, 0, 20, 0; 0, 0, 0, 0, 0, 10]
def htiD : Mat6 Float := !![97, 7, 7, 0, 0, 0; 7, 97, 7, 0, 0, 0; 7, 7, 97, 0, 0, 0;
  0, 0, 0, 45, 0, 0; 0, 0, 0, 0, 45, 0; 0, 0, 0, 0, 0, 45]

#guard (List.zipWith approxL
  (AVO.AVO_HTI 2.2 2.4 htiD htiC [0, 20 / 3, 40 / 3, 20] [0, 20 / 3, 40 / 3, 20])
  [[-0.26513677, -0.23127679, -0.13089322,  0.03261608],
   [-0.26513677, -0.23164028, -0.13233472,  0.02941735],
   [-0.26513677, -0.2327113 , -0.13658373,  0.01998204],
   [-0.26513677, -0.23443248, -0.14341743,  0.00478649]]).all id

#guard let r := AVO.Aki_Richards (40 : Float) 2000 3000 1000 1200 2200 2300
  approx r.1 0.29775439 && approx r.2.1 (-0.08609571) && approx r.2.2.1 0.22222222222222224
    && approx r.2.2.2 0.04199111111111112
#guard let r := AVO.Aki_Richards (40 / 9 : Float) 2000 3000 1000 1200 2200 2300
  approx r.1 0.22248164 && approx r.2.1 (-0.01942277)

#guard approx2 (AVO.zoeppritz (4400 : Float) 3200 2500 2500 1300 2200 0) (-0.33333333, 0)
#guard approx2 (AVO.zoeppritz (4400 : Float) 3200 2500 2500 1300 2200 (40 / 9))
  (0.63570799, 0.06837842)
#guard approx2 (AVO.zoeppritz (4400 : Float) 3200 2500 2500 1300 2200 40) (0.46210946, 0.21227566)

#guard let r := AVO.AVO_abe (1500 : Float) 900 1.5 2500 1000 1
  approx r.1 0.05 && approx r.2.1 0.31447918 && approx r.2.2.1 0.3355
    && approx r.2.2.2.1 0.27984688 && approx r.2.2.2.2 0.36631579
#guard let r := AVO.AVO_abe (1750 : Float) 950 1.85 2750 1100 1.6
  approx r.1 0.14975845 && approx r.2.1 0.14255428 && approx r.2.2.1 0.16089461
    && approx r.2.2.2.1 0.01213751 && approx r.2.2.2.2 0.00614048

#guard match AVO.EI_ref [2500, 2750, 3000] [1500, 1750, 2000] [2, 2.1, 2.2] (40 : Float) 0.5 true with
  | [r, s, t] =>
    approx r.1 5418.791153 && approx r.2.1 6769.41465685 && approx r.2.2.1 4030.1759451
      && approx r.2.2.2.1 3739.56534509 && approx r.2.2.2.2 4382.23399945
      && approx s.1 5775 && approx s.2.2.2.2 3675
      && approx t.1 6164.26231533 && approx t.2.1 5010.44840975 && approx t.2.2.1 3446.06997545
      && approx t.2.2.2.1 3750.17554161 && approx t.2.2.2.2 3163.05498124
  | _ => false

/-! ## BW -/
#guard approx2 (BW.rho_K_co2 (20 : Float) 40 1.2) (0.61592007, 0.11058432)
#guard approx2 (BW.rho_K_co2 (40 : Float) 100 1.2) (0.59403165, 0.20478121)
#guard approx2 (BW.rho_K_gas (20 : Float) 40 1.2) (0.41957204, 0.16693798)
#guard approx2 (BW.rho_K_gas (40 : Float) 100 1.2) (0.41128399, 0.24951797)
#guard approx2 (BW.rho_K_oil (20 : Float) 40 0.88) (0.87622229, 1.84963494)
#guard approx2 (BW.rho_K_oil (40 : Float) 100 0.88) (0.83806654, 1.54822048)
#guard approx2 (BW.rho_K_go (20 : Float) 40 0.88 1.2 (some 85)) (0.78527236, 1.05535966)
#guard approx2 (BW.rho_K_go (40 : Float) 100 0.88 1.2 (some 85)) (0.74238677, 0.8784189)
#guard approx2 (BW.rho_K_water (40 : Float) 20) (1.00014216, 2.4395262)
#guard approx2 (BW.rho_K_water (100 : Float) 40) (0.9773372, 2.59199095)
#guard approx (BW.v_water (40 : Float) 20) 1561.78726157
#guard approx (BW.v_water (100 : Float) 40) 1628.52536
#guard approx2 (BW.rho_K_brine (40 : Float) 20 0.24) (1.17846792, 3.84408197)
#guard approx2 (BW.rho_K_brine (100 : Float) 40 0.24) (1.1488124, 3.8135643)
#guard approx (BW.v_brine (40 : Float) 20 0.24) 1806.0818885
#guard approx (BW.v_brine (100 : Float) 40 0.24) 1821.96898287

/-! ## QI (the repository has no tests for it; the model runs end to end) -/
#guard okAnd (QI.estimate_cem [2800, 3100, 5500] [0.3, 0.3, 0.3]
    [0.0001, 0.02, 0.04, 0.06, 0.08, 0.1] true (36.6 : Float) 45 21 7 0.4 8.6 36.6 45 1 2.5 2 0.05
    2.55 2.65 2.65) fun l => l.length == 3

end RockPhy.Tests
