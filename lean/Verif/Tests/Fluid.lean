import Verif.Tests.Util
import Verif.Model.Fluid

/-! Executable comparison of the model (at `Float`) with `/repo/pytest/test_Fluid.py`.
Tests, not proofs. -/

namespace RockPhy.Tests

open Fluid

/-- Gauss-Jordan inverse, standing in for `np.linalg.inv` in the tests. -/
def floatInv (A : Mat6 Float) : Except PyErr (Mat6 Float) := Id.run do
  let mut m : Array (Array Float) := Array.ofFn fun i : Fin 6 => Array.ofFn fun j : Fin 12 =>
    if h : j.val < 6 then A i ⟨j.val, h⟩ else if j.val - 6 = i.val then 1 else 0
  for c in [0:6] do
    let mut p := c
    for r in [c:6] do
      if Float.abs (m[r]!)[c]! > Float.abs (m[p]!)[c]! then p := r
    let t := m[c]!
    m := (m.set! c m[p]!).set! p t
    let d := (m[c]!)[c]!
    if d == 0 then return .error .LinAlgError
    m := m.set! c (m[c]!.map (· / d))
    for r in [0:6] do
      if r ≠ c then
        let f := (m[r]!)[c]!
        let row := m[c]!
        m := m.set! r (Array.ofFn fun j : Fin 12 => (m[r]!)[j.val]! - f * row[j.val]!)
  return .ok fun i j => (m[i.val]!)[j.val + 6]!

def fKdry : Float := 0.8 * 2.75 * 2.5 * 2.5 - 4 / 3 * (0.8 * 2.75 * 1.3 * 1.3)
def fGdry : Float := 0.8 * 2.75 * 1.3 * 1.3

#guard approx (Brie 2.1 1.2 (1 / 9) 4) 1.20013717
#guard approx (Brie 2.1 1.2 (8 / 9) 4) 1.76186557
#guard approx3 (Biot_HF fKdry fGdry 37 2.3 2.75 1.2 0.2 2)
  (2.8263748996477673, 0.7779580777841519, 1.2659329393362635)
#guard approx2 (Geertsma_Smit_HF fKdry fGdry 37 2.3 2.75 1.2 0.2 2)
  (2.9314866269776054, 1.2659329393362635)
#guard approx (Geertsma_Smit_LF 2500 3000 0.1 0.2 1.2 0.001 0.1) 2501.12305747
#guard approx (Geertsma_Smit_LF 2500 3000 1000 0.2 1.2 0.001 0.1) 2999.99776048
#guard approx2 (Gassmann fKdry fGdry 37 2.3 0.2) (14.481969751202783, 3.718000000000001)
#guard approx (Gassmann_sub 0.2 37 15 2.3 1.4) 13.0832864
#guard approx (Gassmann_sub 0.2 37 30 2.3 1.4) 29.81683308
#guard approx3 (vels fKdry fGdry 37 2.65 2.3 1.2 0.2)
  (2870.0161728517414, 1255.1588460484033, 2.3600000000000003)
#guard approx2 (Gassmann_vels 3500 1500 2.3 1.2 2.3 0.8 1.4 37 0.2) (1763.02252647, 1526.78783106)
#guard approx2 (Gassmann_vels 4000 3000 2.3 1.2 2.3 0.8 1.4 37 0.2) (3525.98535888, 3053.57566213)
#guard approx (Gassmann_approx 35 65 4 0.2 3) 33.76101321585903

def fC : Mat6 Float := utils.write_matrix 100 100 30 30 15 15 20 20 10
def fS : Mat6 Float := match floatInv fC with | .ok S => S | .error _ => fC

#guard okAnd (Brown_Korringa_dry2sat floatInv fS 37 44 2.3 0.2) fun M => approxM M
  [[0.01125505, -0.00303066, -0.00333797, 0, 0, 0], [-0.00303066, 0.01125505, -0.00333797, 0, 0, 0],
   [-0.00333797, -0.00333797, 0.0333532, 0, 0, 0], [0, 0, 0, 0.05, 0, 0], [0, 0, 0, 0, 0.05, 0],
   [0, 0, 0, 0, 0, 0.1]]
#guard okAnd (Brown_Korringa_sat2dry floatInv fS 37 44 2.3 0.2) fun M => approxM M
  [[0.01179714, -0.00248858, -0.0056612, 0, 0, 0], [-0.00248858, 0.01179714, -0.0056612, 0, 0, 0],
   [-0.0056612, -0.0056612, 0.0433099, 0, 0, 0], [0, 0, 0, 0.05, 0, 0], [0, 0, 0, 0, 0.05, 0],
   [0, 0, 0, 0, 0, 0.1]]
#guard okAnd (Brown_Korringa_sub floatInv fC 37 44 2.3 1.4 0.2) fun M => approxM M.1
  [[99.53530254, 29.53530254, 15.6970462, 0, 0, 0], [29.53530254, 99.53530254, 15.6970462, 0, 0, 0],
   [15.6970462, 15.6970462, 28.95443071, 0, 0, 0], [0, 0, 0, 20, 0, 0], [0, 0, 0, 0, 20, 0],
   [0, 0, 0, 0, 0, 10]]
#guard let r := Mavko_Jizba (α := Float) 4500 3500 2500 1500 37 2.4 1.2 2.1 0.2
  approxL [r.1, r.2.1, r.2.2.1, r.2.2.2] [14.458807159572448, 5.57519432, 2879.68324683, 1453.20887391]
#guard let r := Mavko_Jizba (α := Float) 4500 3500 4000 3000 37 2.4 1.2 2.1 0.2
  approxL [r.1, r.2.1, r.2.2.1, r.2.2.2] [14.458807159572448, 21.32773109, 4030.93069323, 2842.30294301]
def fSquirt : Fin 5 → Float :=
  Squirt_anisotropic ![0.01, 0, 0.04, 0.05, 0.1] ![0.015, 0.1, 0.045, 0.15, 0.15]

#guard approxL [fSquirt 0, fSquirt 1, fSquirt 2, fSquirt 3, fSquirt 4]
  [0.07253425, 0.04520548, 0.04226027, 0.15547945, 0.16347603]

end RockPhy.Tests
