import Verif.Tests.Util
import Verif.Model.GM

/-! Executable comparison of the model (at `Float`) with `/repo/pytest/test_GM.py`.
Tests, not proofs. -/

namespace RockPhy.Tests

open GM

#guard approx2 (ThomasStieber 0.3 0.2 0.25) ((0.1 : Float), 0.275)
#guard approx2 (ThomasStieber 0.3 0.2 0.75) ((0.15 : Float), 0.225)
#guard approx2 (contactcement (36.6 : Float) 45 36.6 45 1e-7 0.4 8.6 2) (15.23060407, 20.63320692)
#guard approx2 (contactcement (36.6 : Float) 45 36.6 45 0.4 0.4 8.6 2) (0.04975205, 0.12356857)
#guard approx2 (hertzmindlin (36.6 : Float) 45 0.4 8.6 20 1) (1.9063198609211909, 2.802805417138183)
#guard approx2 (softsand (36.6 : Float) 45 0.20000005 0.4 8.6 20 0.5) (5.50294039, 5.22047177)
#guard approx2 (softsand (36.6 : Float) 45 0.4 0.4 8.6 20 0.5) (1.90631986, 1.97329867)
#guard approx2 (Walton (36.6 : Float) 45 0.4 8.6 20 0.5) (1.9063198609211907, 1.9732986668454486)
#guard approx2 (stiffsand (36.6 : Float) 45 0.20000005 0.4 8.6 20 0.5) (15.45629949, 16.29187542)
#guard approx2 (constantcement 0.3 (36.6 : Float) 45 36.6 45 0.4 0.4 8.6 2) (4.48617491, 7.48484988)
#guard approx2 (MUHS (36.6 : Float) 45 36.6 45 0.4 0.3 0.4 8.6 2) (1.94767854, 5.01406624)
#guard approx2 (pcm 0.5 20 (36.6 : Float) 45 0.4 0.4 0.1 0.111 36.6 45 8.6 "stiff" 2 0)
  (4.49985482, 4.55850738)
#guard approx2 (pcm 0.5 20 (36.6 : Float) 45 1e-7 0.4 0.1 0.111 36.6 45 8.6 "stiff" 2 0)
  (36.59996762, 44.9999437)

def johnsonTest : Except PyErr (Mat6 Float × Float × Float) :=
  johnson 37 44 6 0.36 (-0.03) (-0.05) "together"

#guard match johnsonTest with
  | .ok (C, s33, s11) =>
    approx (C 0 0) 13.55173859 && approx (C 0 1) 2.99195167 && approx (C 0 2) 0.10545295 &&
    approx (C 2 2) 14.1114226 && approx (C 3 3) 6.14910708 && approx (C 5 5) 5.27989346 &&
    approx s33 (-0.7568273233538366) && approx s11 (-0.21993424428637734)
  | .error _ => false
#guard match (johnson 37 44 6 0.36 (-0.03) (-0.05) "iso_uni" : Except PyErr (Mat6 Float × _)) with
  | .ok _ => false
  | .error e => e == .UnboundLocalError

/-- Roots of `z^3 + p z + q` with `p > 0` (one real root, by Cardano; a conjugate pair), standing in
for `np.roots` in the test. -/
def cubicRoots (_ _ p q : Float) : List (Float × Float) :=
  let d := Float.sqrt (q * q / 4 + p * p * p / 27)
  let r := Float.cbrt (-q / 2 + d) + Float.cbrt (-q / 2 - d)
  [(-r / 2, 1), (-r / 2, -1), (r, 0)]

#guard match Digby cubicRoots 37 44 0.36 9 20 0.2 with
  | ([k], [g]) => approx k 5.81155426 && approx g 8.51375906
  | _ => false

end RockPhy.Tests
