import Verif.Py.Tactic
import Verif.Spec.Source
import Verif.Model.AVO

/-!
# C105 for `AVO`: the source text computes the verified formulas

Each theorem runs the statements of one function of `rockphypy/AVO.py`, as they stand in the file,
under Python's rules, on arbitrary arguments of any kind of number, and finds the value or the
exception that the model of the function gives.
-/

namespace RockPhy.Props

open RockPhy.Py RockPhy.Py.Val

variable {α : Type} [PyNum α]

set_option maxRecDepth 8000

theorem C105_AVO_Aki_Richards (theta vp1 vp2 vs1 vs2 den1 den2 : α) :
    Computes 1 n!"AVO.Aki_Richards"
      [num theta, num vp1, num vp2, num vs1, num vs2, num den1, num den2]
      (returns (AVO.Aki_Richards theta vp1 vp2 vs1 vs2 den1 den2)) := by
  intro L k; kernel_rfl

theorem C105_AVO_zoeppritz (vp1 vs1 rho1 vp2 vs2 rho2 theta : α) :
    Computes 1 n!"AVO.zoeppritz"
      [num vp1, num vs1, num rho1, num vp2, num vs2, num rho2, num theta]
      (returns (AVO.zoeppritz vp1 vs1 rho1 vp2 vs2 rho2 theta)) := by
  intro L k; kernel_rfl

theorem C105_AVO_AVO_abe (vp1 vs1 d1 vp2 vs2 d2 : α) :
    Computes 1 n!"AVO.AVO_abe"
      [num vp1, num vs1, num d1, num vp2, num vs2, num d2]
      (returns (AVO.AVO_abe vp1 vs1 d1 vp2 vs2 d2)) := by
  intro L k; kernel_rfl

theorem C105_AVO_AVO_ortho (a1 b1 e11 d11 e12 d12 g1 rho1 a2 b2 e21 d21 e22 d22 g2 rho2 the : α) :
    Computes 1 n!"AVO.AVO_ortho"
      [num a1, num b1, num e11, num d11, num e12, num d12, num g1, num rho1, num a2, num b2, num
        e21, num d21, num e22, num d22, num g2, num rho2, num the]
      (returns (AVO.AVO_ortho a1 b1 e11 d11 e12 d12 g1 rho1 a2 b2 e21 d21 e22 d22 g2 rho2 the)) :=
        by
  intro L k; kernel_rfl

end RockPhy.Props
