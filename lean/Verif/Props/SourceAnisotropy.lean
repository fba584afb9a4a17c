import Verif.Py.Tactic
import Verif.Spec.Source
import Verif.Model.Anisotropy

/-!
# C105 for `Anisotropy`: the source text computes the verified formulas

Each theorem runs the statements of one function of `rockphypy/Anisotropy.py`, as they stand in the
file, under Python's rules, on arbitrary arguments of any kind of number, and finds the value or the
exception that the model of the function gives.
-/

namespace RockPhy.Props

open RockPhy.Py RockPhy.Py.Val

variable {α : Type} [PyNum α]

set_option maxRecDepth 8000

theorem C105_Anisotropy_Thomsen (C11 C33 C13 C44 C66 den theta : α) :
    Computes 1 n!"Anisotropy.Thomsen"
      [num C11, num C33, num C13, num C44, num C66, num den, num theta]
      (returns (Anisotropy.Thomsen C11 C33 C13 C44 C66 den theta)) := by
  intro L k; kernel_rfl

theorem C105_Anisotropy_Thomsen_Tsvankin (C11 C22 C33 C12 C13 C23 C44 C55 C66 : α) :
    Computes 1 n!"Anisotropy.Thomsen_Tsvankin"
      [num C11, num C22, num C33, num C12, num C13, num C23, num C44, num C55, num C66]
      (returns (Anisotropy.Thomsen_Tsvankin C11 C22 C33 C12 C13 C23 C44 C55 C66)) := by
  intro L k; kernel_rfl

theorem C105_Anisotropy_vel_azi_HTI (C : Mat6 α) (Den azimuth : α) :
    Computes 1 n!"Anisotropy.vel_azi_HTI"
      [mat6 C, num Den, num azimuth]
      (returns (Anisotropy.vel_azi_HTI C Den azimuth)) := by
  intro L k; kernel_rfl

theorem C105_Anisotropy_vel_azi_VTI (C : Mat6 α) (Den azimuth : α) :
    Computes 1 n!"Anisotropy.vel_azi_VTI"
      [mat6 C, num Den, num azimuth]
      (returns (Anisotropy.vel_azi_VTI C Den azimuth)) := by
  intro L k; kernel_rfl

theorem C105_Anisotropy_Bond_trans (C : Mat6 α) (theta : α) (axis : Int) :
    Computes 1 n!"Anisotropy.Bond_trans"
      [mat6 C, num theta, int axis]
      (outcome (Anisotropy.Bond_trans C theta axis)) := by
  intro L k; unfold Anisotropy.Bond_trans
  cases h1 : Int.instDecidableEq axis 3 <;> cases h2 : Int.instDecidableEq axis 1 <;> py_eq

end RockPhy.Props
