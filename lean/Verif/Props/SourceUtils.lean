import Verif.Py.Tactic
import Verif.Spec.Source
import Verif.Model.Utils

/-!
# C105 for `utils`: the source text computes the verified formulas

Each theorem runs the statements of one function of `rockphypy/utils.py`, as they stand in the file,
under Python's rules, on arbitrary arguments of any kind of number, and finds the value or the
exception that the model of the function gives.
-/

namespace RockPhy.Props

open RockPhy.Py RockPhy.Py.Val

variable {α : Type} [PyNum α]

set_option maxRecDepth 8000

theorem C105_utils_V (K G rho : α) :
    Computes 1 n!"utils.V"
      [num K, num G, num rho]
      (returns (utils.V K G rho)) := by
  intro L k; kernel_rfl

theorem C105_utils_poi (K G : α) :
    Computes 1 n!"utils.poi"
      [num K, num G]
      (returns (utils.poi K G)) := by
  intro L k; kernel_rfl

theorem C105_utils_lame (K G : α) :
    Computes 1 n!"utils.lame"
      [num K, num G]
      (returns (utils.lame K G)) := by
  intro L k; kernel_rfl

theorem C105_utils_M_from_V (den vp vs : α) :
    Computes 1 n!"utils.M_from_V"
      [num den, num vp, num vs]
      (returns (utils.M_from_V den vp vs)) := by
  intro L k; kernel_rfl

theorem C105_utils_write_HTI_matrix (C11 C33 C13 C44 C55 : α) :
    Computes 1 n!"utils.write_HTI_matrix"
      [num C11, num C33, num C13, num C44, num C55]
      (returns (utils.write_HTI_matrix C11 C33 C13 C44 C55)) := by
  intro L k; kernel_rfl

theorem C105_utils_write_VTI_compliance (S11 S12 S13 S33 S44 : α) :
    Computes 1 n!"utils.write_VTI_compliance"
      [num S11, num S12, num S13, num S33, num S44]
      (returns (utils.write_VTI_compliance S11 S12 S13 S33 S44)) := by
  intro L k; kernel_rfl

theorem C105_utils_write_VTI_matrix (C11 C33 C13 C44 C66 : α) :
    Computes 1 n!"utils.write_VTI_matrix"
      [num C11, num C33, num C13, num C44, num C66]
      (returns (utils.write_VTI_matrix C11 C33 C13 C44 C66)) := by
  intro L k; kernel_rfl

theorem C105_utils_write_matrix (C11 C22 C33 C12 C13 C23 C44 C55 C66 : α) :
    Computes 1 n!"utils.write_matrix"
      [num C11, num C22, num C33, num C12, num C13, num C23, num C44, num C55, num C66]
      (returns (utils.write_matrix C11 C22 C33 C12 C13 C23 C44 C55 C66)) := by
  intro L k; kernel_rfl

theorem C105_utils_write_iso (K G : α) :
    Computes 1 n!"utils.write_iso"
      [num K, num G]
      (returns (utils.write_iso K G)) := by
  intro L k; kernel_rfl

theorem C105_utils_crack_por (crd alpha : α) :
    Computes 1 n!"utils.crack_por"
      [num crd, num alpha]
      (returns (utils.crack_por crd alpha)) := by
  intro L k; kernel_rfl

theorem C105_utils_v_to_c_VTI (Vp0 Vp45 Vp90 Vs0 Vsh90 den : α) :
    Computes 2 n!"utils.v_to_c_VTI"
      [num Vp0, num Vp45, num Vp90, num Vs0, num Vsh90, num den]
      (returns (utils.v_to_c_VTI Vp0 Vp45 Vp90 Vs0 Vsh90 den)) := by
  intro L k; kernel_rfl

end RockPhy.Props
