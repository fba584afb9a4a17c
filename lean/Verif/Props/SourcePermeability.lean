import Verif.Py.Tactic
import Verif.Spec.Source
import Verif.Model.Perm

/-!
# C105 for `Permeability`: the source text computes the verified formulas

Each theorem runs the statements of one function of `rockphypy/Perm.py`, as they stand in the file,
under Python's rules, on arbitrary arguments of any kind of number, and finds the value or the
exception that the model of the function gives.
-/

namespace RockPhy.Props

open RockPhy.Py RockPhy.Py.Val

variable {α : Type} [PyNum α]

set_option maxRecDepth 8000

theorem C105_Permeability_Kozeny_Carman (phi d : α) :
    Computes 1 n!"Permeability.Kozeny_Carman"
      [num phi, num d]
      (returns (Permeability.Kozeny_Carman phi d)) := by
  intro L k; kernel_rfl

theorem C105_Permeability_Kozeny_Carman_Percolation (phi phic d B : α) :
    Computes 1 n!"Permeability.Kozeny_Carman_Percolation"
      [num phi, num phic, num d, num B]
      (returns (Permeability.Kozeny_Carman_Percolation phi phic d B)) := by
  intro L k; kernel_rfl

theorem C105_Permeability_Owolabi (phi Swi : α) :
    Computes 1 n!"Permeability.Owolabi"
      [num phi, num Swi]
      (returns (Permeability.Owolabi phi Swi)) := by
  intro L k; kernel_rfl

theorem C105_Permeability_Perm_logs (phi Swi : α) :
    Computes 1 n!"Permeability.Perm_logs"
      [num phi, num Swi]
      (returns (Permeability.Perm_logs phi Swi)) := by
  intro L k; kernel_rfl

theorem C105_Permeability_Panda_Lake (d C S tau phi : α) :
    Computes 1 n!"Permeability.Panda_Lake"
      [num d, num C, num S, num tau, num phi]
      (returns (Permeability.Panda_Lake d C S tau phi)) := by
  intro L k; kernel_rfl

theorem C105_Permeability_Panda_Lake_cem (phi d : α) :
    Computes 1 n!"Permeability.Panda_Lake_cem"
      [num phi, num d]
      (returns (Permeability.Panda_Lake_cem phi d)) := by
  intro L k; kernel_rfl

theorem C105_Permeability_Revil (phi d : α) :
    Computes 1 n!"Permeability.Revil"
      [num phi, num d]
      (returns (Permeability.Revil phi d)) := by
  intro L k; kernel_rfl

theorem C105_Permeability_Fredrich (phi d b : α) :
    Computes 1 n!"Permeability.Fredrich"
      [num phi, num d, num b]
      (returns (Permeability.Fredrich phi d b)) := by
  intro L k; kernel_rfl

theorem C105_Permeability_Bloch (S C D : α) :
    Computes 1 n!"Permeability.Bloch"
      [num S, num C, num D]
      (returns (Permeability.Bloch S C D)) := by
  intro L k; kernel_rfl

theorem C105_Permeability_Bernabe (phi crf w r : α) :
    Computes 1 n!"Permeability.Bernabe"
      [num phi, num crf, num w, num r]
      (returns (Permeability.Bernabe phi crf w r)) := by
  intro L k; kernel_rfl

end RockPhy.Props
