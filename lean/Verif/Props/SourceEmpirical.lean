import Verif.Py.Tactic
import Verif.Spec.Source
import Verif.Model.Emp

/-!
# C105 for `Empirical`: the source text computes the verified formulas

Each theorem runs the statements of one function of `rockphypy/Emp.py`, as they stand in the file,
under Python's rules, on arbitrary arguments of any kind of number, and finds the value or the
exception that the model of the function gives.
-/

namespace RockPhy.Props

open RockPhy.Py RockPhy.Py.Val

variable {α : Type} [PyNum α]

set_option maxRecDepth 8000

theorem C105_Empirical_krief (phi Kg Gg : α) :
    Computes 1 n!"Empirical.krief"
      [num phi, num Kg, num Gg]
      (returns (Empirical.krief phi Kg Gg)) := by
  intro L k; kernel_rfl

theorem C105_Empirical_esti_VS (Vp vsh : α) :
    Computes 1 n!"Empirical.esti_VS"
      [num Vp, num vsh]
      (returns (Empirical.esti_VS Vp vsh)) := by
  intro L k; kernel_rfl

theorem C105_Empirical_han (phi C : α) :
    Computes 1 n!"Empirical.han"
      [num phi, num C]
      (returns (Empirical.han phi C)) := by
  intro L k; kernel_rfl

theorem C105_Empirical_ehrenberg (Z : α) :
    Computes 1 n!"Empirical.ehrenberg"
      [num Z]
      (returns (Empirical.ehrenberg Z)) := by
  intro L k; kernel_rfl

theorem C105_Empirical_ramm_porosity (Z : α) (HB : Bool) :
    Computes 1 n!"Empirical.ramm_porosity"
      [num Z, bool HB]
      (returns (Empirical.ramm_porosity Z HB)) := by
  intro L k; cases HB <;> kernel_rfl

theorem C105_Empirical_empirical_StPeter (Pe : α) (sample : Int) :
    Computes 1 n!"Empirical.empirical_StPeter"
      [num Pe, int sample]
      (outcome (Empirical.empirical_StPeter Pe sample)) := by
  intro L k; unfold Empirical.empirical_StPeter
  cases h1 : Int.instDecidableEq sample 1 <;> cases h2 : Int.instDecidableEq sample 2 <;> py_eq

theorem C105_Empirical_Scherbaum (Z : α) :
    Computes 1 n!"Empirical.Scherbaum"
      [num Z]
      (returns (Empirical.Scherbaum Z)) := by
  intro L k; kernel_rfl

theorem C105_Empirical_Sclater (phi : α) :
    Computes 1 n!"Empirical.Sclater"
      [num phi]
      (returns (Empirical.Sclater phi)) := by
  intro L k; kernel_rfl

theorem C105_Empirical_Storvoll (Z : α) :
    Computes 1 n!"Empirical.Storvoll"
      [num Z]
      (returns (Empirical.Storvoll Z)) := by
  intro L k; kernel_rfl

theorem C105_Empirical_Hillis (Z : α) :
    Computes 1 n!"Empirical.Hillis"
      [num Z]
      (returns (Empirical.Hillis Z)) := by
  intro L k; kernel_rfl

theorem C105_Empirical_hjelstuen (Z : α) :
    Computes 1 n!"Empirical.hjelstuen"
      [num Z]
      (returns (Empirical.hjelstuen Z)) := by
  intro L k; kernel_rfl

theorem C105_Empirical_Cp (phi : α) :
    Computes 1 n!"Empirical.Cp"
      [num phi]
      (returns (Empirical.Cp phi)) := by
  intro L k; kernel_rfl

end RockPhy.Props
