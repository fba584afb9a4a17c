import Verif.Py.Tactic
import Verif.Spec.Source
import Verif.Model.BW

/-!
# C105 for `BW`: the source text computes the verified formulas

Each theorem runs the statements of one function of `rockphypy/BW.py`, as they stand in the file,
under Python's rules, on arbitrary arguments of any kind of number, and finds the value or the
exception that the model of the function gives.
-/

namespace RockPhy.Props

open RockPhy.Py RockPhy.Py.Val

variable {α : Type} [PyNum α]

set_option maxRecDepth 8000

theorem C105_BW_dz_dp (P_pr T_pr : α) :
    Computes 1 n!"BW.dz_dp"
      [num P_pr, num T_pr]
      (returns (BW.dz_dp P_pr T_pr)) := by
  intro L k; kernel_rfl

theorem C105_BW_pseudo_p_t (P T G : α) :
    Computes 1 n!"BW.pseudo_p_t"
      [num P, num T, num G]
      (returns (BW.pseudo_p_t P T G)) := by
  intro L k; kernel_rfl

theorem C105_BW_rho_K_co2 (P T G : α) :
    Computes 2 n!"BW.rho_K_co2"
      [num P, num T, num G]
      (returns (BW.rho_K_co2 P T G)) := by
  intro L k; kernel_rfl

theorem C105_BW_rho_K_gas (P T G : α) :
    Computes 2 n!"BW.rho_K_gas"
      [num P, num T, num G]
      (returns (BW.rho_K_gas P T G)) := by
  intro L k; kernel_rfl

theorem C105_BW_rho_K_oil (P T den : α) :
    Computes 1 n!"BW.rho_K_oil"
      [num P, num T, num den]
      (returns (BW.rho_K_oil P T den)) := by
  intro L k; kernel_rfl

theorem C105_BW_rho_K_go (P T den G : α) (Rg : Option α) :
    Computes 1 n!"BW.rho_K_go"
      [num P, num T, num den, num G, opt Rg]
      (returns (BW.rho_K_go P T den G Rg)) := by
  intro L k; cases Rg <;> kernel_rfl

theorem C105_BW_rho_K_water (T P : α) :
    Computes 2 n!"BW.rho_K_water"
      [num T, num P]
      (returns (BW.rho_K_water T P)) := by
  intro L k; cases h1 : PyNum.lt (PyNum.nat 100) P <;> py_eq

theorem C105_BW_v_water (T P : α) :
    Computes 1 n!"BW.v_water"
      [num T, num P]
      (returns (BW.v_water T P)) := by
  intro L k; cases h1 : PyNum.lt (PyNum.nat 100) P <;> py_eq

theorem C105_BW_rho_K_brine (T P S : α) :
    Computes 3 n!"BW.rho_K_brine"
      [num T, num P, num S]
      (returns (BW.rho_K_brine T P S)) := by
  intro L k; cases h1 : PyNum.lt (PyNum.nat 100) P <;> py_eq

theorem C105_BW_v_brine (T P S : α) :
    Computes 2 n!"BW.v_brine"
      [num T, num P, num S]
      (returns (BW.v_brine T P S)) := by
  intro L k; cases h1 : PyNum.lt (PyNum.nat 100) P <;> py_eq

theorem C105_BW_co2_brine (temperature pressure salinity Sco2 : α) (brie : Option α) (bw : Bool) :
    Computes 4 n!"BW.co2_brine"
      [num temperature, num pressure, num salinity, num Sco2, opt brie, bool bw]
      (returns (BW.co2_brine temperature pressure salinity Sco2 brie bw)) := by
  intro L k; cases bw <;> cases brie <;> cases h : PyNum.lt (PyNum.nat 100) pressure <;> py_eq

end RockPhy.Props
