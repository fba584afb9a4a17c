import Verif.Py.Tactic
import Verif.Spec.Source
import Verif.Lemmas.PyArray
import Verif.Model.QI

/-!
# C105 for `rockphypy/QI.py`
-/

namespace RockPhy.Props

open RockPhy.Py RockPhy.Py.Val

variable {α : Type} [PyNum α]

set_option maxRecDepth 8000

theorem C105_QI_matrix_modulus (vsh phi_c M_sh M_g M_c : α) (phi_0 : List α) :
    Computes 2 n!"QI.matrix_modulus" [num vsh, num phi_c, vec phi_0, num M_sh, num M_g, num M_c]
      (outcome (phi_0.mapM fun p => QI.matrix_modulus vsh phi_c p M_sh M_g M_c)) := by
  intro L k
  unfold QI.matrix_modulus
  cases h : PyNum.eq vsh (0 : α)
  · simp only [Bool.false_eq_true, if_false]
    refine Eq.trans ?_ (congrArg outcome (mapM_ok _ _).symm)
    py_arr [bzip_same, vrows_three, transpose_three, each_map, each_ok, ofPy_ok, dot_three,
      List.map_cons, List.map_nil, List.map_map, Function.comp_def]
    simp only [List.map_map, Function.comp_def]
    kernel_rfl
  · simp only [if_true]
    refine Eq.trans ?_ (congrArg outcome (mapM_ok _ _).symm)
    py_arr [bzip_same, vrows_two, transpose_two, each_map, each_ok, ofPy_ok, dot_two,
      List.map_cons, List.map_nil, List.map_map, Function.comp_def]
    simp only [List.map_map, Function.comp_def]
    kernel_rfl

/-- A single porosity gives an array with one entry. -/
theorem C105_QI_matrix_modulus_scalar (vsh phi_c phi_0 M_sh M_g M_c : α) :
    Computes 2 n!"QI.matrix_modulus" [num vsh, num phi_c, num phi_0, num M_sh, num M_g, num M_c]
      (outcome ((QI.matrix_modulus vsh phi_c phi_0 M_sh M_g M_c).map fun m => [m])) := by
  intro L k
  unfold QI.matrix_modulus
  cases h : PyNum.eq vsh (0 : α) <;> py_eq

theorem C105_QI_den_matrix (vsh phi_c den_sh den_g den_c : α) (phi_0 : List α) :
    Computes 2 n!"QI.den_matrix" [num vsh, num phi_c, vec phi_0, num den_sh, num den_g, num den_c]
      (outcome (phi_0.mapM fun p => QI.den_matrix vsh phi_c p den_sh den_g den_c)) := by
  intro L k
  refine Eq.trans ?_ (congrArg outcome (mapM_ok _ _).symm)
  py_arr [bzip_same, vrows_three, transpose_three, each_map, each_ok, ofPy_ok, dot_three,
    List.map_cons, List.map_nil, List.map_map, Function.comp_def]
  kernel_rfl

theorem C105_QI_den_matrix_scalar (vsh phi_c phi_0 den_sh den_g den_c : α) :
    Computes 2 n!"QI.den_matrix" [num vsh, num phi_c, num phi_0, num den_sh, num den_g, num den_c]
      (outcome ((QI.den_matrix vsh phi_c phi_0 den_sh den_g den_c).map fun m => [m])) := by
  intro L k
  kernel_rfl

theorem C105_QI_normalize (density : List α) :
    Computes 1 n!"QI.normalize" [vec density] (outcome (QI.normalize density)) := by
  intro L k
  cases density with
  | nil => kernel_rfl
  | cons a l =>
    py_arr []
    simp only [List.map_map, Function.comp_def]
    kernel_rfl

theorem C105_QI_cal_v_const (Dqz Kqz Gqz Dsh Ksh Gsh Dc Kc Gc Db Kb phi_b phi_c vsh : α)
    (phi : List α) (scheme : Int) :
    Computes 4 n!"QI.cal_v_const"
      [num Dqz, num Kqz, num Gqz, num Dsh, num Ksh, num Gsh, num Dc, num Kc, num Gc, num Db, num Kb,
        num phi_b, num phi_c, num vsh, vec phi, int scheme]
      (arrays2 (phi.mapM fun p => QI.cal_v_const Dqz Kqz Gqz Dsh Ksh Gsh Dc Kc Gc Db Kb phi_b phi_c
        vsh p scheme)) := by
  intro L k
  refine Eq.trans ?_ (congrArg arrays2 (mapM_ok _ _).symm)
  cases h1 : Int.instDecidableEq scheme 1 <;>
    (py_arr [bzip_same, List.map_map, Function.comp_def]
     simp only [ofPy_ok, arrays2, Except.map, List.map_map, Function.comp_def, GM.constantcement,
       GM.contactcement, ite_true, ite_false, *]
     kernel_rfl)

theorem C105_QI_cal_v_const_scalar
    (Dqz Kqz Gqz Dsh Ksh Gsh Dc Kc Gc Db Kb phi_b phi_c vsh phi : α) (scheme : Int) :
    Computes 4 n!"QI.cal_v_const"
      [num Dqz, num Kqz, num Gqz, num Dsh, num Ksh, num Gsh, num Dc, num Kc, num Gc, num Db, num Kb,
        num phi_b, num phi_c, num vsh, num phi, int scheme]
      (outcome (QI.cal_v_const Dqz Kqz Gqz Dsh Ksh Gsh Dc Kc Gc Db Kb phi_b phi_c vsh phi
        scheme)) := by
  intro L k; unfold QI.cal_v_const GM.constantcement GM.contactcement
  cases h1 : Int.instDecidableEq scheme 1 <;> py_eq

/-- `hs`: `np.nan` can be stored in an array of computed velocities. -/
theorem C105_QI_cst_vels (phi_b K0 D0 G0 phi_c Cn Kc Gc Db Kb : α) (phi : List α) (scheme : Int)
    (vsh Dsh Dqz Dc : α) (hs : ∀ a b : α, PyNum.store (sqrt a * b) QI.npnan = QI.npnan) :
    Computes 4 n!"QI.cst_vels"
      [num phi_b, num K0, num D0, num G0, vec phi, num phi_c, num Cn, num Kc, num Gc, num Db, num Kb,
        int scheme, num vsh, num Dsh, num Dqz, num Dc]
      (arrays2 (phi.mapM fun p => QI.cst_vels phi_b K0 D0 G0 p phi_c Cn Kc Gc Db Kb scheme vsh Dsh
        Dqz Dc)) := by
  intro L k
  have hs' : ∀ a b : α, PyNum.store (sqrt a * b) (PyNum.nat 0 / PyNum.nat 0) =
    PyNum.nat 0 / PyNum.nat 0 := hs
  refine Eq.trans ?_ (congrArg arrays2 (mapM_ok _ _).symm)
  cases h1 : Int.instDecidableEq scheme 1 <;>
    (py_arr [bzip_same, bzip_one_left, fill_map, each, Except.bind, Except.map, transpose_num,
       vrows_num, ofPy_ok, dot_three, List.map_cons, List.map_nil, List.map_map, Function.comp_def]
     simp only [cmpNum_gt, Bool.cond_eq_ite, ofPy_ok, arrays2, Except.map, List.map_map,
       Function.comp_def, GM.constantcement, GM.contactcement, ite_true, ite_false, *]
     kernel_rfl)

set_option maxHeartbeats 1000000 in
/-- `hs`: `np.nan` can be stored in an array of computed velocities. -/
theorem C105_QI_screening (Dqz Kqz Gqz Dsh Ksh Gsh Dc Kc Gc Db Kb phib_p phi_c sigma vsh : α)
    (scheme : Int) (f Cn : α) (hs : ∀ a b : α, PyNum.store (sqrt a * b) QI.npnan = QI.npnan) :
    Computes 4 n!"QI.screening"
      [num Dqz, num Kqz, num Gqz, num Dsh, num Ksh, num Gsh, num Dc, num Kc, num Gc, num Db, num Kb,
        num phib_p, num phi_c, num sigma, num vsh, int scheme, num f, num Cn]
      (arrays7 (QI.screening Dqz Kqz Gqz Dsh Ksh Gsh Dc Kc Gc Db Kb phib_p phi_c sigma vsh scheme f
        Cn)) := by
  intro L k
  have hs' : ∀ a b : α, PyNum.store (sqrt a * b) (PyNum.nat 0 / PyNum.nat 0) =
    PyNum.nat 0 / PyNum.nat 0 := hs
  unfold QI.screening QI.screening_entry QI.matrix_modulus
  cases h : PyNum.eq vsh (0 : α)
  · simp only [Bool.false_eq_true, if_false]
    refine Eq.trans ?_ (congrArg arrays7 (mapM_ok _ _).symm)
    cases h1 : Int.instDecidableEq scheme 1 <;>
      (py_arr [bzip_same, bzip_left, bzip_right, fill_map, vrows_three, transpose_three, each_map,
         each_ok, ofPy_ok, dot_three, List.map_cons, List.map_nil, List.map_map, Function.comp_def]
       simp only [cmpNum_gt, Bool.cond_eq_ite, ofPy_ok, arrays7, Except.map, List.map_map,
         Function.comp_def, GM.MUHS, GM.contactcement, ite_true, ite_false, *]
       kernel_rfl)
  · simp only [if_true]
    refine Eq.trans ?_ (congrArg arrays7 (mapM_ok _ _).symm)
    cases h1 : Int.instDecidableEq scheme 1 <;>
      (py_arr [bzip_same, bzip_left, bzip_right, fill_map, vrows_two, vrows_three, transpose_two,
         transpose_three, each_map, each_ok, ofPy_ok, dot_two, dot_three, List.map_cons,
         List.map_nil, List.map_map, Function.comp_def]
       simp only [cmpNum_gt, Bool.cond_eq_ite, ofPy_ok, arrays7, Except.map, List.map_map,
         Function.comp_def, GM.MUHS, GM.contactcement, ite_true, ite_false, *]
       kernel_rfl)

/-- Non-vacuity: floating point arrays accept `np.nan`, and the library can have the Bessel
functions. -/
example : (∀ a b : Fl, PyNum.store (sqrt a * b) QI.npnan = QI.npnan) ∧
    ∃ L : Lib Fl, Bessel L id id :=
  ⟨fun _ _ => rfl, fun _ _ vs _ => .ok (vs.getD 1 .none), fun _ _ => by simp⟩

end RockPhy.Props
