import Verif.Py.Tactic
import Verif.Spec.Source
import Verif.Lemmas.PyArray
import Verif.Model.AVO
import Verif.Model.Dispersion
import Verif.Model.EM

/-!
# C105 for functions that return tables, and for `Biot`
-/

namespace RockPhy.Props

open RockPhy.Py RockPhy.Py.Val

variable {α : Type} [PyNum α]

set_option maxRecDepth 8000

theorem C105_AVO_AVO_HTI (D1 D2 : α) (C1 C2 : Mat6 α) (theta azimuth : List α) :
    Computes 1 n!"AVO.AVO_HTI" [num D1, num D2, mat6 C1, mat6 C2, vec theta, vec azimuth]
      (.ok (mat (AVO.AVO_HTI D1 D2 C1 C2 theta azimuth))) := by
  intro L k
  py_arr [matZip_same, List.map_map, Function.comp_def]
  kernel_rfl

/-- Logs of equal length (here the three columns of `l`) and one angle: five arrays with one column. -/
theorem C105_AVO_EI_ref_angle (l : List (α × α × α)) (theta SP : α) (norm : Bool) :
    Computes 1 n!"AVO.EI_ref"
      [vec (l.map (·.1)), vec (l.map (·.2.1)), vec (l.map (·.2.2)), num theta, num SP, .bool norm]
      (let r := AVO.EI_ref (l.map (·.1)) (l.map (·.2.1)) (l.map (·.2.2)) theta SP norm
       .ok (tup [mat (r.map fun x => [x.1]), mat (r.map fun x => [x.2.1]),
         mat (r.map fun x => [x.2.2.1]), mat (r.map fun x => [x.2.2.2.1]),
         mat (r.map fun x => [x.2.2.2.2])])) := by
  intro L k
  unfold AVO.EI_ref
  cases norm <;>
    (py_arr [matZip_cols, List.map_cons, List.map_nil, List.map_map, Function.comp_def]
     simp only [List.zip_map', List.map_map, Function.comp_def, flatten_col]
     kernel_rfl)

/-- Logs of equal length and an array of angles: five tables, one row for each sample and one column
for each angle. -/
theorem C105_AVO_EI_ref (l : List (α × α × α)) (theta : List α) (SP : α) (norm : Bool) :
    Computes 1 n!"AVO.EI_ref"
      [vec (l.map (·.1)), vec (l.map (·.2.1)), vec (l.map (·.2.2)), vec theta, num SP, .bool norm]
      (let mp := AVO.mean (l.map (·.1))
       let ms := AVO.mean (l.map (·.2.1))
       let mr := AVO.mean (l.map (·.2.2))
       let ei (s : α × α × α) (t : α) := AVO.EI_ref_entry (if norm then mp * mr else 1)
         (if norm then ms * mr else 1) mp ms mr norm s.1 s.2.1 s.2.2 t SP
       .ok (tup [mat (l.map fun s => theta.map fun t => (ei s t).1),
         mat (l.map fun s => theta.map fun t => (ei s t).2.1),
         mat (l.map fun s => theta.map fun t => (ei s t).2.2.1),
         mat (l.map fun s => theta.map fun t => (ei s t).2.2.2.1),
         mat (l.map fun s => theta.map fun t => (ei s t).2.2.2.2)])) := by
  intro L k
  cases norm
  · py_arr [bzip_same, matZip_cols, matZip_col_row, matZip_row_col, matZip_col_table,
      matZip_table_col, matZip_table_row, matZip_row_table, matZip_same, List.map_cons,
      List.map_nil, List.map_map, Function.comp_def]
    kernel_rfl
  · py_arr [bzip_same, matZip_cols, matZip_col_row, matZip_row_col, matZip_col_table,
      matZip_table_col, matZip_table_row, matZip_row_table, matZip_same, List.map_cons,
      List.map_nil, List.map_map, Function.comp_def]
    simp only [flatten_col]
    kernel_rfl

/-- Six logs of equal length (the columns of `l`) and an array of angles: two tables, one row for
each interface and one column for each angle, and two arrays with one column. -/
theorem C105_AVO_Aki_Richards_log (theta : List α) (l : List (α × α × α × α × α × α)) :
    Computes 1 n!"AVO.Aki_Richards"
      [vec theta, vec (l.map (·.1)), vec (l.map (·.2.1)), vec (l.map (·.2.2.1)),
        vec (l.map (·.2.2.2.1)), vec (l.map (·.2.2.2.2.1)), vec (l.map (·.2.2.2.2.2))]
      (let r (s : α × α × α × α × α × α) (t : α) :=
         AVO.Aki_Richards t s.1 s.2.1 s.2.2.1 s.2.2.2.1 s.2.2.2.2.1 s.2.2.2.2.2
       .ok (tup [mat (l.map fun s => theta.map fun t => (r s t).1),
         mat (l.map fun s => theta.map fun t => (r s t).2.1),
         mat (l.map fun s => [(r s 0).2.2.1]), mat (l.map fun s => [(r s 0).2.2.2])])) := by
  intro L k
  py_arr [bzip_same, matZip_cols, matZip_col_row, matZip_row_col, matZip_col_table,
      matZip_table_col, matZip_table_row, matZip_row_table, matZip_same, List.map_cons,
      List.map_nil, List.map_map, Function.comp_def]
  simp only [List.map_map, Function.comp_def, List.map_cons, List.map_nil]
  kernel_rfl

/-- Logs of matrix moduli of equal length and an array of porosities: two tables, one row for each
sample and one column for each porosity. -/
theorem C105_EM_Swiss_cheese_log (l : List (α × α)) (phi : List α) :
    Computes 1 n!"EM.Swiss_cheese" [vec (l.map (·.1)), vec (l.map (·.2)), vec phi]
      (.ok (tup [mat (l.map fun s => phi.map fun p => (EM.Swiss_cheese s.1 s.2 p).1),
        mat (l.map fun s => phi.map fun p => (EM.Swiss_cheese s.1 s.2 p).2)])) := by
  intro L k
  py_arr [bzip_same, matZip_cols, matZip_col_list, matZip_col_row, matZip_row_col, matZip_col_table,
      matZip_table_col, matZip_table_row, matZip_row_table, matZip_same, List.map_cons,
      List.map_nil, List.map_map, Function.comp_def]
  simp only [List.map_map, Function.comp_def, List.map_cons, List.map_nil]
  kernel_rfl

/-- Six arrays, one entry for each frequency. -/
theorem C105_Fluid_Biot (jv0 jv1 : Cx α → Cx α)
    (Kdry Gdry K0 Kfl rho0 rhofl eta phi kapa a alpha : α) (freq : List α) (L : Lib α)
    (hL : Bessel L jv0 jv1) (k : Nat) :
    callFn L Source.program (k + 2) n!"Fluid.Biot"
      [num Kdry, num Gdry, num K0, num Kfl, num rho0, num rhofl, num eta, num phi, num kapa, num a,
        num alpha, vec freq] [] =
      (let r := freq.map (Fluid.Biot jv0 jv1 Kdry Gdry K0 Kfl rho0 rhofl eta phi kapa a alpha)
       .ok (tup [vec (r.map (·.1)), vec (r.map (·.2.1)), vec (r.map (·.2.2.1)),
         vec (r.map (·.2.2.2.1)), vec (r.map (·.2.2.2.2.1)), vec (r.map (·.2.2.2.2.2))])) := by
  have h0 : ∀ F l, L F n!"sp.jv" [.int (.ofNat 0), .cvec l] [] = .ok (.cvec (l.map jv0)) :=
    fun F l => (hL F l).1
  have h1 : ∀ F l, L F n!"sp.jv" [.int (.ofNat 1), .cvec l] [] = .ok (.cvec (l.map jv1)) :=
    fun F l => (hL F l).2
  py_arr [h0, h1, bzip_same, select_map, replicate_map, List.length_map, fill_map, fillWith_map,
    each_ok, each_map, List.map_map, Function.comp_def]
  simp only [Bool.cond_eq_ite, List.map_map, Function.comp_def]
  kernel_rfl

end RockPhy.Props
