import Verif.Model.Utils
import Verif.Lemmas.Elastic

/-! Closed forms of the functions in `Verif/Model/Utils.lean` on finite inputs. -/

namespace RockPhy

theorem map_fin_injective {C D : Matrix (Fin 6) (Fin 6) ℝ} (h : C.map Fl.fin = D.map Fl.fin) :
    C = D := by
  ext i j
  have := congrFun (congrFun h i) j
  simpa using this

end RockPhy

namespace RockPhy.utils

open Fl Spec

theorem V_eval {K G rho : ℝ} (hr : 0 < rho) (hG : 0 ≤ G) (hM : 0 ≤ K + 4 / 3 * G) :
    V (fin K) (fin G) (fin rho)
      = (fin (Real.sqrt ((K + 4 / 3 * G) / rho) * 1e3), fin (Real.sqrt (G / rho) * 1e3)) := by
  have h4 : (4. : ℝ) = 4 := by norm_num
  have hM' : 0 ≤ K + 4. / 3 * G := by rwa [h4]
  rw [← h4]
  fl_eval [V]

theorem poi_eval {K G : ℝ} (h : 6 * K + 2 * G ≠ 0) :
    poi (fin K) (fin G) = fin ((3 * K - 2 * G) / (6 * K + 2 * G)) := by
  fl_eval [poi]

theorem lame_eval (K G : ℝ) : lame (fin K) (fin G) = fin (K - 2 * G / 3) := by
  fl_eval [lame]

theorem M_from_V_eval (den vp vs : ℝ) :
    M_from_V (fin den) (fin vp) (fin vs)
      = (fin (den * 1000 * (vp ^ 2 - 4 * vs ^ 2 / 3) / 10 ^ 9), fin (den * 1000 * vs ^ 2 / 10 ^ 9)) := by
  fl_eval [M_from_V]

theorem crack_por_eval (crd alpha : ℝ) :
    crack_por (fin crd) (fin alpha) = fin (4 * Real.pi * alpha * crd / 3) := by
  fl_eval [crack_por]

theorem write_matrix_eval (C11 C22 C33 C12 C13 C23 C44 C55 C66 : ℝ) :
    write_matrix (fin C11) (fin C22) (fin C33) (fin C12) (fin C13) (fin C23) (fin C44) (fin C55)
      (fin C66) = (orthoMatrix C11 C22 C33 C12 C13 C23 C44 C55 C66).map fin := by
  ext i j
  simp only [write_matrix, fl]
  fin_cases i <;> fin_cases j <;> rfl

theorem write_VTI_matrix_eval (C11 C33 C13 C44 C66 : ℝ) :
    write_VTI_matrix (fin C11) (fin C33) (fin C13) (fin C44) (fin C66)
      = (vtiMatrix C11 C33 C13 C44 C66).map fin := by
  ext i j
  simp only [write_VTI_matrix, fl]
  fin_cases i <;> fin_cases j <;> rfl

theorem write_HTI_matrix_eval (C11 C33 C13 C44 C55 : ℝ) :
    write_HTI_matrix (fin C11) (fin C33) (fin C13) (fin C44) (fin C55)
      = (htiMatrix C11 C33 C13 C44 C55).map fin := by
  ext i j
  simp only [write_HTI_matrix, fl]
  fin_cases i <;> fin_cases j <;> rfl

theorem write_VTI_compliance_eval (S11 S12 S13 S33 S44 : ℝ) :
    write_VTI_compliance (fin S11) (fin S12) (fin S13) (fin S33) (fin S44)
      = (orthoMatrix S11 S11 S33 S12 S13 S13 S44 S44 (2 * (S11 - S12))).map fin := by
  ext i j
  simp only [write_VTI_compliance, fl]
  fin_cases i <;> fin_cases j <;> rfl

theorem write_iso_eval (K G : ℝ) : write_iso (fin K) (fin G) = (isoMatrix K G).map fin := by
  ext i j
  have h : K - 2 * G / 3 + 2 * G = K + 4 * G / 3 := by ring
  fl_eval [write_iso, h]
  fin_cases i <;> fin_cases j <;> rfl

end RockPhy.utils
