import Verif.Py.Tactic
import Verif.Spec.Source
import Verif.Model.GM

/-!
# C105 for `GM`: the source text computes the verified formulas

Each theorem runs the statements of one function of `rockphypy/GM.py`, as they stand in the file,
under Python's rules, on arbitrary arguments of any kind of number, and finds the value or the
exception that the model of the function gives.
-/

namespace RockPhy.Props

open RockPhy.Py RockPhy.Py.Val

variable {α : Type} [PyNum α]

set_option maxRecDepth 8000

theorem C105_GM_ThomasStieber (phi_sand phi_sh vsh : α) :
    Computes 1 n!"GM.ThomasStieber"
      [num phi_sand, num phi_sh, num vsh]
      (returns (GM.ThomasStieber phi_sand phi_sh vsh)) := by
  intro L k; kernel_rfl

theorem C105_GM_silty_shale (C Kq Gq Ksh Gsh : α) :
    Computes 1 n!"GM.silty_shale"
      [num C, num Kq, num Gq, num Ksh, num Gsh]
      (returns (GM.silty_shale C Kq Gq Ksh Gsh)) := by
  intro L k; kernel_rfl

theorem C105_GM_shaly_sand (phis C Kss Gss Kcc Gcc : α) :
    Computes 1 n!"GM.shaly_sand"
      [num phis, num C, num Kss, num Gss, num Kcc, num Gcc]
      (returns (GM.shaly_sand phis C Kss Gss Kcc Gcc)) := by
  intro L k; kernel_rfl

theorem C105_GM_contactcement (K0 G0 Kc Gc phi phic Cn : α) (scheme : Int) :
    Computes 1 n!"GM.contactcement"
      [num K0, num G0, num Kc, num Gc, num phi, num phic, num Cn, int scheme]
      (returns (GM.contactcement K0 G0 Kc Gc phi phic Cn scheme)) := by
  intro L k; unfold GM.contactcement
  cases h1 : Int.instDecidableEq scheme 1 <;> py_eq

theorem C105_GM_hertzmindlin (K0 G0 phic Cn sigma f : α) :
    Computes 1 n!"GM.hertzmindlin"
      [num K0, num G0, num phic, num Cn, num sigma, num f]
      (returns (GM.hertzmindlin K0 G0 phic Cn sigma f)) := by
  intro L k; kernel_rfl

theorem C105_GM_softsand (K0 G0 phi phic Cn sigma f : α) :
    Computes 2 n!"GM.softsand"
      [num K0, num G0, num phi, num phic, num Cn, num sigma, num f]
      (returns (GM.softsand K0 G0 phi phic Cn sigma f)) := by
  intro L k; kernel_rfl

theorem C105_GM_Walton (K0 G0 phic Cn sigma f : α) :
    Computes 1 n!"GM.Walton"
      [num K0, num G0, num phic, num Cn, num sigma, num f]
      (returns (GM.Walton K0 G0 phic Cn sigma f)) := by
  intro L k; kernel_rfl

theorem C105_GM_johnson (K0 G0 n phi epsilon epsilon_axial : α) (path : String) :
    Computes 2 n!"GM.johnson"
      [num K0, num G0, num n, num phi, num epsilon, num epsilon_axial, str path]
      (outcome (GM.johnson K0 G0 n phi epsilon epsilon_axial path)) := by
  intro L k; unfold GM.johnson
  cases h1 : instDecidableEqString path "together" <;> cases h2 : instDecidableEqString path
    "uni_iso" <;> cases h3 : instDecidableEqString path "iso-uni" <;> py_eq

theorem C105_GM_stiffsand (K0 G0 phi phic Cn sigma f : α) :
    Computes 2 n!"GM.stiffsand"
      [num K0, num G0, num phi, num phic, num Cn, num sigma, num f]
      (returns (GM.stiffsand K0 G0 phi phic Cn sigma f)) := by
  intro L k; kernel_rfl

theorem C105_GM_constantcement (phi_b K0 G0 Kc Gc phi phic Cn : α) (scheme : Int) :
    Computes 2 n!"GM.constantcement"
      [num phi_b, num K0, num G0, num Kc, num Gc, num phi, num phic, num Cn, int scheme]
      (returns (GM.constantcement phi_b K0 G0 Kc Gc phi phic Cn scheme)) := by
  intro L k; unfold GM.constantcement GM.contactcement
  cases h1 : Int.instDecidableEq scheme 1 <;> py_eq

theorem C105_GM_MUHS (K0 G0 Kc Gc phi phi_b phic Cn : α) (scheme : Int) :
    Computes 2 n!"GM.MUHS"
      [num K0, num G0, num Kc, num Gc, num phi, num phi_b, num phic, num Cn, int scheme]
      (returns (GM.MUHS K0 G0 Kc Gc phi phi_b phic Cn scheme)) := by
  intro L k; unfold GM.MUHS GM.contactcement
  cases h1 : Int.instDecidableEq scheme 1 <;> py_eq

theorem C105_GM_pcm (f sigma K0 G0 phi phic v_cem v_ci Kc Gc Cn : α) (mode : String) (scheme : Int)
    (f_ : α) :
    Computes 3 n!"GM.pcm"
      [num f, num sigma, num K0, num G0, num phi, num phic, num v_cem, num v_ci, num Kc, num Gc,
        num Cn, str mode, int scheme, num f_]
      (returns (GM.pcm f sigma K0 G0 phi phic v_cem v_ci Kc Gc Cn mode scheme f_)) := by
  intro L k; unfold GM.pcm GM.cemented GM.MUHS GM.contactcement
  cases h1 : PyNum.le v_cem v_ci <;> cases h2 : Int.instDecidableEq scheme 1 <;> cases h3 :
    instDecidableEqString mode "stiff" <;> py_eq

theorem C105_GM_vpcm (alpha f sigma K0 G0 phi phic v_cem v_ci Kc Gc Cn : α) (scheme : Int) (f_ : α)
    :
    Computes 3 n!"GM.vpcm"
      [num alpha, num f, num sigma, num K0, num G0, num phi, num phic, num v_cem, num v_ci, num Kc,
        num Gc, num Cn, int scheme, num f_]
      (returns (GM.vpcm alpha f sigma K0 G0 phi phic v_cem v_ci Kc Gc Cn scheme f_)) := by
  intro L k; unfold GM.vpcm GM.cemented GM.MUHS GM.contactcement
  cases h1 : PyNum.le v_cem v_ci <;> cases h2 : Int.instDecidableEq scheme 1 <;> py_eq

end RockPhy.Props
