import Verif.Py.Tactic
import Verif.Spec.Source
import Verif.Model.Fluid
import Verif.Model.Dispersion
import Mathlib.Tactic.FinCases

/-!
# C105 for `Fluid`: the source text computes the verified formulas

Each theorem runs the statements of one function of `rockphypy/Fluid.py`, as they stand in the file,
under Python's rules, on arbitrary arguments of any kind of number, and finds the value or the
exception that the model of the function gives.
-/

namespace RockPhy.Props

open RockPhy.Py RockPhy.Py.Val

variable {α : Type} [PyNum α]

set_option maxRecDepth 8000

theorem C105_Fluid_Brie (Kw Kgas Sw e : α) :
    Computes 1 n!"Fluid.Brie"
      [num Kw, num Kgas, num Sw, num e]
      (returns (Fluid.Brie Kw Kgas Sw e)) := by
  intro L k; kernel_rfl

theorem C105_Fluid_Biot_HF (Kdry Gdry K0 Kfl rho0 rhofl phi alpha : α) :
    Computes 1 n!"Fluid.Biot_HF"
      [num Kdry, num Gdry, num K0, num Kfl, num rho0, num rhofl, num phi, num alpha]
      (returns (Fluid.Biot_HF Kdry Gdry K0 Kfl rho0 rhofl phi alpha)) := by
  intro L k; kernel_rfl

theorem C105_Fluid_Geertsma_Smit_HF (Kdry Gdry K0 Kfl rho0 rhofl phi alpha : α) :
    Computes 1 n!"Fluid.Geertsma_Smit_HF"
      [num Kdry, num Gdry, num K0, num Kfl, num rho0, num rhofl, num phi, num alpha]
      (returns (Fluid.Geertsma_Smit_HF Kdry Gdry K0 Kfl rho0 rhofl phi alpha)) := by
  intro L k; kernel_rfl

theorem C105_Fluid_Geertsma_Smit_LF (Vp0 Vpinf freq phi rhofl kapa eta : α) :
    Computes 1 n!"Fluid.Geertsma_Smit_LF"
      [num Vp0, num Vpinf, num freq, num phi, num rhofl, num kapa, num eta]
      (returns (Fluid.Geertsma_Smit_LF Vp0 Vpinf freq phi rhofl kapa eta)) := by
  intro L k; kernel_rfl

theorem C105_Fluid_Gassmann (K_dry G_dry K_mat Kf phi : α) :
    Computes 1 n!"Fluid.Gassmann"
      [num K_dry, num G_dry, num K_mat, num Kf, num phi]
      (returns (Fluid.Gassmann K_dry G_dry K_mat Kf phi)) := by
  intro L k; kernel_rfl

theorem C105_Fluid_Gassmann_sub (phi K0 Ksat1 Kfl1 Kfl2 : α) :
    Computes 1 n!"Fluid.Gassmann_sub"
      [num phi, num K0, num Ksat1, num Kfl1, num Kfl2]
      (returns (Fluid.Gassmann_sub phi K0 Ksat1 Kfl1 Kfl2)) := by
  intro L k; kernel_rfl

theorem C105_Fluid_vels (K_dry G_dry K0 D0 Kf Df phi : α) :
    Computes 2 n!"Fluid.vels"
      [num K_dry, num G_dry, num K0, num D0, num Kf, num Df, num phi]
      (returns (Fluid.vels K_dry G_dry K0 D0 Kf Df phi)) := by
  intro L k; kernel_rfl

theorem C105_Fluid_Gassmann_vels (Vp1 Vs1 rho1 rhofl1 Kfl1 rhofl2 Kfl2 K0 phi : α) :
    Computes 2 n!"Fluid.Gassmann_vels"
      [num Vp1, num Vs1, num rho1, num rhofl1, num Kfl1, num rhofl2, num Kfl2, num K0, num phi]
      (returns (Fluid.Gassmann_vels Vp1 Vs1 rho1 rhofl1 Kfl1 rhofl2 Kfl2 K0 phi)) := by
  intro L k; kernel_rfl

theorem C105_Fluid_Gassmann_approx (Msat1 M0 Mfl1 phi Mfl2 : α) :
    Computes 1 n!"Fluid.Gassmann_approx"
      [num Msat1, num M0, num Mfl1, num phi, num Mfl2]
      (returns (Fluid.Gassmann_approx Msat1 M0 Mfl1 phi Mfl2)) := by
  intro L k; kernel_rfl

theorem C105_Fluid_Mavko_Jizba (Vp_hs Vs_hs Vpdry Vsdry K0 rhodry rhofl Kfl phi : α) :
    Computes 2 n!"Fluid.Mavko_Jizba"
      [num Vp_hs, num Vs_hs, num Vpdry, num Vsdry, num K0, num rhodry, num rhofl, num Kfl, num phi]
      (returns (Fluid.Mavko_Jizba Vp_hs Vs_hs Vpdry Vsdry K0 rhodry rhofl Kfl phi)) := by
  intro L k; kernel_rfl

theorem C105_Fluid_Squirt_anisotropic (Sdry Sdry_hp : Fin 5 → α) :
    Computes 1 n!"Fluid.Squirt_anisotropic"
      [vec [Sdry 0, Sdry 1, Sdry 2, Sdry 3, Sdry 4],
        vec [Sdry_hp 0, Sdry_hp 1, Sdry_hp 2, Sdry_hp 3, Sdry_hp 4]]
      (let S := Fluid.Squirt_anisotropic Sdry Sdry_hp
       .ok (vec [S 0, S 1, S 2, S 3, S 4])) := by
  intro L k; kernel_rfl

theorem C105_Fluid_White_Dutta_Ode
    (Kdry Gdry K0 phi rho0 rhofl1 rhofl2 Kfl1 Kfl2 eta1 eta2 kapa a sg freq : α) :
    Computes 2 n!"Fluid.White_Dutta_Ode"
      [num Kdry, num Gdry, num K0, num phi, num rho0, num rhofl1, num rhofl2, num Kfl1, num Kfl2,
        num eta1, num eta2, num kapa, num a, num sg, num freq]
      (returns (Fluid.White_Dutta_Ode Kdry Gdry K0 phi rho0 rhofl1 rhofl2 Kfl1 Kfl2 eta1 eta2 kapa
        a sg freq)) := by
  intro L k; kernel_rfl

theorem C105_Fluid_Brown_Korringa_dry2sat (linv : Mat6 α → Except PyErr (Mat6 α)) (Sdry : Mat6 α)
    (K0 G0 Kfl phi : α) (L : Lib α) (hL : Inverts L linv) (k : Nat) :
    callFn L Source.program (k + 2) n!"Fluid.Brown_Korringa_dry2sat"
      [mat6 Sdry, num K0, num G0, num Kfl, num phi] [] =
      outcome (Fluid.Brown_Korringa_dry2sat linv Sdry K0 G0 Kfl phi) := by
  have h := hL (callFn L Source.program k) (utils.write_iso K0 G0)
  unfold Fluid.Brown_Korringa_dry2sat
  cases h1 : linv (utils.write_iso K0 G0) <;> rw [h1] at h <;> py_eq

theorem C105_Fluid_Brown_Korringa_sat2dry (linv : Mat6 α → Except PyErr (Mat6 α)) (Ssat : Mat6 α)
    (K0 G0 Kfl phi : α) (L : Lib α) (hL : Inverts L linv) (k : Nat) :
    callFn L Source.program (k + 2) n!"Fluid.Brown_Korringa_sat2dry"
      [mat6 Ssat, num K0, num G0, num Kfl, num phi] [] =
      outcome (Fluid.Brown_Korringa_sat2dry linv Ssat K0 G0 Kfl phi) := by
  have h := hL (callFn L Source.program k) (utils.write_iso K0 G0)
  unfold Fluid.Brown_Korringa_sat2dry
  cases h1 : linv (utils.write_iso K0 G0) <;> rw [h1] at h <;> py_eq

/-- One run of the source, with numbers. -/
example (L : Lib Fl) :
    callFn L Source.program 1 n!"Fluid.Gassmann" [num 10, num 5, num 40, num 2, num 0.2] [] =
      .ok (tup [num (Fl.fin (1360 / 91)), num (Fl.fin 5)]) := by
  rw [C105_Fluid_Gassmann 10 5 40 2 0.2 L 0]
  simp only [returns, Ret.ret, Rets.rets, Fluid.Gassmann]
  fl_eval []
  norm_num

/-- Any inversion can be the one outside the package. -/
example (linv : Mat6 α → Except PyErr (Mat6 α)) : ∃ L : Lib α, Inverts L linv := by
  refine ⟨fun _ _ vs _ => match vs with
    | [mat l] => outcome (linv fun i j => ((l.getD i []).getD j 0))
    | _ => .error .stuck, ?_⟩
  intro F A
  have : (fun i j => (((([[A 0 0, A 0 1, A 0 2, A 0 3, A 0 4, A 0 5],
      [A 1 0, A 1 1, A 1 2, A 1 3, A 1 4, A 1 5], [A 2 0, A 2 1, A 2 2, A 2 3, A 2 4, A 2 5],
      [A 3 0, A 3 1, A 3 2, A 3 3, A 3 4, A 3 5], [A 4 0, A 4 1, A 4 2, A 4 3, A 4 4, A 4 5],
      [A 5 0, A 5 1, A 5 2, A 5 3, A 5 4, A 5 5]] : List (List α)).getD (i : Fin 6) []).getD
        (j : Fin 6) 0))) = A := by
    funext i j; fin_cases i <;> fin_cases j <;> rfl
  simp only [mat6]
  rw [this]

end RockPhy.Props
