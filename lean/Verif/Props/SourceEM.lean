import Verif.Py.Tactic
import Verif.Spec.Source
import Verif.Model.EM

/-!
# C105 for `EM`: the source text computes the verified formulas

Each theorem runs the statements of one function of `rockphypy/EM.py`, as they stand in the file,
under Python's rules, on arbitrary arguments of any kind of number, and finds the value or the
exception that the model of the function gives.
-/

namespace RockPhy.Props

open RockPhy.Py RockPhy.Py.Val

variable {α : Type} [PyNum α]

set_option maxRecDepth 8000

theorem C105_EM_VRH (volumes M : List α) :
    Computes 1 n!"EM.VRH"
      [vec volumes, vec M]
      (outcome (EM.VRH volumes M)) := by
  intro L k; unfold EM.VRH
  cases h1 : dot volumes M <;> cases h2 : dot volumes (M.map (fun m => 1 / m)) <;> py_eq

theorem C105_EM_cripor (K0 G0 phi phic : α) :
    Computes 1 n!"EM.cripor"
      [num K0, num G0, num phi, num phic]
      (returns (EM.cripor K0 G0 phi phic)) := by
  intro L k; kernel_rfl

theorem C105_EM_HS (f K1 K2 G1 G2 : α) (bound : String) :
    Computes 1 n!"EM.HS"
      [num f, num K1, num K2, num G1, num G2, str bound]
      (returns (EM.HS f K1 K2 G1 G2 bound)) := by
  intro L k; unfold EM.HS
  cases h1 : instDecidableEqString bound "upper" <;> py_eq

theorem C105_EM_hudson (K G Ki Gi alpha crd : α) (order axis : Int) :
    Computes 2 n!"EM.hudson"
      [num K, num G, num Ki, num Gi, num alpha, num crd, int order, int axis]
      (outcome (EM.hudson K G Ki Gi alpha crd order axis)) := by
  intro L k; unfold EM.hudson EM.hudson_consts EM.hudson_matrix
  cases h1 : Int.instDecidableEq order 1 <;> cases h2 : Int.instDecidableEq order 2 <;> cases h3 :
    Int.instDecidableEq axis 3 <;> cases h4 : Int.instDecidableEq axis 1 <;> py_eq

theorem C105_EM_hudson_rand (K G Ki Gi alpha crd : α) :
    Computes 1 n!"EM.hudson_rand"
      [num K, num G, num Ki, num Gi, num alpha, num crd]
      (returns (EM.hudson_rand K G Ki Gi alpha crd)) := by
  intro L k; kernel_rfl

theorem C105_EM_hudson_cone (K G Ki Gi alpha crd theta : α) :
    Computes 2 n!"EM.hudson_cone"
      [num K, num G, num Ki, num Gi, num alpha, num crd, num theta]
      (returns (EM.hudson_cone K G Ki Gi alpha crd theta)) := by
  intro L k; kernel_rfl

theorem C105_EM_Swiss_cheese (Ks Gs phi : α) :
    Computes 1 n!"EM.Swiss_cheese"
      [num Ks, num Gs, num phi]
      (returns (EM.Swiss_cheese Ks Gs phi)) := by
  intro L k; kernel_rfl

theorem C105_EM_OConnell_Budiansky (K0 G0 crd : α) :
    Computes 1 n!"EM.OConnell_Budiansky"
      [num K0, num G0, num crd]
      (returns (EM.OConnell_Budiansky K0 G0 crd)) := by
  intro L k; kernel_rfl

theorem C105_EM_PQ (Km Gm Ki Gi alpha : α) :
    Computes 1 n!"EM.PQ"
      [num Km, num Gm, num Ki, num Gi, num alpha]
      (returns (EM.PQ Km Gm Ki Gi alpha)) := by
  intro L k; unfold EM.PQ EM.PQ_theta
  cases h1 : PyNum.eq alpha (PyNum.nat 1) <;> cases h2 : PyNum.lt alpha (PyNum.nat 1) <;> py_eq

theorem C105_EM_SC_dilute (Km Gm Ki Gi f : α) (mode : String) :
    Computes 1 n!"EM.SC_dilute"
      [num Km, num Gm, num Ki, num Gi, num f, str mode]
      (outcome (EM.SC_dilute Km Gm Ki Gi f mode)) := by
  intro L k; unfold EM.SC_dilute
  cases h1 : instDecidableEqString mode "stress" <;> cases h2 : instDecidableEqString mode "strain"
    <;> py_eq

theorem C105_EM_MT_average (f Kmat Gmat K1 G1 K2 G2 : α) :
    Computes 1 n!"EM.MT_average"
      [num f, num Kmat, num Gmat, num K1, num G1, num K2, num G2]
      (returns (EM.MT_average f Kmat Gmat K1 G1 K2 G2)) := by
  intro L k; kernel_rfl

theorem C105_EM_cripor_reuss (M0 Mf phic : α) (den : Bool) :
    Computes 2 n!"EM.cripor_reuss" [num M0, num Mf, num phic, Val.bool den]
      ((ofPy (EM.cripor_reuss M0 Mf phic den)).map fun v => vec [v]) := by
  intro L k; cases den <;> kernel_rfl

theorem C105_EM_Eshelby_Cheng (K G phi alpha Kf : α) (mat : Bool) :
    Computes 2 n!"EM.Eshelby_Cheng"
      [num K, num G, num phi, num alpha, num Kf, Val.bool mat]
      (.ok (match EM.Eshelby_Cheng K G phi alpha Kf mat with
        | .inl (C11, C33, C13, C44, C66) => vec [C11, C33, C13, C44, C66]
        | .inr M => mat6 M)) := by
  intro L k; cases mat <;> kernel_rfl

theorem C105_EM_hudson_ortho (K G Ki Gi : α) (alpha crd : Fin 3 → α) :
    Computes 2 n!"EM.hudson_ortho"
      [num K, num G, num Ki, num Gi, vec [alpha 0, alpha 1, alpha 2], vec [crd 0, crd 1, crd 2]]
      (returns (EM.hudson_ortho K G Ki Gi alpha crd)) := by
  intro L k; kernel_rfl

theorem C105_EM_Dilute_crack (Ks Gs cd : α) :
    Computes 1 n!"EM.Dilute_crack" [num Ks, num Gs, num cd]
      (returns (EM.Dilute_crack Ks Gs cd)) := by
  intro L k; kernel_rfl

theorem C105_EM_OC_R_funcs (nu_eff D crd nu_0 w : α) :
    Computes 1 n!"EM.OC_R_funcs" [tup [num nu_eff, num D], num crd, num nu_0, num w]
      (returns (EM.OC_R_funcs nu_eff D crd nu_0 w)) := by
  intro L k; kernel_rfl

theorem C105_EM_DEM (K_eff G_eff t Gi Ki alpha : α) :
    Computes 2 n!"EM.DEM" [tup [num K_eff, num G_eff], num t, tup [num Gi, num Ki, num alpha]]
      (returns (EM.DEM K_eff G_eff t Gi Ki alpha)) := by
  intro L k; unfold EM.DEM EM.PQ EM.PQ_theta
  cases h1 : PyNum.eq alpha (PyNum.nat 1) <;> cases h2 : PyNum.lt alpha (PyNum.nat 1) <;> py_eq

theorem C105_EM_OConnell_Budiansky_fl (fsolve : (α × α → α × α) → α × α → α × α)
    (K0 G0 Kfl crd alpha : α) (L : Lib α) (hL : Fsolve L fsolve) (k : Nat) :
    callFn L Source.program (k + 3) n!"EM.OConnell_Budiansky_fl"
      [num K0, num G0, num Kfl, num crd, num alpha] [] =
      returns (EM.OConnell_Budiansky_fl fsolve K0 G0 Kfl crd alpha) := by
  have h := hL (callFn L Source.program (k + 1)) n!"EM.OC_R_funcs"
    [num crd, num ((3 * K0 - 2 * G0) / (6 * K0 + 2 * G0)), num (Kfl / alpha / K0)] (0.2, 0.9)
    (fun p => EM.OC_R_funcs p.1 p.2 crd ((3 * K0 - 2 * G0) / (6 * K0 + 2 * G0)) (Kfl / alpha / K0))
    (fun p => C105_EM_OC_R_funcs p.1 p.2 _ _ _ L k)
  py_eq

/-- A solver that takes one step, and functions outside the package that use it. -/
example : ∃ (L : Lib α) (fsolve : (α × α → α × α) → α × α → α × α), Fsolve L fsolve := by
  refine ⟨fun F _ vs kw => match vs, kw with
    | [fn f, x], [(_, tup as)] => match F f (x :: as) [] with
      | .ok (tup [num a, num b]) => .ok (vec [a, b])
      | r => r
    | _, _ => .error .stuck, fun r x => r x, ?_⟩
  intro F f as x r h
  simp [h x, returns, Ret.ret, Rets.rets]

end RockPhy.Props
