import Verif.Lemmas.Defined
import Verif.Model.Utils
import Verif.Model.EM
import Verif.Model.GM
import Verif.Model.Fluid
import Verif.Model.Anisotropy
import Verif.Model.AVO
import Verif.Model.BW
import Verif.Model.Emp
import Verif.Model.Perm
import Verif.Model.QI

/-!
# C111: numbers also at the edges and outside the physical range

The same formulas as in `Verif/Props/Defined.lean` with the weakest conditions under which the closure
rules apply: zero porosity, zero moduli, and arguments that may be any number at all.
-/

namespace RockPhy.Props

open Spec Fl

/-! ## `utils` -/

theorem C111_utils_V_wide (K G rho : Fl) (h0 : NonNeg K) (h1 : NonNeg G) (h2 : Pos rho) :
    NonNeg (utils.V K G rho).1
    ∧ NonNeg (utils.V K G rho).2 := by
  refine ⟨?_, ?_⟩ <;> num_def [utils.V]

theorem C111_utils_poi_wide (K G : Fl) (h0 : NonNeg K) (h1 : Pos G) :
    Number (utils.poi K G) := by
  num_def [utils.poi]

theorem C111_utils_lame_wide (K G : Fl) (h0 : Number K) (h1 : Number G) :
    Number (utils.lame K G) := by
  num_def [utils.lame]

theorem C111_utils_M_from_V_wide (den vp vs : Fl) (h0 : Number den) (h1 : Number vp)
    (h2 : Number vs) :
    Number (utils.M_from_V den vp vs).1
    ∧ Number (utils.M_from_V den vp vs).2 := by
  refine ⟨?_, ?_⟩ <;> num_def [utils.M_from_V]

theorem C111_utils_crack_por_wide (crd alpha : Fl) (h0 : Number crd) (h1 : Number alpha) :
    Number (utils.crack_por crd alpha) := by
  num_def [utils.crack_por]

/-! ## `EM` -/

theorem C111_EM_cripor_wide (K0 G0 phi phic : Fl) (h0 : Number K0) (h1 : Number G0)
    (h2 : Number phi) (h3 : Pos phic) :
    Number (EM.cripor K0 G0 phi phic).1
    ∧ Number (EM.cripor K0 G0 phi phic).2 := by
  refine ⟨?_, ?_⟩ <;> num_def [EM.cripor]

theorem C111_EM_Swiss_cheese_wide (Ks Gs phi : Fl) (h0 : Pos Ks) (h1 : Pos Gs) (h2 : NonNeg phi) :
    NonNeg (EM.Swiss_cheese Ks Gs phi).1
    ∧ NonNeg (EM.Swiss_cheese Ks Gs phi).2 := by
  refine ⟨?_, ?_⟩ <;> num_def [EM.Swiss_cheese]

/-! ## `GM` -/

theorem C111_GM_silty_shale_wide (C Kq Gq Ksh Gsh : Fl) (h0 : NonNeg C) (h1 : Below C 1)
    (h2 : NonNeg Kq) (h3 : Pos Gq) (h4 : NonNeg Ksh) (h5 : Pos Gsh) :
    Number (GM.silty_shale C Kq Gq Ksh Gsh).1
    ∧ Number (GM.silty_shale C Kq Gq Ksh Gsh).2 := by
  refine ⟨?_, ?_⟩ <;> num_def [GM.silty_shale]

/-! ## `Fluid` -/

theorem C111_Fluid_Brie_wide (Kw Kgas Sw e : Fl) (h0 : Number Kw) (h1 : Number Kgas)
    (h2 : Pos Sw) (h3 : Number e) :
    Number (Fluid.Brie Kw Kgas Sw e) := by
  num_def [Fluid.Brie]

theorem C111_Fluid_Geertsma_Smit_LF_wide (Vp0 Vpinf freq phi rhofl kapa eta : Fl)
    (h0 : NonNeg Vp0) (h1 : Pos Vpinf) (h2 : Pos freq) (h3 : Number phi) (h4 : Pos rhofl)
    (h5 : Pos kapa) (h6 : Number eta) :
    NonNeg (Fluid.Geertsma_Smit_LF Vp0 Vpinf freq phi rhofl kapa eta) := by
  num_def [Fluid.Geertsma_Smit_LF]

/-! ## `Empirical` -/

theorem C111_Empirical_krief_wide (phi Kg Gg : Fl) (h1 : Below phi 1)
    (h2 : Number Kg) (h3 : Number Gg) :
    Number (Empirical.krief phi Kg Gg).1
    ∧ Number (Empirical.krief phi Kg Gg).2.1
    ∧ Number (Empirical.krief phi Kg Gg).2.2 := by
  refine ⟨?_, ?_, ?_⟩ <;> num_def [Empirical.krief]

theorem C111_Empirical_han_wide (phi C : Fl) (h0 : Number phi) (h1 : Number C) :
    Number (Empirical.han phi C).1
    ∧ Number (Empirical.han phi C).2 := by
  refine ⟨?_, ?_⟩ <;> num_def [Empirical.han]

theorem C111_Empirical_Sclater_wide (phi : Fl) (h0 : Pos phi) :
    Number (Empirical.Sclater phi) := by
  num_def [Empirical.Sclater]

theorem C111_Empirical_Cp_wide (phi : Fl) (h0 : Number phi) :
    Number (Empirical.Cp phi) := by
  num_def [Empirical.Cp]

/-! ## `Permeability` -/

theorem C111_Permeability_Kozeny_Carman_wide (phi d : Fl) (h0 : NonNeg phi) (h1 : Below phi 1)
    (h2 : Number d) :
    NonNeg (Permeability.Kozeny_Carman phi d) := by
  num_def [Permeability.Kozeny_Carman]

theorem C111_Permeability_Owolabi_wide (phi Swi : Fl) (h0 : Number phi) (h1 : Number Swi) :
    Number (Permeability.Owolabi phi Swi).1
    ∧ Number (Permeability.Owolabi phi Swi).2 := by
  refine ⟨?_, ?_⟩ <;> num_def [Permeability.Owolabi]

theorem C111_Permeability_Perm_logs_wide (phi Swi : Fl) (h0 : NonNeg phi) (h1 : Pos Swi) :
    NonNeg (Permeability.Perm_logs phi Swi).1
    ∧ NonNeg (Permeability.Perm_logs phi Swi).2.1
    ∧ NonNeg (Permeability.Perm_logs phi Swi).2.2.1
    ∧ NonNeg (Permeability.Perm_logs phi Swi).2.2.2 := by
  refine ⟨?_, ?_, ?_, ?_⟩ <;> num_def [Permeability.Perm_logs]

theorem C111_Permeability_Panda_Lake_wide (d C S tau phi : Fl) (h0 : Number d) (h1 : Number C)
    (h2 : Number S) (h3 : Pos tau) (h4 : NonNeg phi) (h5 : Below phi 1) :
    NonNeg (Permeability.Panda_Lake d C S tau phi) := by
  num_def [Permeability.Panda_Lake]

theorem C111_Permeability_Panda_Lake_cem_wide (phi d : Fl) (h0 : NonNeg phi) (h1 : Below phi 1)
    (h2 : Number d) :
    NonNeg (Permeability.Panda_Lake_cem phi d) := by
  num_def [Permeability.Panda_Lake_cem]

theorem C111_Permeability_Revil_wide (phi d : Fl) (h0 : NonNeg phi) (h1 : Number d) :
    NonNeg (Permeability.Revil phi d) := by
  num_def [Permeability.Revil]

theorem C111_Permeability_Fredrich_wide (phi d b : Fl) (h0 : Pos phi) (h1 : Below phi 1)
    (h2 : Pos d) (h3 : Pos b) :
    NonNeg (Permeability.Fredrich phi d b) := by
  num_def [Permeability.Fredrich]

theorem C111_Permeability_Bloch_wide (S C D : Fl) (h0 : Pos S) (h1 : Number C) (h2 : Number D) :
    Number (Permeability.Bloch S C D).1
    ∧ NonNeg (Permeability.Bloch S C D).2 := by
  refine ⟨?_, ?_⟩ <;> num_def [Permeability.Bloch]

theorem C111_Permeability_Bernabe_wide (phi crf w r : Fl) (h0 : Number phi) (h1 : Number crf)
    (h2 : Number w) (h3 : Number r) :
    Number (Permeability.Bernabe phi crf w r) := by
  num_def [Permeability.Bernabe]

/-- A rock without water, when the exponent is positive. -/
theorem C111_Fluid_Brie_dry (Kw Kgas Sw e : Fl) (h0 : Number Kw) (h1 : Number Kgas)
    (h2 : NonNeg Sw) (h3 : Pos e) : Number (Fluid.Brie Kw Kgas Sw e) := by
  num_def [Fluid.Brie]

/-- Pure shale. -/
theorem C111_GM_silty_shale_pure (Kq Gq Ksh Gsh : Fl)
    (h2 : NonNeg Kq) (h3 : Pos Gq) (h4 : NonNeg Ksh) (h5 : Pos Gsh) :
    Number (GM.silty_shale 1 Kq Gq Ksh Gsh).1
    ∧ Number (GM.silty_shale 1 Kq Gq Ksh Gsh).2 := by
  have h : NonNeg ((1 : Fl) - 1) := ⟨0, le_rfl, by rw [fl_one, fl_sub, sub_self]⟩
  refine ⟨?_, ?_⟩ <;> num_def [GM.silty_shale]

/-! ## Cases at the edge that meet the hypotheses -/

/-- No pores at all. -/
example : NonNeg (EM.Swiss_cheese (36 : Fl) 45 0).1 ∧ NonNeg (EM.Swiss_cheese (36 : Fl) 45 0).2 :=
  C111_EM_Swiss_cheese_wide _ _ _ (Def.nat 36) (Def.nat 45) Def.zero

/-- A rock without rigidity. -/
example : NonNeg (utils.V (2.2 : Fl) 0 1).1 ∧ NonNeg (utils.V (2.2 : Fl) 0 1).2 :=
  C111_utils_V_wide _ _ _ (by num) Def.zero Def.one

/-- A porosity above the critical porosity. -/
example : Number (EM.cripor (36 : Fl) 45 0.5 0.4).1 ∧ Number (EM.cripor (36 : Fl) 45 0.5 0.4).2 :=
  C111_EM_cripor_wide _ _ _ _ (by num) (by num) (by num) (by num)

end RockPhy.Props
