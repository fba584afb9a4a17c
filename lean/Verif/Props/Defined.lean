import Verif.Lemmas.Defined
import Verif.Model.Utils
import Verif.Model.EM
import Verif.Model.GM
import Verif.Model.Fluid
import Verif.Model.Anisotropy
import Verif.Model.AVO
import Verif.Model.BW
import Verif.Model.Emp
import Verif.Model.Perm
import Verif.Model.QI

/-!
# C111: physical inputs give numbers

Positive moduli, densities, lengths; porosities, saturations and the like between 0 and 1.  Formulas
that need more: `Verif/Props/DefinedCond.lean`.
-/

namespace RockPhy.Props

open Spec

/-! ## `utils` -/

theorem C111_utils_V (K G rho : Fl) (h0 : Pos K) (h1 : Pos G) (h2 : Pos rho) :
    Pos (utils.V K G rho).1
    ∧ Pos (utils.V K G rho).2 := by
  refine ⟨?_, ?_⟩ <;> num_def [utils.V]

theorem C111_utils_poi (K G : Fl) (h0 : Pos K) (h1 : Pos G) :
    Number (utils.poi K G) := by
  num_def [utils.poi]

theorem C111_utils_lame (K G : Fl) (h0 : Pos K) (h1 : Pos G) :
    Number (utils.lame K G) := by
  num_def [utils.lame]

theorem C111_utils_M_from_V (den vp vs : Fl) (h0 : Pos den) (h1 : Pos vp) (h2 : Pos vs) :
    Number (utils.M_from_V den vp vs).1
    ∧ Pos (utils.M_from_V den vp vs).2 := by
  refine ⟨?_, ?_⟩ <;> num_def [utils.M_from_V]

theorem C111_utils_crack_por (crd alpha : Fl) (h0 : Pos crd) (h1 : Pos alpha) :
    Pos (utils.crack_por crd alpha) := by
  num_def [utils.crack_por]

/-! ## `EM` -/

theorem C111_EM_cripor (K0 G0 phi phic : Fl) (h0 : Pos K0) (h1 : Pos G0) (h2 : Pos phi) (h3 : Below
    phi 1) (h4 : Pos phic) (h5 : Below phic 1) (h6 : Below phi phic) :
    Number (EM.cripor K0 G0 phi phic).1
    ∧ Number (EM.cripor K0 G0 phi phic).2 := by
  refine ⟨?_, ?_⟩ <;> num_def [EM.cripor]

theorem C111_EM_Swiss_cheese (Ks Gs phi : Fl) (h0 : Pos Ks) (h1 : Pos Gs) (h2 : Pos phi) (h3 :
    Below phi 1) :
    Pos (EM.Swiss_cheese Ks Gs phi).1
    ∧ Pos (EM.Swiss_cheese Ks Gs phi).2 := by
  refine ⟨?_, ?_⟩ <;> num_def [EM.Swiss_cheese]

/-! ## `GM` -/

theorem C111_GM_silty_shale (C Kq Gq Ksh Gsh : Fl) (h0 : Pos C) (h1 : Below C 1) (h2 : Pos Kq) (h3
    : Pos Gq) (h4 : Pos Ksh) (h5 : Pos Gsh) :
    Number (GM.silty_shale C Kq Gq Ksh Gsh).1
    ∧ Number (GM.silty_shale C Kq Gq Ksh Gsh).2 := by
  refine ⟨?_, ?_⟩ <;> num_def [GM.silty_shale]

/-! ## `Fluid` -/

theorem C111_Fluid_Brie (Kw Kgas Sw e : Fl) (h0 : Pos Kw) (h1 : Pos Kgas) (h2 : Pos Sw) (h3 : Below
    Sw 1) (h4 : Number e) :
    Number (Fluid.Brie Kw Kgas Sw e) := by
  num_def [Fluid.Brie]

theorem C111_Fluid_Geertsma_Smit_LF (Vp0 Vpinf freq phi rhofl kapa eta : Fl) (h0 : Pos Vp0) (h1 :
    Pos Vpinf) (h2 : Pos freq) (h3 : Pos phi) (h4 : Below phi 1) (h5 : Pos rhofl) (h6 : Pos kapa)
      (h7 : Pos eta) :
    Pos (Fluid.Geertsma_Smit_LF Vp0 Vpinf freq phi rhofl kapa eta) := by
  num_def [Fluid.Geertsma_Smit_LF]

/-! ## `Empirical` -/

theorem C111_Empirical_krief (phi Kg Gg : Fl) (h0 : Pos phi) (h1 : Below phi 1) (h2 : Pos Kg) (h3 :
    Pos Gg) :
    Number (Empirical.krief phi Kg Gg).1
    ∧ Number (Empirical.krief phi Kg Gg).2.1
    ∧ Number (Empirical.krief phi Kg Gg).2.2 := by
  refine ⟨?_, ?_, ?_⟩ <;> num_def [Empirical.krief]

theorem C111_Empirical_han (phi C : Fl) (h0 : Pos phi) (h1 : Below phi 1) (h2 : Pos C) (h3 : Below
    C 1) :
    Number (Empirical.han phi C).1
    ∧ Number (Empirical.han phi C).2 := by
  refine ⟨?_, ?_⟩ <;> num_def [Empirical.han]

theorem C111_Empirical_ehrenberg (Z : Fl) (h0 : Number Z) :
    Number (Empirical.ehrenberg Z) := by
  num_def [Empirical.ehrenberg]

theorem C111_Empirical_Scherbaum (Z : Fl) (h0 : Number Z) :
    Number (Empirical.Scherbaum Z) := by
  num_def [Empirical.Scherbaum]

theorem C111_Empirical_Sclater (phi : Fl) (h0 : Pos phi) (h1 : Below phi 1) :
    Number (Empirical.Sclater phi) := by
  num_def [Empirical.Sclater]

theorem C111_Empirical_Storvoll (Z : Fl) (h0 : Number Z) :
    Number (Empirical.Storvoll Z) := by
  num_def [Empirical.Storvoll]

theorem C111_Empirical_hjelstuen (Z : Fl) (h0 : Number Z) :
    Number (Empirical.hjelstuen Z) := by
  num_def [Empirical.hjelstuen]

theorem C111_Empirical_Cp (phi : Fl) (h0 : Pos phi) (h1 : Below phi 1) :
    Number (Empirical.Cp phi) := by
  num_def [Empirical.Cp]

/-! ## `Permeability` -/

theorem C111_Permeability_Kozeny_Carman (phi d : Fl) (h0 : Pos phi) (h1 : Below phi 1) (h2 : Pos d)
    :
    Pos (Permeability.Kozeny_Carman phi d) := by
  num_def [Permeability.Kozeny_Carman]

theorem C111_Permeability_Owolabi (phi Swi : Fl) (h0 : Pos phi) (h1 : Below phi 1) (h2 : Pos Swi)
    (h3 : Below Swi 1) :
    Number (Permeability.Owolabi phi Swi).1
    ∧ Number (Permeability.Owolabi phi Swi).2 := by
  refine ⟨?_, ?_⟩ <;> num_def [Permeability.Owolabi]

theorem C111_Permeability_Perm_logs (phi Swi : Fl) (h0 : Pos phi) (h1 : Below phi 1) (h2 : Pos Swi)
    (h3 : Below Swi 1) :
    Pos (Permeability.Perm_logs phi Swi).1
    ∧ Pos (Permeability.Perm_logs phi Swi).2.1
    ∧ Pos (Permeability.Perm_logs phi Swi).2.2.1
    ∧ Pos (Permeability.Perm_logs phi Swi).2.2.2 := by
  refine ⟨?_, ?_, ?_, ?_⟩ <;> num_def [Permeability.Perm_logs]

theorem C111_Permeability_Panda_Lake (d C S tau phi : Fl) (h0 : Pos d) (h1 : Pos C) (h2 : Below C
    1) (h3 : Pos S) (h4 : Below S 1) (h5 : Pos tau) (h6 : Pos phi) (h7 : Below phi 1) :
    Pos (Permeability.Panda_Lake d C S tau phi) := by
  num_def [Permeability.Panda_Lake]

theorem C111_Permeability_Panda_Lake_cem (phi d : Fl) (h0 : Pos phi) (h1 : Below phi 1) (h2 : Pos
    d) :
    Pos (Permeability.Panda_Lake_cem phi d) := by
  num_def [Permeability.Panda_Lake_cem]

theorem C111_Permeability_Revil (phi d : Fl) (h0 : Pos phi) (h1 : Below phi 1) (h2 : Pos d) :
    Pos (Permeability.Revil phi d) := by
  num_def [Permeability.Revil]

theorem C111_Permeability_Fredrich (phi d b : Fl) (h0 : Pos phi) (h1 : Below phi 1) (h2 : Pos d)
    (h3 : Pos b) :
    Pos (Permeability.Fredrich phi d b) := by
  num_def [Permeability.Fredrich]

theorem C111_Permeability_Bloch (S C D : Fl) (h0 : Pos S) (h1 : Below S 1) (h2 : Pos C) (h3 : Below
    C 1) (h4 : Pos D) :
    Number (Permeability.Bloch S C D).1
    ∧ Pos (Permeability.Bloch S C D).2 := by
  refine ⟨?_, ?_⟩ <;> num_def [Permeability.Bloch]

theorem C111_Permeability_Bernabe (phi crf w r : Fl) (h0 : Pos phi) (h1 : Below phi 1) (h2 : Pos
    crf) (h3 : Pos w) (h4 : Pos r) :
    Number (Permeability.Bernabe phi crf w r) := by
  num_def [Permeability.Bernabe]

end RockPhy.Props
