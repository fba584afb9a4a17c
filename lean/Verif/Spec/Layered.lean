import Verif.Spec.Eshelby

/-!
# Specification: the static response of a stack of layers

Independent of the model.  Isotropic layers are welded together on horizontal planes and loaded
by forces on the outer faces.  In each layer strain and stress are constant; welding makes the
in-plane strains of all layers equal, balance of forces makes the tractions on all interfaces
equal.  The effective stiffness of the stack is the linear map from its average strain to its
average stress.
-/

namespace RockPhy.Spec

open Matrix

/-- One layer of a loaded stack: thickness, Lamé parameters and the strain it has taken. -/
structure Layer where
  thickness : ℝ
  lam : ℝ
  mu : ℝ
  strain : Strain

/-- The stress in a layer, from Hooke's law. -/
noncomputable def Layer.stress (L : Layer) : Strain := hooke (L.lam + 2 / 3 * L.mu) L.mu L.strain

/-- The layers are welded and in equilibrium: same in-plane strain `e11, e22, e12` and same
traction `s13, s23, s33` everywhere. -/
def InEquilibrium (st : List Layer) : Prop :=
  (∀ L ∈ st, L.strain.IsSymm) ∧
  ∀ L ∈ st, ∀ L' ∈ st,
    (∀ i j : Fin 3, i ≠ 2 → j ≠ 2 → L.strain i j = L'.strain i j) ∧
    ∀ i : Fin 3, L.stress i 2 = L'.stress i 2

/-- Average over the height of the stack. -/
noncomputable def stackAvg (st : List Layer) (q : Layer → ℝ) : ℝ :=
  (st.map fun L => L.thickness * q L).sum / (st.map Layer.thickness).sum

/-- Average strain of the stack. -/
noncomputable def avgStrain (st : List Layer) : Strain :=
  Matrix.of fun i j => stackAvg st fun L => L.strain i j

/-- Average stress of the stack. -/
noncomputable def avgStress (st : List Layer) : Strain :=
  Matrix.of fun i j => stackAvg st fun L => L.stress i j

/-- The loaded stacks made of the layers `V, lamda, G` (thickness and Lamé parameters). -/
def MadeOf (st : List Layer) (V lamda G : List ℝ) : Prop :=
  st.map Layer.thickness = V ∧ st.map Layer.lam = lamda ∧ st.map Layer.mu = G

/-- `C` is the effective stiffness of the stack `V, lamda, G`: it gives the average stress from
the average strain in every state of equilibrium, and every average strain occurs. -/
def IsEffectiveStiffness (V lamda G : List ℝ) (C : Matrix (Fin 6) (Fin 6) ℝ) : Prop :=
  (∀ st, MadeOf st V lamda G → InEquilibrium st →
    voigtStress (avgStress st) = C.mulVec (voigt (avgStrain st))) ∧
  ∀ E : Strain, E.IsSymm → ∃ st, MadeOf st V lamda G ∧ InEquilibrium st ∧ avgStrain st = E

/-- A stack has at most one effective stiffness. -/
theorem IsEffectiveStiffness.unique {V lamda G : List ℝ} {C C' : Matrix (Fin 6) (Fin 6) ℝ}
    (h : IsEffectiveStiffness V lamda G C) (h' : IsEffectiveStiffness V lamda G C') : C = C' := by
  have key : ∀ v : Fin 6 → ℝ, C.mulVec v = C'.mulVec v := by
    intro v
    obtain ⟨st, h1, h2, h3⟩ := h.2 !![v 0, v 5 / 2, v 4 / 2; v 5 / 2, v 1, v 3 / 2;
      v 4 / 2, v 3 / 2, v 2] (by
        ext i j; fin_cases i <;> fin_cases j <;> rfl)
    have e : voigt (avgStrain st) = v := by
      rw [h3]
      ext i
      fin_cases i <;> simp [voigt] <;> ring
    rw [← e, ← h.1 st h1 h2, h'.1 st h1 h2]
  exact Matrix.mulVec_injective (funext key)

end RockPhy.Spec
