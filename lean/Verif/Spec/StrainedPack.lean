import Verif.Spec.Contact
import Verif.Spec.Layered

/-!
# Specification: a pack of spheres deformed step by step

Independent of the model.  The pack of `Spec.Contact`, without friction limit: contacts never slip.
The contact in direction `n` has the radius Hertz's law gives for the strain reached so far, and
answers a further strain with the stiffness of a contact of that radius.
-/

namespace RockPhy.Spec

open Matrix Real

/-- The radius of the contact in direction `n` at the strain `E` (negative in compression): each
centre has moved towards the contact by `-R n·E n`, and by Hertz's law the radius squared is `R` times
this approach. -/
noncomputable def contactRadius (R : ℝ) (E : Strain) (n : Fin 3 → ℝ) : ℝ :=
  √(R * -(n ⬝ᵥ R • E.mulVec n))

/-- The normal stiffness of a contact of radius `b`. -/
noncomputable def hertzStiffness (G v b : ℝ) : ℝ := 4 * b * G / (1 - v)

/-- The additional force at a contact when the strain `E` of the pack changes by `e`. -/
noncomputable def tangentForce (G v R : ℝ) (E e : Strain) (n : Fin 3 → ℝ) : Fin 3 → ℝ :=
  contactForce R (hertzStiffness G v (contactRadius R E n)) (mindlinStiffness G v (contactRadius R E n)) e n

/-- The force gathered while the strain goes straight from `A` to `B`. -/
noncomputable def stepForce (G v R : ℝ) (A B : Strain) (n : Fin 3 → ℝ) : Fin 3 → ℝ := fun j =>
  ∫ s in (0 : ℝ)..1, tangentForce G v R (A + s • (B - A)) (B - A) n j

/-- The force gathered while the strain passes through a list of values. -/
noncomputable def pathForce (G v R : ℝ) : List Strain → (Fin 3 → ℝ) → Fin 3 → ℝ
  | A :: B :: rest, n => stepForce G v R A B n + pathForce G v R (B :: rest) n
  | _, _ => 0

/-- The stress of a pack that has been deformed along this path, starting with no contact forces. -/
noncomputable def pathStress (Cn phi G v R : ℝ) (path : List Strain) : Strain :=
  packStress Cn phi R (pathForce G v R path)

/-- `C` is the stiffness (Voigt notation) of the pack at the strain `E`: it gives the part of the
additional stress that does work.  Grains do not rotate, so the moments on a grain need not balance
and the sum over contacts may have an antisymmetric part, which does none. -/
def TangentStiffness (Cn phi G v R : ℝ) (E : Strain) (C : Matrix (Fin 6) (Fin 6) ℝ) : Prop :=
  ∀ e : Strain, e.IsSymm →
    let s := packStress Cn phi R (tangentForce G v R E e)
    voigtStress ((1 / 2 : ℝ) • (s + sᵀ)) = C.mulVec (voigt e)

/-- A hydrostatic strain `e` (in every direction) and an additional strain `e3` along the 3-axis. -/
def axialStrain (e e3 : ℝ) : Strain := Matrix.diagonal ![e, e, e + e3]

end RockPhy.Spec
