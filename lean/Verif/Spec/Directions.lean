import Verif.Num

/-!
# Specification: angles that denote the same line

A velocity or a reflection coefficient of a medium with a vertical symmetry plane is the same for a
direction, the opposite direction, and their mirror images.
-/

namespace RockPhy.Spec

/-- Two angles in degrees that denote the same line or its mirror image. -/
inductive SameLine : Fl → Fl → Prop
  | refl (x : Fl) : SameLine x x
  | mirror {x y : Fl} : SameLine x y → SameLine x (-y)
  | turn {x y : Fl} : SameLine x y → SameLine x (y + 180)

end RockPhy.Spec
