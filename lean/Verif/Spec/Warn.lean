import Verif.Np

/-!
# What the pressure warning should do (C113)
-/

namespace RockPhy.Spec

/-- One of the pressures is above 100 MPa; a missing value is not. -/
def TooHigh (P : List Np) : Prop := ∃ p ∈ P, p = .inf ∨ ∃ r : ℝ, p = .fin r ∧ 100 < r

/-- Two one dimensional arrays broadcast: equal lengths, or one of them has one element. -/
def Fits {β γ : Type} (x : List β) (y : List γ) : Prop :=
  x.length = y.length ∨ x.length = 1 ∨ y.length = 1

/-- The entries of two arrays that broadcast, entry by entry. -/
def entries {β γ : Type} (x : List β) (y : List γ) : List (β × γ) :=
  if x.length = y.length then x.zip y
  else match x, y with
    | [a], y => y.map fun b => (a, b)
    | x, [b] => x.map fun a => (a, b)
    | _, _ => []

end RockPhy.Spec
