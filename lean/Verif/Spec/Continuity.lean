import Verif.Num
import Mathlib.Topology.Order.Real

/-!
# Specification: results that vary continuously with the inputs

Let the arguments of a function depend on a parameter `x` from any space.  A number varies
continuously with `x` if, wherever it is defined, a small change of `x` that keeps it defined changes
it by little.  A tuple, matrix or list varies continuously if its entries do; a mode or an index
varies continuously only if it stays the same; a result that can be an exception varies continuously
if it is always the same exception or always a value that varies continuously.  A function is
continuous if its results vary continuously whenever its arguments do.
-/

namespace RockPhy.Spec

open Filter Topology

/-- Types of values that can vary continuously with a parameter. -/
class Varying (β : Type) where
  /-- The value varies continuously with the parameter. -/
  Varies : ∀ {X : Type} [TopologicalSpace X], (X → β) → Prop

export Varying (Varies)

/-- A number. -/
instance : Varying Fl where
  Varies F := ∀ x r, F x = .fin r → ∀ ε > 0, ∀ᶠ y in 𝓝 x, ∀ s, F y = .fin s → |s - r| < ε

/-- A pair. -/
instance {β γ : Type} [Varying β] [Varying γ] : Varying (β × γ) where
  Varies F := Varies (fun x => (F x).1) ∧ Varies (fun x => (F x).2)

/-- A list of a fixed length. -/
instance {β : Type} [Varying β] : Varying (List β) where
  Varies {X} _ F := ∃ Gs : List (X → β), (∀ G ∈ Gs, Varies G) ∧ ∀ x, F x = Gs.map (· x)

/-- A vector of a fixed length. -/
instance (priority := high) {n : Nat} {β : Type} [Varying β] : Varying (Fin n → β) where
  Varies F := ∀ i, Varies fun x => F x i

/-- A matrix. -/
instance {m n : Nat} {β : Type} [Varying β] : Varying (Matrix (Fin m) (Fin n) β) :=
  inferInstanceAs (Varying (Fin m → Fin n → β))

/-- An argument that may be left out. -/
instance {β : Type} [Varying β] : Varying (Option β) where
  Varies F := (∀ x, F x = none) ∨ ∃ G, Varies G ∧ ∀ x, F x = some (G x)

/-- A result of one of two types. -/
instance {β γ : Type} [Varying β] [Varying γ] : Varying (β ⊕ γ) where
  Varies F := (∃ G, Varies G ∧ ∀ x, F x = .inl (G x)) ∨ ∃ G, Varies G ∧ ∀ x, F x = .inr (G x)

/-- A value or an exception. -/
instance {β : Type} [Varying β] : Varying (Except PyErr β) where
  Varies F := (∃ e, ∀ x, F x = .error e) ∨ ∃ G, Varies G ∧ ∀ x, F x = .ok (G x)

/-- Modes, numbers of iterations and indices do not vary. -/
instance : Varying String where Varies F := ∃ s, ∀ x, F x = s
instance : Varying Bool where Varies F := ∃ s, ∀ x, F x = s
instance : Varying Int where Varies F := ∃ s, ∀ x, F x = s
instance : Varying Nat where Varies F := ∃ s, ∀ x, F x = s

/-- A function: its value varies continuously if its argument does. -/
instance {β γ : Type} [Varying β] [Varying γ] : Varying (β → γ) where
  Varies {X} _ F := ∀ A : X → β, Varies A → Varies fun x => F x (A x)

/-- A function of the package is continuous where it is defined. -/
def IsContinuous {β : Type} [Varying β] (f : β) : Prop :=
  ∀ (X : Type) [TopologicalSpace X], Varies fun _ : X => f

/-- What this says about a function of two numbers. -/
theorem isContinuous_two (f : Fl → Fl → Fl) : IsContinuous f ↔
    ∀ (X : Type) [TopologicalSpace X] (A : X → Fl), Varies A → ∀ B : X → Fl, Varies B →
      Varies fun x => f (A x) (B x) := Iff.rfl

end RockPhy.Spec
