import Verif.Num
import Mathlib.Analysis.Calculus.Deriv.Basic

/-! # Specification: a system of two differential equations -/

namespace RockPhy.Spec

open Set

/-- `(k, g)` starts at `y0` and solves `y' = rhs y t` on `[0, T]`, with a right-hand side that is a
number all along. -/
def SolvesOn (rhs : Fl × Fl → Fl → Fl × Fl) (T : ℝ) (y0 : Fl × Fl) (k g : ℝ → ℝ) : Prop :=
  y0 = (Fl.fin (k 0), Fl.fin (g 0)) ∧
  ∀ t ∈ Icc 0 T, ∃ k' g' : ℝ, rhs (Fl.fin (k t), Fl.fin (g t)) (Fl.fin t) = (Fl.fin k', Fl.fin g') ∧
    HasDerivWithinAt k k' (Icc 0 T) t ∧ HasDerivWithinAt g g' (Icc 0 T) t

/-- An exact integrator: whenever the equations have exactly one solution on a range that covers the
requested times, its values at these times are returned. -/
def IsExactIntegrator (odeint : (Fl × Fl → Fl → Fl × Fl) → Fl × Fl → List Fl → List (Fl × Fl)) :
    Prop :=
  ∀ (rhs : Fl × Fl → Fl → Fl × Fl) (T : ℝ) (y0 : Fl × Fl) (k g : ℝ → ℝ) (ts : List ℝ),
    0 ≤ T → SolvesOn rhs T y0 k g →
    (∀ k' g' : ℝ → ℝ, SolvesOn rhs T y0 k' g' → ∀ t ∈ Icc 0 T, k' t = k t ∧ g' t = g t) →
    (∀ t ∈ ts, t ∈ Icc 0 T) →
    odeint rhs y0 (ts.map Fl.fin) = ts.map fun t => (Fl.fin (k t), Fl.fin (g t))

theorem SolvesOn.mono {rhs : Fl × Fl → Fl → Fl × Fl} {T S : ℝ} {y0 : Fl × Fl} {k g : ℝ → ℝ}
    (h : SolvesOn rhs T y0 k g) (hS : S ≤ T) : SolvesOn rhs S y0 k g := by
  refine ⟨h.1, fun t ht => ?_⟩
  have sub : Icc 0 S ⊆ Icc 0 T := Icc_subset_Icc_right hS
  obtain ⟨k', g', e, d1, d2⟩ := h.2 t (sub ht)
  exact ⟨k', g', e, d1.mono sub, d2.mono sub⟩

end RockPhy.Spec
