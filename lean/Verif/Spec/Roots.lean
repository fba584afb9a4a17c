import Verif.Num
import Mathlib.Analysis.Complex.Polynomial.Basic

/-! # Contract of `numpy.roots` for a cubic -/

namespace RockPhy.Spec

open Fl

/-- What exact `np.roots([a, b, c, d])` returns for `a ≠ 0`: the three complex roots with
multiplicity, in some order. -/
def RootsOracle (roots : Fl → Fl → Fl → Fl → List (Fl × Fl)) : Prop :=
  ∀ a b c d : ℝ, a ≠ 0 → ∃ z₁ z₂ z₃ : ℂ,
    roots (fin a) (fin b) (fin c) (fin d)
      = [(fin z₁.re, fin z₁.im), (fin z₂.re, fin z₂.im), (fin z₃.re, fin z₃.im)] ∧
    ∀ z : ℂ, a * z ^ 3 + b * z ^ 2 + c * z + d = a * ((z - z₁) * (z - z₂) * (z - z₃))

theorem exists_cubic_roots (a b c d : ℝ) (ha : a ≠ 0) : ∃ z₁ z₂ z₃ : ℂ,
    ∀ z : ℂ, a * z ^ 3 + b * z ^ 2 + c * z + d = a * ((z - z₁) * (z - z₂) * (z - z₃)) := by
  have ha' : (a : ℂ) ≠ 0 := by exact_mod_cast ha
  -- one root
  obtain ⟨z₁, h₁⟩ : ∃ z : ℂ, a * z ^ 3 + b * z ^ 2 + c * z + d = 0 := by
    let p : Polynomial ℂ := Polynomial.C (a : ℂ) * Polynomial.X ^ 3
      + Polynomial.C (b : ℂ) * Polynomial.X ^ 2 + Polynomial.C (c : ℂ) * Polynomial.X
      + Polynomial.C (d : ℂ)
    have hp : p.degree = 3 := Polynomial.degree_cubic ha'
    obtain ⟨z, hz⟩ := IsAlgClosed.exists_root p (by rw [hp]; decide)
    refine ⟨z, ?_⟩
    simpa [p, Polynomial.IsRoot] using hz
  -- the quotient is `a z² + u z + v`
  set u : ℂ := b / a + z₁ with hu
  set v : ℂ := c / a + u * z₁ with hv
  obtain ⟨s, hs⟩ := IsAlgClosed.exists_eq_mul_self (u ^ 2 - 4 * v)
  refine ⟨z₁, (-u + s) / 2, (-u - s) / 2, fun z => ?_⟩
  have q : (z - (-u + s) / 2) * (z - (-u - s) / 2) = z ^ 2 + u * z + v := by
    linear_combination (1 / 4 : ℂ) * hs
  have hd : (d : ℂ) = -(a * z₁ ^ 3 + b * z₁ ^ 2 + c * z₁) := by linear_combination h₁
  have e1 : (b : ℂ) = a * (u - z₁) := by rw [hu]; field_simp; ring
  have e2 : (c : ℂ) = a * (v - u * z₁) := by rw [hv]; field_simp; ring
  rw [mul_assoc (z - z₁), q, hd, e2, e1]
  ring

open Classical in
/-- The contract can be met. -/
theorem exists_rootsOracle : ∃ roots, RootsOracle roots := by
  choose! f g h H using exists_cubic_roots
  let val : Fl → ℝ := fun x => match x with | fin r => r | bad => 0
  refine ⟨fun a b c d =>
    let x := f (val a) (val b) (val c) (val d)
    let y := g (val a) (val b) (val c) (val d)
    let z := h (val a) (val b) (val c) (val d)
    [(fin x.re, fin x.im), (fin y.re, fin y.im), (fin z.re, fin z.im)], ?_⟩
  intro a b c d ha
  exact ⟨f a b c d, g a b c d, h a b c d, rfl, H a b c d ha⟩

end RockPhy.Spec
