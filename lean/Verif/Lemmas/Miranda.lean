import Verif.Lemmas.Ode
import Mathlib.Analysis.Complex.BranchLogRoot
import Mathlib.Analysis.Convex.Contractible
import Mathlib.Analysis.SpecialFunctions.Trigonometric.Basic

/-! # Two equations in two unknowns with opposite signs on opposite sides of a rectangle

The theorem of Poincaré and Miranda in the plane, by way of a continuous argument. -/

namespace RockPhy.Spec

open Set

/-- A continuous angle whose cosine stays positive stays within a quarter turn of a multiple of the
full turn. -/
theorem angle_range {φ : ℝ → ℝ} (hφ : Continuous φ) {s t : ℝ} (hst : s ≤ t)
    (hc : ∀ y ∈ Icc s t, 0 < Real.cos (φ y)) :
    ∃ m : ℤ, ∀ y ∈ Icc s t, |φ y - m * (2 * Real.pi)| < Real.pi / 2 := by
  have p := Real.pi_pos
  have q : (0 : ℝ) < 2 * Real.pi := by positivity
  obtain ⟨m, hm⟩ : ∃ m : ℤ, |φ s - m * (2 * Real.pi)| ≤ Real.pi := by
    refine ⟨round (φ s / (2 * Real.pi)), ?_⟩
    have := abs_sub_round (φ s / (2 * Real.pi))
    have e : φ s - round (φ s / (2 * Real.pi)) * (2 * Real.pi)
        = (φ s / (2 * Real.pi) - round (φ s / (2 * Real.pi))) * (2 * Real.pi) := by
      field_simp
    rw [e, abs_mul, abs_of_pos q]
    nlinarith
  have per : ∀ y, Real.cos (φ y - m * (2 * Real.pi)) = Real.cos (φ y) :=
    fun y => Real.cos_sub_int_mul_two_pi _ _
  have start : |φ s - m * (2 * Real.pi)| < Real.pi / 2 := by
    by_contra h
    push Not at h
    have c := hc s ⟨le_rfl, hst⟩
    rw [← per s, ← Real.cos_abs] at c
    have := Real.cos_nonpos_of_pi_div_two_le_of_le h (by linarith)
    linarith
  refine ⟨m, fun y hy => ?_⟩
  by_contra h
  push Not at h
  have cont : ContinuousOn (fun y => |φ y - m * (2 * Real.pi)|) (Icc s y) := by fun_prop
  obtain ⟨z, hz, e⟩ := intermediate_value_Icc hy.1 cont ⟨start.le, h⟩
  have c := hc z ⟨hz.1, hz.2.trans hy.2⟩
  dsimp only at e
  rw [← per z, ← Real.cos_abs, e, Real.cos_pi_div_two] at c
  exact lt_irrefl _ c

theorem turn_zero {k : ℤ} {δ : ℝ} (h : |k * (2 * Real.pi) + δ| < Real.pi)
    (hδ : |δ| ≤ Real.pi / 2) : k = 0 := by
  have p := Real.pi_pos
  rw [abs_lt] at h
  rw [abs_le] at hδ
  have h1 : (k : ℝ) < 1 := by
    by_contra hn
    push Not at hn
    nlinarith
  have h2 : (-1 : ℝ) < k := by
    by_contra hn
    push Not at hn
    nlinarith
  have h1' : k < 1 := by exact_mod_cast h1
  have h2' : -1 < k := by exact_mod_cast h2
  omega

/-- Two continuous functions on a rectangle, the first positive on the left and negative on the right
side, the second positive at the bottom and negative at the top, have a common zero. -/
theorem poincare_miranda {u v : ℝ × ℝ → ℝ} {a b c d : ℝ} (hab : a ≤ b) (hcd : c ≤ d)
    (hu : ContinuousOn u (Icc a b ×ˢ Icc c d)) (hv : ContinuousOn v (Icc a b ×ˢ Icc c d))
    (left : ∀ y ∈ Icc c d, 0 < u (a, y)) (right : ∀ y ∈ Icc c d, u (b, y) < 0)
    (bottom : ∀ x ∈ Icc a b, 0 < v (x, c)) (top : ∀ x ∈ Icc a b, v (x, d) < 0) :
    ∃ p ∈ Icc a b ×ˢ Icc c d, u p = 0 ∧ v p = 0 := by
  by_contra hn
  push Not at hn
  set cl := clip2 a b c d
  have mem : ∀ p, cl p ∈ Icc a b ×ˢ Icc c d := clip2_mem hab hcd
  have ccl : Continuous cl := (clip2_lipschitz a b c d).continuous
  have cu : Continuous fun p => u (cl p) := hu.comp_continuous ccl mem
  have cv : Continuous fun p => v (cl p) := hv.comp_continuous ccl mem
  have cg : Continuous fun p => (⟨u (cl p), v (cl p)⟩ : ℂ) := by
    have : (fun p => (⟨u (cl p), v (cl p)⟩ : ℂ))
        = fun p => ((u (cl p) : ℝ) : ℂ) + ((v (cl p) : ℝ) : ℂ) * Complex.I := by
      funext p
      exact Complex.mk_eq_add_mul_I _ _
    rw [this]
    exact (Complex.continuous_ofReal.comp cu).add
      ((Complex.continuous_ofReal.comp cv).mul continuous_const)
  have sc : IsSimplyConnected (univ : Set (ℝ × ℝ)) := by
    have : ContractibleSpace (univ : Set (ℝ × ℝ)) := convex_univ.contractibleSpace univ_nonempty
    exact (inferInstance : SimplyConnectedSpace (univ : Set (ℝ × ℝ)))
  obtain ⟨f, hf, he⟩ := Complex.exists_continuousOn_eqOn_exp_comp sc isOpen_univ
    cg.continuousOn (by
      rintro ⟨p, -, h⟩
      have h1 := congrArg Complex.re h
      have h2 := congrArg Complex.im h
      exact hn _ (mem p) h1 h2)
  have cf : Continuous f := continuousOn_univ.mp hf
  set θ : ℝ × ℝ → ℝ := fun p => (f p).im with hθ
  have cθ : Continuous θ := Complex.continuous_im.comp cf
  have eu : ∀ p ∈ Icc a b ×ˢ Icc c d, u p = Real.exp (f p).re * Real.cos (θ p) := by
    intro p hp
    have := congrArg Complex.re (he (mem_univ p))
    have e : cl p = p := Prod.ext (clip_of_mem hp.1) (clip_of_mem hp.2)
    simp only [Function.comp_apply, e, Complex.exp_re] at this
    exact this.symm
  have ev : ∀ p ∈ Icc a b ×ˢ Icc c d, v p = Real.exp (f p).re * Real.sin (θ p) := by
    intro p hp
    have := congrArg Complex.im (he (mem_univ p))
    have e : cl p = p := Prod.ext (clip_of_mem hp.1) (clip_of_mem hp.2)
    simp only [Function.comp_apply, e, Complex.exp_im] at this
    exact this.symm
  have ma : a ∈ Icc a b := ⟨le_rfl, hab⟩
  have mb : b ∈ Icc a b := ⟨hab, le_rfl⟩
  have mc : c ∈ Icc c d := ⟨le_rfl, hcd⟩
  have md : d ∈ Icc c d := ⟨hcd, le_rfl⟩
  obtain ⟨m1, h1⟩ := angle_range (φ := fun y => θ (a, y)) (by fun_prop) hcd (fun y hy => by
    have := left y hy
    rw [eu (a, y) ⟨ma, hy⟩] at this
    exact pos_of_mul_pos_right this (Real.exp_pos _).le)
  obtain ⟨m2, h2⟩ := angle_range (φ := fun x => θ (x, c) - Real.pi / 2) (by fun_prop) hab
    (fun x hx => by
      have := bottom x hx
      rw [ev (x, c) ⟨hx, mc⟩] at this
      rw [Real.cos_sub_pi_div_two]
      exact pos_of_mul_pos_right this (Real.exp_pos _).le)
  obtain ⟨m3, h3⟩ := angle_range (φ := fun y => θ (b, y) - Real.pi) (by fun_prop) hcd
    (fun y hy => by
      have := right y hy
      rw [eu (b, y) ⟨mb, hy⟩] at this
      rw [Real.cos_sub_pi]
      have := neg_of_mul_neg_right this (Real.exp_pos _).le
      linarith)
  obtain ⟨m4, h4⟩ := angle_range (φ := fun x => θ (x, d) - Real.pi - Real.pi / 2) (by fun_prop) hab
    (fun x hx => by
      have := top x hx
      rw [ev (x, d) ⟨hx, md⟩] at this
      rw [Real.cos_sub_pi_div_two, Real.sin_sub_pi]
      have := neg_of_mul_neg_right this (Real.exp_pos _).le
      linarith)
  have q := Real.pi_pos
  have join : ∀ {x y : ℝ} {m n : ℤ}, |x - m * (2 * Real.pi)| < Real.pi / 2 →
      |y - n * (2 * Real.pi)| < Real.pi / 2 →
        |((n - m : ℤ) : ℝ) * (2 * Real.pi) + (x - y)| < Real.pi := by
    intro x y m n k1 k2
    rw [abs_lt] at k1 k2 ⊢
    push_cast
    constructor <;> nlinarith
  have c1 := join (h1 c mc) (h2 a ma)
  have c2 := join (h2 b mb) (h3 c mc)
  have c3 := join (h3 d md) (h4 b mb)
  have c4 := join (h4 a ma) (h1 d md)
  have e1 : m2 - m1 = 0 := turn_zero c1 (by
    have : θ (a, c) - (θ (a, c) - Real.pi / 2) = Real.pi / 2 := by ring
    rw [this, abs_of_pos (by positivity)])
  have e2 : m3 - m2 = 0 := turn_zero c2 (by
    have : θ (b, c) - Real.pi / 2 - (θ (b, c) - Real.pi) = Real.pi / 2 := by ring
    rw [this, abs_of_pos (by positivity)])
  have e3 : m4 - m3 = 0 := turn_zero c3 (by
    have : θ (b, d) - Real.pi - (θ (b, d) - Real.pi - Real.pi / 2) = Real.pi / 2 := by ring
    rw [this, abs_of_pos (by positivity)])
  have e4 : m1 - m4 = 0 := by omega
  rw [e4] at c4
  have : θ (a, d) - Real.pi - Real.pi / 2 - θ (a, d) = -(3 / 2 * Real.pi) := by ring
  rw [this, abs_lt] at c4
  norm_num at c4
  linarith

end RockPhy.Spec
