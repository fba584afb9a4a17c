import Mathlib.Analysis.SpecialFunctions.Trigonometric.Inverse
import Mathlib.Tactic.LinearCombination

/-! # Specification: plane waves at a welded interface

A P wave hits the plane boundary between two elastic half spaces at the angle `i` from the normal.
`Rpp`, `Rps`, `Tpp`, `Tps` are the displacement amplitudes of the reflected P and S and of the
transmitted P and S wave, relative to the incoming one. -/

namespace RockPhy.Spec

/-- Two half spaces: P velocity, S velocity and density of the upper and of the lower one. -/
structure Interface where
  α1 : ℝ
  β1 : ℝ
  ρ1 : ℝ
  α2 : ℝ
  β2 : ℝ
  ρ2 : ℝ

/-- Continuity of horizontal displacement, vertical displacement, shear traction and normal
traction (the Zoeppritz equations), for waves leaving at the angles `θ1`, `φ1` (upper P and S) and
`θ2`, `φ2` (lower P and S). -/
structure ZoeppritzEqs (I : Interface) (θ1 φ1 θ2 φ2 Rpp Rps Tpp Tps : ℝ) : Prop where
  horizontal : -Real.sin θ1 * Rpp - Real.cos φ1 * Rps + Real.sin θ2 * Tpp + Real.cos φ2 * Tps
    = Real.sin θ1
  vertical : Real.cos θ1 * Rpp - Real.sin φ1 * Rps + Real.cos θ2 * Tpp - Real.sin φ2 * Tps
    = Real.cos θ1
  shear : 2 * I.ρ1 * I.β1 * Real.sin φ1 * Real.cos θ1 * Rpp
      + I.ρ1 * I.β1 * (1 - 2 * Real.sin φ1 ^ 2) * Rps
      + 2 * I.ρ2 * I.β2 * Real.sin φ2 * Real.cos θ2 * Tpp
      + I.ρ2 * I.β2 * (1 - 2 * Real.sin φ2 ^ 2) * Tps
    = 2 * I.ρ1 * I.β1 * Real.sin φ1 * Real.cos θ1
  normal : -I.ρ1 * I.α1 * (1 - 2 * Real.sin φ1 ^ 2) * Rpp
      + I.ρ1 * I.β1 * Real.sin (2 * φ1) * Rps
      + I.ρ2 * I.α2 * (1 - 2 * Real.sin φ2 ^ 2) * Tpp
      - I.ρ2 * I.β2 * Real.sin (2 * φ2) * Tps
    = I.ρ1 * I.α1 * (1 - 2 * Real.sin φ1 ^ 2)

/-- `(Rpp, Rps)` are the reflection coefficients at incidence angle `i`: together with some
transmission coefficients they solve the Zoeppritz equations, the directions of the three
converted waves being given by Snell's law. -/
def IsReflection (I : Interface) (i Rpp Rps : ℝ) : Prop :=
  ∃ Tpp Tps, ZoeppritzEqs I i (Real.arcsin (Real.sin i / I.α1 * I.β1))
    (Real.arcsin (Real.sin i / I.α1 * I.α2)) (Real.arcsin (Real.sin i / I.α1 * I.β2))
    Rpp Rps Tpp Tps

/-- The same for an incoming SV wave of unit amplitude: reflected P and S, transmitted P and S. -/
structure ZoeppritzEqsSV (I : Interface) (θ1 φ1 θ2 φ2 Rsp Rss Tsp Tss : ℝ) : Prop where
  horizontal : -Real.sin θ1 * Rsp - Real.cos φ1 * Rss + Real.sin θ2 * Tsp + Real.cos φ2 * Tss
    = Real.cos φ1
  vertical : Real.cos θ1 * Rsp - Real.sin φ1 * Rss + Real.cos θ2 * Tsp - Real.sin φ2 * Tss
    = -Real.sin φ1
  shear : 2 * I.ρ1 * I.β1 * Real.sin φ1 * Real.cos θ1 * Rsp
      + I.ρ1 * I.β1 * (1 - 2 * Real.sin φ1 ^ 2) * Rss
      + 2 * I.ρ2 * I.β2 * Real.sin φ2 * Real.cos θ2 * Tsp
      + I.ρ2 * I.β2 * (1 - 2 * Real.sin φ2 ^ 2) * Tss
    = I.ρ1 * I.β1 * (1 - 2 * Real.sin φ1 ^ 2)
  normal : -I.ρ1 * I.α1 * (1 - 2 * Real.sin φ1 ^ 2) * Rsp
      + I.ρ1 * I.β1 * Real.sin (2 * φ1) * Rss
      + I.ρ2 * I.α2 * (1 - 2 * Real.sin φ2 ^ 2) * Tsp
      - I.ρ2 * I.β2 * Real.sin (2 * φ2) * Tss
    = -I.ρ1 * I.β1 * Real.sin (2 * φ1)

/-- `(Rsp, Rss)` are the reflection coefficients of an SV wave coming in at the angle `j`. -/
def IsReflectionSV (I : Interface) (j Rsp Rss : ℝ) : Prop :=
  ∃ Tsp Tss, ZoeppritzEqsSV I (Real.arcsin (Real.sin j / I.β1 * I.α1)) j
    (Real.arcsin (Real.sin j / I.β1 * I.α2)) (Real.arcsin (Real.sin j / I.β1 * I.β2))
    Rsp Rss Tsp Tss

/-- Two half spaces that differ little: average velocities `a`, `b` and density `r`, contrasts
`t da`, `t db`, `t dr`. -/
noncomputable def weakContrast (a b r da db dr t : ℝ) : Interface :=
  ⟨a - t * da / 2, b - t * db / 2, r - t * dr / 2, a + t * da / 2, b + t * db / 2, r + t * dr / 2⟩

/-! The same system in vertical slownesses: `x`, `y` of the P waves, `z`, `w` of the S waves above
and below, `p` the ray parameter, `m = ρ β²` the shear moduli.  `R`, `S`, `T`, `U` are `Rpp`,
`β1 Rps/α1`, `α2 Tpp/α1`, `β2 Tps/α1`. -/

structure SlownessEqs (p x y z w ρ1 ρ2 m1 m2 R S T U : ℝ) : Prop where
  e1 : -p * R - z * S + p * T + w * U = p
  e2 : x * R - p * S + y * T - p * U = x
  e3 : 2 * m1 * p * x * R + (ρ1 - 2 * m1 * p ^ 2) * S + 2 * m2 * p * y * T
      + (ρ2 - 2 * m2 * p ^ 2) * U = 2 * m1 * p * x
  e4 : -(ρ1 - 2 * m1 * p ^ 2) * R + 2 * m1 * p * z * S + (ρ2 - 2 * m2 * p ^ 2) * T
      - 2 * m2 * p * w * U = ρ1 - 2 * m1 * p ^ 2

/-- Aki and Richards' abbreviations. -/
def zA (p ρ1 ρ2 m1 m2 : ℝ) : ℝ := (ρ2 - 2 * m2 * p ^ 2) - (ρ1 - 2 * m1 * p ^ 2)
def zB (p ρ2 m1 m2 : ℝ) : ℝ := (ρ2 - 2 * m2 * p ^ 2) + 2 * m1 * p ^ 2
def zC (p ρ1 m1 m2 : ℝ) : ℝ := (ρ1 - 2 * m1 * p ^ 2) + 2 * m2 * p ^ 2
def zD (m1 m2 : ℝ) : ℝ := 2 * (m2 - m1)

/-- Closed form with the factor `H` left open. -/
def zDen (a b c d p x y z w H : ℝ) : ℝ :=
  (b * x + c * y) * (b * z + c * w) + (a - d * x * w) * H * p ^ 2
def zNumP (a b c d p x y z w H : ℝ) : ℝ :=
  (b * x - c * y) * (b * z + c * w) - (a + d * x * w) * H * p ^ 2
def zNumS (a b c d p x y w : ℝ) : ℝ := -2 * x * (a * b + c * d * y * w) * p

section solution

variable {p x y z w ρ1 ρ2 m1 m2 R S T U : ℝ}

/-- The closed form with `H = a - d y z` solves the system. -/
theorem slowness_solves {a b c d H : ℝ} (ha : a = zA p ρ1 ρ2 m1 m2) (hb : b = zB p ρ2 m1 m2)
    (hc : c = zC p ρ1 m1 m2) (hd : d = zD m1 m2) (hH : H = a - d * y * z)
    (hD : zDen a b c d p x y z w H ≠ 0) :
    SlownessEqs p x y z w ρ1 ρ2 m1 m2 (zNumP a b c d p x y z w H / zDen a b c d p x y z w H)
      (zNumS a b c d p x y w / zDen a b c d p x y z w H)
      (2 * ρ1 * x * (b * z + c * w) / zDen a b c d p x y z w H)
      (2 * ρ1 * x * H * p / zDen a b c d p x y z w H) := by
  constructor
  all_goals
    field_simp
    rw [hH]
    unfold zNumP zNumS zDen
    rw [ha, hb, hc, hd]
    unfold zA zB zC zD
    ring

/-- The system determines `R` and `S` when the denominator is not zero. -/
theorem slowness_unique {a b c d H : ℝ} (ha : a = zA p ρ1 ρ2 m1 m2) (hb : b = zB p ρ2 m1 m2)
    (hc : c = zC p ρ1 m1 m2) (hd : d = zD m1 m2) (hH : H = a - d * y * z)
    (h : SlownessEqs p x y z w ρ1 ρ2 m1 m2 R S T U) :
    zDen a b c d p x y z w H * R = zNumP a b c d p x y z w H ∧
      zDen a b c d p x y z w H * S = zNumS a b c d p x y w := by
  rw [hH]
  unfold zNumP zNumS zDen
  rw [ha, hb, hc, hd]
  unfold zA zB zC zD
  constructor
  · linear_combination
      -((1) * ((-p) * ((2 * m2 * p * y) * (-(2 * m2 * p * w))-(ρ2 - 2 * m2 * p ^ 2) * (ρ2 - 2 *
      m2 * p ^ 2))-y * ((ρ1 - 2 * m1 * p ^ 2) * (-(2 * m2 * p * w))-(ρ2 - 2 * m2 * p ^ 2) * (2 *
      m1 * p * z))+(-p) * ((ρ1 - 2 * m1 * p ^ 2) * (ρ2 - 2 * m2 * p ^ 2)-(2 * m2 * p * y) * (2 *
      m1 * p * z))) * h.e1 + (-1) * ((-z) * ((2 * m2 * p * y) * (-(2 * m2 * p * w))-(ρ2 - 2 * m2
      * p ^ 2) * (ρ2 - 2 * m2 * p ^ 2))-p * ((ρ1 - 2 * m1 * p ^ 2) * (-(2 * m2 * p * w))-(ρ2 - 2
      * m2 * p ^ 2) * (2 * m1 * p * z))+w * ((ρ1 - 2 * m1 * p ^ 2) * (ρ2 - 2 * m2 * p ^ 2)-(2 *
      m2 * p * y) * (2 * m1 * p * z))) * h.e2 + (1) * ((-z) * (y * (-(2 * m2 * p * w))-(-p) *
      (ρ2 - 2 * m2 * p ^ 2))-p * ((-p) * (-(2 * m2 * p * w))-(-p) * (2 * m1 * p * z))+w * ((-p)
      * (ρ2 - 2 * m2 * p ^ 2)-y * (2 * m1 * p * z))) * h.e3 + (-1) * ((-z) * (y * (ρ2 - 2 * m2 *
      p ^ 2)-(-p) * (2 * m2 * p * y))-p * ((-p) * (ρ2 - 2 * m2 * p ^ 2)-(-p) * (ρ1 - 2 * m1 * p
      ^ 2))+w * ((-p) * (2 * m2 * p * y)-y * (ρ1 - 2 * m1 * p ^ 2))) * h.e4)
  · linear_combination
      -((-1) * (x * ((2 * m2 * p * y) * (-(2 * m2 * p * w))-(ρ2 - 2 * m2 * p ^ 2) * (ρ2 - 2 * m2
      * p ^ 2))-y * ((2 * m1 * p * x) * (-(2 * m2 * p * w))-(ρ2 - 2 * m2 * p ^ 2) * (-(ρ1 - 2 *
      m1 * p ^ 2)))+(-p) * ((2 * m1 * p * x) * (ρ2 - 2 * m2 * p ^ 2)-(2 * m2 * p * y) * (-(ρ1 -
      2 * m1 * p ^ 2)))) * h.e1 + (1) * ((-p) * ((2 * m2 * p * y) * (-(2 * m2 * p * w))-(ρ2 - 2
      * m2 * p ^ 2) * (ρ2 - 2 * m2 * p ^ 2))-p * ((2 * m1 * p * x) * (-(2 * m2 * p * w))-(ρ2 - 2
      * m2 * p ^ 2) * (-(ρ1 - 2 * m1 * p ^ 2)))+w * ((2 * m1 * p * x) * (ρ2 - 2 * m2 * p ^ 2)-(2
      * m2 * p * y) * (-(ρ1 - 2 * m1 * p ^ 2)))) * h.e2 + (-1) * ((-p) * (y * (-(2 * m2 * p *
      w))-(-p) * (ρ2 - 2 * m2 * p ^ 2))-p * (x * (-(2 * m2 * p * w))-(-p) * (-(ρ1 - 2 * m1 * p ^
      2)))+w * (x * (ρ2 - 2 * m2 * p ^ 2)-y * (-(ρ1 - 2 * m1 * p ^ 2)))) * h.e3 + (1) * ((-p) *
      (y * (ρ2 - 2 * m2 * p ^ 2)-(-p) * (2 * m2 * p * y))-p * (x * (ρ2 - 2 * m2 * p ^ 2)-(-p) *
      (2 * m1 * p * x))+w * (x * (2 * m2 * p * y)-y * (2 * m1 * p * x))) * h.e4)

/-- The system for an incoming S wave: `R`, `S`, `T`, `U` are `α1 Rsp/β1`, `Rss`, `α2 Tsp/β1`,
`β2 Tss/β1`. -/
structure SlownessEqsSV (p x y z w ρ1 ρ2 m1 m2 R S T U : ℝ) : Prop where
  e1 : -p * R - z * S + p * T + w * U = z
  e2 : x * R - p * S + y * T - p * U = -p
  e3 : 2 * m1 * p * x * R + (ρ1 - 2 * m1 * p ^ 2) * S + 2 * m2 * p * y * T
      + (ρ2 - 2 * m2 * p ^ 2) * U = ρ1 - 2 * m1 * p ^ 2
  e4 : -(ρ1 - 2 * m1 * p ^ 2) * R + 2 * m1 * p * z * S + (ρ2 - 2 * m2 * p ^ 2) * T
      - 2 * m2 * p * w * U = -(2 * m1 * p * z)

/-- Same for an incoming S wave: the system determines `R` and `S` when the denominator is not zero. -/
theorem slowness_unique_SV {a b c d H : ℝ} (ha : a = zA p ρ1 ρ2 m1 m2) (hb : b = zB p ρ2 m1 m2)
    (hc : c = zC p ρ1 m1 m2) (hd : d = zD m1 m2) (hH : H = a - d * y * z)
    (h : SlownessEqsSV p x y z w ρ1 ρ2 m1 m2 R S T U) :
    zDen a b c d p x y z w H * R = -2 * z * (a * b + c * d * y * w) * p ∧
      zDen a b c d p x y z w H * S = -((b * z - c * w) * (b * x + c * y)
        - (a + d * y * z) * (a - d * x * w) * p ^ 2) := by
  rw [hH]
  unfold zDen
  rw [ha, hb, hc, hd]
  unfold zA zB zC zD
  constructor
  · linear_combination
      -((1) * ((-p) * ((2 * m2 * p * y) * (-(2 * m2 * p * w))-(ρ2 - 2 * m2 * p ^ 2) * (ρ2 - 2 *
      m2 * p ^ 2))-y * ((ρ1 - 2 * m1 * p ^ 2) * (-(2 * m2 * p * w))-(ρ2 - 2 * m2 * p ^ 2) * (2 *
      m1 * p * z))+(-p) * ((ρ1 - 2 * m1 * p ^ 2) * (ρ2 - 2 * m2 * p ^ 2)-(2 * m2 * p * y) * (2 *
      m1 * p * z))) * h.e1 + (-1) * ((-z) * ((2 * m2 * p * y) * (-(2 * m2 * p * w))-(ρ2 - 2 * m2
      * p ^ 2) * (ρ2 - 2 * m2 * p ^ 2))-p * ((ρ1 - 2 * m1 * p ^ 2) * (-(2 * m2 * p * w))-(ρ2 - 2
      * m2 * p ^ 2) * (2 * m1 * p * z))+w * ((ρ1 - 2 * m1 * p ^ 2) * (ρ2 - 2 * m2 * p ^ 2)-(2 *
      m2 * p * y) * (2 * m1 * p * z))) * h.e2 + (1) * ((-z) * (y * (-(2 * m2 * p * w))-(-p) *
      (ρ2 - 2 * m2 * p ^ 2))-p * ((-p) * (-(2 * m2 * p * w))-(-p) * (2 * m1 * p * z))+w * ((-p)
      * (ρ2 - 2 * m2 * p ^ 2)-y * (2 * m1 * p * z))) * h.e3 + (-1) * ((-z) * (y * (ρ2 - 2 * m2 *
      p ^ 2)-(-p) * (2 * m2 * p * y))-p * ((-p) * (ρ2 - 2 * m2 * p ^ 2)-(-p) * (ρ1 - 2 * m1 * p
      ^ 2))+w * ((-p) * (2 * m2 * p * y)-y * (ρ1 - 2 * m1 * p ^ 2))) * h.e4)
  · linear_combination
      -((-1) * (x * ((2 * m2 * p * y) * (-(2 * m2 * p * w))-(ρ2 - 2 * m2 * p ^ 2) * (ρ2 - 2 * m2
      * p ^ 2))-y * ((2 * m1 * p * x) * (-(2 * m2 * p * w))-(ρ2 - 2 * m2 * p ^ 2) * (-(ρ1 - 2 *
      m1 * p ^ 2)))+(-p) * ((2 * m1 * p * x) * (ρ2 - 2 * m2 * p ^ 2)-(2 * m2 * p * y) * (-(ρ1 -
      2 * m1 * p ^ 2)))) * h.e1 + (1) * ((-p) * ((2 * m2 * p * y) * (-(2 * m2 * p * w))-(ρ2 - 2
      * m2 * p ^ 2) * (ρ2 - 2 * m2 * p ^ 2))-p * ((2 * m1 * p * x) * (-(2 * m2 * p * w))-(ρ2 - 2
      * m2 * p ^ 2) * (-(ρ1 - 2 * m1 * p ^ 2)))+w * ((2 * m1 * p * x) * (ρ2 - 2 * m2 * p ^ 2)-(2
      * m2 * p * y) * (-(ρ1 - 2 * m1 * p ^ 2)))) * h.e2 + (-1) * ((-p) * (y * (-(2 * m2 * p *
      w))-(-p) * (ρ2 - 2 * m2 * p ^ 2))-p * (x * (-(2 * m2 * p * w))-(-p) * (-(ρ1 - 2 * m1 * p ^
      2)))+w * (x * (ρ2 - 2 * m2 * p ^ 2)-y * (-(ρ1 - 2 * m1 * p ^ 2)))) * h.e3 + (1) * ((-p) *
      (y * (ρ2 - 2 * m2 * p ^ 2)-(-p) * (2 * m2 * p * y))-p * (x * (ρ2 - 2 * m2 * p ^ 2)-(-p) *
      (2 * m1 * p * x))+w * (x * (2 * m2 * p * y)-y * (2 * m1 * p * x))) * h.e4)

/-- The closed form for an incoming S wave solves the system. -/
theorem slowness_solves_SV {a b c d H : ℝ} (ha : a = zA p ρ1 ρ2 m1 m2) (hb : b = zB p ρ2 m1 m2)
    (hc : c = zC p ρ1 m1 m2) (hd : d = zD m1 m2) (hH : H = a - d * y * z)
    (hD : zDen a b c d p x y z w H ≠ 0) :
    SlownessEqsSV p x y z w ρ1 ρ2 m1 m2
      (-2 * z * (a * b + c * d * y * w) * p / zDen a b c d p x y z w H)
      (-((b * z - c * w) * (b * x + c * y) - (a + d * y * z) * (a - d * x * w) * p ^ 2)
        / zDen a b c d p x y z w H)
      (-2 * ρ1 * z * (a - d * x * w) * p / zDen a b c d p x y z w H)
      (2 * ρ1 * z * (b * x + c * y) / zDen a b c d p x y z w H) := by
  constructor
  all_goals
    field_simp
    rw [hH]
    unfold zDen
    rw [ha, hb, hc, hd]
    unfold zA zB zC zD
    ring

end solution

end RockPhy.Spec
