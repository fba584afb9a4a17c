import Verif.Model.AVO
import Verif.Spec.Zoeppritz
import Mathlib.Analysis.Real.Pi.Bounds

/-! # Property C50 (exact reflection coefficients) -/

namespace RockPhy.AVO

open Fl Spec

/-- Snell's law holds for real directions of all waves. -/
structure PreCritical (I : Interface) (p : ℝ) : Prop where
  α1 : 0 < I.α1
  α2 : 0 < I.α2
  β1 : 0 < I.β1
  β2 : 0 < I.β2
  a2 : |p * I.α2| ≤ 1
  b1 : |p * I.β1| ≤ 1
  b2 : |p * I.β2| ≤ 1

/-- Abbreviations of the closed form at ray parameter `p`. -/
def ia (I : Interface) (p : ℝ) : ℝ := zA p I.ρ1 I.ρ2 (I.ρ1 * I.β1 ^ 2) (I.ρ2 * I.β2 ^ 2)
def ib (I : Interface) (p : ℝ) : ℝ := zB p I.ρ2 (I.ρ1 * I.β1 ^ 2) (I.ρ2 * I.β2 ^ 2)
def ic (I : Interface) (p : ℝ) : ℝ := zC p I.ρ1 (I.ρ1 * I.β1 ^ 2) (I.ρ2 * I.β2 ^ 2)
def id' (I : Interface) : ℝ := zD (I.ρ1 * I.β1 ^ 2) (I.ρ2 * I.β2 ^ 2)

/-- Vertical slownesses of the transmitted P, reflected S and transmitted S wave. -/
noncomputable def sy (I : Interface) (p : ℝ) : ℝ := Real.cos (Real.arcsin (p * I.α2)) / I.α2
noncomputable def sz (I : Interface) (p : ℝ) : ℝ := Real.cos (Real.arcsin (p * I.β1)) / I.β1
noncomputable def sw (I : Interface) (p : ℝ) : ℝ := Real.cos (Real.arcsin (p * I.β2)) / I.β2

/-- Denominator and numerators of the closed form with the factor `H` left open. -/
noncomputable def iDen (I : Interface) (p x H : ℝ) : ℝ :=
  zDen (ia I p) (ib I p) (ic I p) (id' I) p x (sy I p) (sz I p) (sw I p) H
noncomputable def iNumP (I : Interface) (p x H : ℝ) : ℝ :=
  zNumP (ia I p) (ib I p) (ic I p) (id' I) p x (sy I p) (sz I p) (sw I p) H
noncomputable def iNumS (I : Interface) (p x : ℝ) : ℝ :=
  zNumS (ia I p) (ib I p) (ic I p) (id' I) p x (sy I p) (sw I p)

/-- The factor `H` as Aki and Richards have it. -/
noncomputable def hRight (I : Interface) (p : ℝ) : ℝ := ia I p - id' I * sy I p * sz I p
/-- The factor `H` as the code has it: the S wave below instead of the one above. -/
noncomputable def hCode (I : Interface) (p : ℝ) : ℝ := ia I p - id' I * sy I p * sw I p

/-- `zoeppritz` called on an interface. -/
noncomputable def zoepp (I : Interface) (θ : ℝ) : Fl × Fl :=
  zoeppritz (fin I.α1) (fin I.β1) (fin I.ρ1) (fin I.α2) (fin I.β2) (fin I.ρ2) (fin θ)

theorem zoepp_eval {I : Interface} {θ : ℝ} (h : PreCritical I (Real.sin θ / I.α1))
    (hD : iDen I (Real.sin θ / I.α1) (Real.cos (θ * (Real.pi / 180)) / I.α1)
      (hCode I (Real.sin θ / I.α1)) ≠ 0) :
    zoepp I θ =
      (fin (iNumP I (Real.sin θ / I.α1) (Real.cos (θ * (Real.pi / 180)) / I.α1)
          (hCode I (Real.sin θ / I.α1))
        / iDen I (Real.sin θ / I.α1) (Real.cos (θ * (Real.pi / 180)) / I.α1)
          (hCode I (Real.sin θ / I.α1))),
       fin (I.α1 / I.β1 * (iNumS I (Real.sin θ / I.α1) (Real.cos (θ * (Real.pi / 180)) / I.α1)
        / iDen I (Real.sin θ / I.α1) (Real.cos (θ * (Real.pi / 180)) / I.α1)
          (hCode I (Real.sin θ / I.α1))))) := by
  obtain ⟨α1, β1, ρ1, α2, β2, ρ2⟩ := I
  obtain ⟨hα1, hα2, hβ1, hβ2, h2, h3, h4⟩ := h
  dsimp only at *
  unfold zoepp zoeppritz
  have s1 := fl_arcsin (abs_le.mp h2)
  have s2 := fl_arcsin (abs_le.mp h3)
  have s3 := fl_arcsin (abs_le.mp h4)
  dsimp only
  rw [fl_sin, fl_deg2rad, fl_div hα1.ne', fl_mul, fl_mul, fl_mul, s1, s2, s3]
  unfold iDen iNumP iNumS hCode ia ib ic id' sy sz sw zDen zNumP zNumS zA zB zC zD at *
  dsimp only at *
  simp only [fl_cos, fl_sin, Real.sin_arcsin (abs_le.mp h3).1 (abs_le.mp h3).2,
    Real.sin_arcsin (abs_le.mp h4).1 (abs_le.mp h4).2]
  generalize Real.sin θ / α1 = p at *
  generalize Real.cos (θ * (Real.pi / 180)) = cx at *
  generalize Real.cos (Real.arcsin (p * α2)) = cy at *
  generalize Real.cos (Real.arcsin (p * β1)) = cz at *
  generalize Real.cos (Real.arcsin (p * β2)) = cw at *
  have e : ((ρ2 * (1 - 2 * (p * β2) ^ 2) + 2 * ρ1 * (p * β1) ^ 2) * cx / α1
        + (ρ1 * (1 - 2 * (p * β1) ^ 2) + 2 * ρ2 * (p * β2) ^ 2) * cy / α2)
      * ((ρ2 * (1 - 2 * (p * β2) ^ 2) + 2 * ρ1 * (p * β1) ^ 2) * cz / β1
        + (ρ1 * (1 - 2 * (p * β1) ^ 2) + 2 * ρ2 * (p * β2) ^ 2) * cw / β2)
      + (ρ2 * (1 - 2 * (p * β2) ^ 2) - ρ1 * (1 - 2 * (p * β1) ^ 2)
          - 2 * (ρ2 * β2 ^ 2 - ρ1 * β1 ^ 2) * cx / α1 * cw / β2)
        * (ρ2 * (1 - 2 * (p * β2) ^ 2) - ρ1 * (1 - 2 * (p * β1) ^ 2)
          - 2 * (ρ2 * β2 ^ 2 - ρ1 * β1 ^ 2) * cy / α2 * cw / β2) * p ^ 2 ≠ 0 := by
    refine fun z => hD ?_
    rw [← z]; ring
  have e' := mul_ne_zero hβ1.ne' e
  fl_eval []
  refine Prod.ext (congrArg fin ?_) (congrArg fin ?_)
  · rw [div_eq_div_iff e hD]
    ring
  · rw [div_mul_div_comm, div_eq_div_iff e' (mul_ne_zero hβ1.ne' hD)]
    field

theorem zoeppritzEqs_aux {I : Interface} {p θ1 φ1 θ2 φ2 Rpp Rps Tpp Tps : ℝ} (hα1 : I.α1 ≠ 0)
    (hα2 : I.α2 ≠ 0) (hβ1 : I.β1 ≠ 0) (hβ2 : I.β2 ≠ 0) (h1 : Real.sin θ1 = p * I.α1)
    (h2 : Real.sin θ2 = p * I.α2) (h3 : Real.sin φ1 = p * I.β1) (h4 : Real.sin φ2 = p * I.β2) :
    ZoeppritzEqs I θ1 φ1 θ2 φ2 Rpp Rps Tpp Tps ↔
      SlownessEqs p (Real.cos θ1 / I.α1) (Real.cos θ2 / I.α2) (Real.cos φ1 / I.β1)
        (Real.cos φ2 / I.β2) I.ρ1 I.ρ2 (I.ρ1 * I.β1 ^ 2)
        (I.ρ2 * I.β2 ^ 2) Rpp (I.β1 * Rps / I.α1) (I.α2 * Tpp / I.α1) (I.β2 * Tps / I.α1) := by
  have key : ∀ {l r l' r' : ℝ}, l - r = I.α1 * (l' - r') → (l = r ↔ l' = r') := by
    intro l r l' r' e
    rw [← sub_eq_zero, e, mul_eq_zero, sub_eq_zero]
    exact ⟨fun h => h.resolve_left hα1, Or.inr⟩
  constructor
  · rintro ⟨q1, q2, q3, q4⟩
    rw [Real.sin_two_mul, Real.sin_two_mul, h3, h4] at q4
    rw [h1, h2] at q1
    rw [h3, h4] at q2 q3
    refine ⟨(key ?_).mp q1, (key ?_).mp q2, (key ?_).mp q3, (key ?_).mp q4⟩ <;> field
  · rintro ⟨q1, q2, q3, q4⟩
    constructor
    · rw [h1, h2]
      exact (key (by field)).mpr q1
    · rw [h3, h4]
      exact (key (by field)).mpr q2
    · rw [h3, h4]
      exact (key (by field)).mpr q3
    · rw [Real.sin_two_mul, Real.sin_two_mul, h3, h4]
      exact (key (by field)).mpr q4

/-- The Zoeppritz equations in slownesses. -/
theorem zoeppritzEqs_iff {I : Interface} {i Rpp Rps Tpp Tps : ℝ}
    (h : PreCritical I (Real.sin i / I.α1)) :
    ZoeppritzEqs I i (Real.arcsin (Real.sin i / I.α1 * I.β1))
        (Real.arcsin (Real.sin i / I.α1 * I.α2)) (Real.arcsin (Real.sin i / I.α1 * I.β2))
        Rpp Rps Tpp Tps ↔
      SlownessEqs (Real.sin i / I.α1) (Real.cos i / I.α1) (sy I (Real.sin i / I.α1))
        (sz I (Real.sin i / I.α1)) (sw I (Real.sin i / I.α1)) I.ρ1 I.ρ2 (I.ρ1 * I.β1 ^ 2)
        (I.ρ2 * I.β2 ^ 2) Rpp (I.β1 * Rps / I.α1) (I.α2 * Tpp / I.α1) (I.β2 * Tps / I.α1) := by
  obtain ⟨hα1, hα2, hβ1, hβ2, h2, h3, h4⟩ := h
  exact zoeppritzEqs_aux hα1.ne' hα2.ne' hβ1.ne' hβ2.ne' (by field)
    (Real.sin_arcsin (abs_le.mp h2).1 (abs_le.mp h2).2)
    (Real.sin_arcsin (abs_le.mp h3).1 (abs_le.mp h3).2)
    (Real.sin_arcsin (abs_le.mp h4).1 (abs_le.mp h4).2)

/-- The reflection coefficients exist and are unique wherever the denominator is not zero. -/
theorem isReflection_iff {I : Interface} {i Rpp Rps : ℝ} (h : PreCritical I (Real.sin i / I.α1))
    (hD : iDen I (Real.sin i / I.α1) (Real.cos i / I.α1) (hRight I (Real.sin i / I.α1)) ≠ 0) :
    IsReflection I i Rpp Rps ↔
      Rpp = iNumP I (Real.sin i / I.α1) (Real.cos i / I.α1) (hRight I (Real.sin i / I.α1))
        / iDen I (Real.sin i / I.α1) (Real.cos i / I.α1) (hRight I (Real.sin i / I.α1)) ∧
      Rps = I.α1 / I.β1 * (iNumS I (Real.sin i / I.α1) (Real.cos i / I.α1)
        / iDen I (Real.sin i / I.α1) (Real.cos i / I.α1) (hRight I (Real.sin i / I.α1))) := by
  have hα1 := h.α1.ne'
  have hα2 := h.α2.ne'
  have hβ1 := h.β1.ne'
  have hβ2 := h.β2.ne'
  constructor
  · rintro ⟨Tpp, Tps, q⟩
    rw [zoeppritzEqs_iff h] at q
    obtain ⟨u1, u2⟩ := slowness_unique (a := ia I (Real.sin i / I.α1)) (b := ib I (Real.sin i / I.α1))
      (c := ic I (Real.sin i / I.α1)) (d := id' I) (H := hRight I (Real.sin i / I.α1))
      rfl rfl rfl rfl rfl q
    constructor
    · rw [eq_div_iff hD, mul_comm]; exact u1
    · have : I.β1 * Rps / I.α1 = iNumS I (Real.sin i / I.α1) (Real.cos i / I.α1)
          / iDen I (Real.sin i / I.α1) (Real.cos i / I.α1) (hRight I (Real.sin i / I.α1)) := by
        rw [eq_div_iff hD, mul_comm]; exact u2
      rw [← this]; field
  · rintro ⟨e1, e2⟩
    have sol := slowness_solves (a := ia I (Real.sin i / I.α1)) (b := ib I (Real.sin i / I.α1))
      (c := ic I (Real.sin i / I.α1)) (d := id' I) (H := hRight I (Real.sin i / I.α1))
      rfl rfl rfl rfl rfl hD
    refine ⟨I.α1 / I.α2 * (2 * I.ρ1 * (Real.cos i / I.α1) * (ib I (Real.sin i / I.α1)
        * sz I (Real.sin i / I.α1) + ic I (Real.sin i / I.α1) * sw I (Real.sin i / I.α1))
        / iDen I (Real.sin i / I.α1) (Real.cos i / I.α1) (hRight I (Real.sin i / I.α1))),
      I.α1 / I.β2 * (2 * I.ρ1 * (Real.cos i / I.α1) * hRight I (Real.sin i / I.α1)
        * (Real.sin i / I.α1)
        / iDen I (Real.sin i / I.α1) (Real.cos i / I.α1) (hRight I (Real.sin i / I.α1))),
      (zoeppritzEqs_iff h).mpr ?_⟩
    · have c1 : ∀ t, I.α2 * (I.α1 / I.α2 * t) / I.α1 = t := fun t => by field
      have c2 : ∀ t, I.β2 * (I.α1 / I.β2 * t) / I.α1 = t := fun t => by field
      have c3 : ∀ t, I.β1 * (I.α1 / I.β1 * t) / I.α1 = t := fun t => by field
      rw [c1, c2, e1, e2, c3]
      exact sol

end RockPhy.AVO

namespace RockPhy.AVO

open Fl Spec

/-- Exchanging the two versions of `H` changes the quotient by exactly this cross product. -/
theorem cross_eq (I : Interface) (p x : ℝ) :
    iNumP I p x (hCode I p) * iDen I p x (hRight I p)
        - iNumP I p x (hRight I p) * iDen I p x (hCode I p)
      = -2 * x * p ^ 2 * (ib I p * sz I p + ic I p * sw I p)
        * (id' I * sy I p * (sz I p - sw I p))
        * (ia I p * ib I p + ic I p * id' I * sy I p * sw I p) := by
  unfold iNumP iDen zNumP zDen hCode hRight
  ring

theorem cos_arcsin_bounds {u : ℝ} (h : u ^ 2 ≤ 0.01) :
    0.99 ≤ Real.cos (Real.arcsin u) ∧ Real.cos (Real.arcsin u) ≤ 1 := by
  refine ⟨?_, Real.cos_le_one _⟩
  rw [Real.cos_arcsin, Real.le_sqrt' (by norm_num)]
  nlinarith

/-- An angle (in degrees, about 3.09) whose sine in radians happens to be the sine in degrees. -/
noncomputable def lucky : ℝ := 180 * Real.pi / (180 + Real.pi)

theorem lucky_pos : 0 < lucky := by unfold lucky; positivity

theorem lucky_sin : Real.sin lucky = Real.sin (lucky * (Real.pi / 180)) := by
  have : lucky * (Real.pi / 180) = Real.pi - lucky := by unfold lucky; field
  rw [this, Real.sin_pi_sub]

theorem lucky_rad : 0 < lucky * (Real.pi / 180) ∧ lucky * (Real.pi / 180) < 0.06 := by
  have h3 := Real.pi_gt_three
  have h4 := Real.pi_lt_d2
  constructor
  · have := lucky_pos; positivity
  · have : lucky * (Real.pi / 180) = Real.pi ^ 2 / (180 + Real.pi) := by unfold lucky; field
    rw [this, div_lt_iff₀ (by positivity)]
    nlinarith

/-- An example: the lower half space is stiffer. -/
noncomputable def stiffBelow : Interface := ⟨2, 1, 1, 3, 3 / 2, 2⟩

/-- An example with the same shear velocity on both sides. -/
noncomputable def sameShear : Interface := ⟨2, 1, 1, 3, 1, 2⟩

theorem small_p {i : ℝ} (h0 : 0 < i) (h1 : i < 0.06) :
    0 < Real.sin i / 2 ∧ Real.sin i / 2 < 0.03 ∧ 0.99 ≤ Real.cos i ∧ Real.cos i ≤ 1 := by
  have s0 : 0 < Real.sin i := Real.sin_pos_of_pos_of_lt_pi h0 (by linarith [Real.pi_gt_three])
  have s1 : Real.sin i < i := Real.sin_lt h0
  refine ⟨by linarith, by linarith, ?_, Real.cos_le_one _⟩
  have := Real.one_sub_sq_div_two_le_cos (x := i)
  nlinarith

theorem witness_den {a b c x y z w v p : ℝ} (va : 0.99 ≤ a ∧ a ≤ 1) (vb : 1.99 ≤ b ∧ b ≤ 2)
    (vc : 1 ≤ c ∧ c ≤ 1.01) (gx : 0.49 ≤ x ∧ x ≤ 1 / 2) (hy : 0.33 ≤ y ∧ y ≤ 1 / 3)
    (hz : 0.99 ≤ z ∧ z ≤ 1) (hw : 0.66 ≤ w ∧ w ≤ 2 / 3) (q0 : 0 ≤ p ^ 2) (p2 : p ^ 2 < 0.0009)
    (v0 : 0 ≤ v) (v1 : v ≤ 1) : 0 < zDen a b c 7 p x y z w (a - 7 * y * v) := by
  have gH : ∀ {u v : ℝ}, 0 ≤ u → u ≤ 1 / 2 → 0 ≤ v → v ≤ 1 → |a - 7 * u * v| ≤ 4 := by
    intro u v hu hu' hv hv'
    have h1 : 0 ≤ u * v := by positivity
    have h2 : u * v ≤ 1 / 2 := by nlinarith
    rw [abs_le, mul_assoc]
    constructor <;> linarith [va.1, va.2]
  have hG := gH (u := x) (v := w) (by linarith [gx.1]) gx.2 (by linarith [hw.1]) (by linarith [hw.2])
  have hH := gH (u := y) (v := v) (by linarith [hy.1]) (by linarith [hy.2]) v0 v1
  have t1 : 1 ≤ b * x + c * y := by
    have := mul_le_mul vb.1 gx.1 (by norm_num) (by linarith [vb.1])
    have := mul_le_mul vc.1 hy.1 (by norm_num) (by linarith [vc.1])
    linarith
  have t2 : 1 ≤ b * z + c * w := by
    have := mul_le_mul vb.1 hz.1 (by norm_num) (by linarith [vb.1])
    have := mul_le_mul vc.1 hw.1 (by norm_num) (by linarith [vc.1])
    linarith
  have t3 := mul_le_mul t1 t2 (by norm_num) (by linarith)
  unfold zDen
  have gh : |(a - 7 * x * w) * (a - 7 * y * v)| ≤ 16 := by
    rw [abs_mul]
    have := mul_le_mul hG hH (abs_nonneg _) (by norm_num)
    linarith
  generalize (a - 7 * x * w) * (a - 7 * y * v) = GH at *
  rw [abs_le] at gh
  have := mul_le_mul_of_nonneg_right gh.1 q0
  linarith

theorem preCritical_of {I : Interface} {p : ℝ} (h1 : 0 < I.α1) (h2 : 0 < I.α2) (h3 : 0 < I.β1)
    (h4 : 0 < I.β2) (hp : 0 ≤ p) (ha : p * I.α2 ≤ 1) (hb : p * I.β1 ≤ 1) (hc : p * I.β2 ≤ 1) :
    PreCritical I p :=
  ⟨h1, h2, h3, h4, by rw [abs_of_nonneg (by positivity)]; exact ha,
    by rw [abs_of_nonneg (by positivity)]; exact hb, by rw [abs_of_nonneg (by positivity)]; exact hc⟩

end RockPhy.AVO

namespace RockPhy.Props

open Fl Spec AVO

/-- C50: at normal incidence the returned pair is `((Z2-Z1)/(Z2+Z1), 0)` with the impedances
`Z = ρ α`, and this is the solution of the boundary equations. -/
theorem C50_normal (I : Interface) (hα1 : 0 < I.α1) (hα2 : 0 < I.α2) (hβ1 : 0 < I.β1)
    (hβ2 : 0 < I.β2) (hρ1 : 0 < I.ρ1) (hρ2 : 0 < I.ρ2) :
    zoeppritz (fin I.α1) (fin I.β1) (fin I.ρ1) (fin I.α2) (fin I.β2) (fin I.ρ2) (fin 0)
        = (fin ((I.ρ2 * I.α2 - I.ρ1 * I.α1) / (I.ρ2 * I.α2 + I.ρ1 * I.α1)), fin 0) ∧
      ∀ Rpp Rps, IsReflection I 0 Rpp Rps ↔
        Rpp = (I.ρ2 * I.α2 - I.ρ1 * I.α1) / (I.ρ2 * I.α2 + I.ρ1 * I.α1) ∧ Rps = 0 := by
  have e0 : Real.sin 0 / I.α1 = 0 := by rw [Real.sin_zero, zero_div]
  have pc : PreCritical I (Real.sin 0 / I.α1) := by
    rw [e0]; exact preCritical_of hα1 hα2 hβ1 hβ2 le_rfl (by simp) (by simp) (by simp)
  have den : ∀ H, iDen I 0 (1 / I.α1) H
      = (I.ρ2 / I.α1 + I.ρ1 / I.α2) * (I.ρ2 / I.β1 + I.ρ1 / I.β2) := fun H => by
    unfold iDen zDen ia ib ic id' sy sz sw zA zB zC
    simp only [zero_mul, Real.arcsin_zero, Real.cos_zero]
    ring
  have num : ∀ H, iNumP I 0 (1 / I.α1) H
      = (I.ρ2 / I.α1 - I.ρ1 / I.α2) * (I.ρ2 / I.β1 + I.ρ1 / I.β2) := fun H => by
    unfold iNumP zNumP ia ib ic id' sy sz sw zA zB zC
    simp only [zero_mul, Real.arcsin_zero, Real.cos_zero]
    ring
  have nums : iNumS I 0 (1 / I.α1) = 0 := by
    unfold iNumS zNumS
    ring
  have dpos : 0 < (I.ρ2 / I.α1 + I.ρ1 / I.α2) * (I.ρ2 / I.β1 + I.ρ1 / I.β2) := by positivity
  have q : (I.ρ2 / I.α1 - I.ρ1 / I.α2) * (I.ρ2 / I.β1 + I.ρ1 / I.β2)
      / ((I.ρ2 / I.α1 + I.ρ1 / I.α2) * (I.ρ2 / I.β1 + I.ρ1 / I.β2))
      = (I.ρ2 * I.α2 - I.ρ1 * I.α1) / (I.ρ2 * I.α2 + I.ρ1 * I.α1) := by
    have n1 : 0 < I.ρ2 / I.β1 + I.ρ1 / I.β2 := by positivity
    have n2 : 0 < I.ρ2 * I.α2 + I.ρ1 * I.α1 := by positivity
    rw [mul_div_mul_right _ _ n1.ne']
    have n3 : 0 < I.ρ2 / I.α1 + I.ρ1 / I.α2 := by positivity
    rw [div_eq_div_iff n3.ne' n2.ne']
    field
  constructor
  · have hev := zoepp_eval (I := I) (θ := 0) pc
    rw [e0, zero_mul, Real.cos_zero, den, num, nums, zero_div, mul_zero, q] at hev
    exact hev dpos.ne'
  · intro Rpp Rps
    have hev := isReflection_iff (I := I) (i := 0) (Rpp := Rpp) (Rps := Rps) pc
    rw [e0, Real.cos_zero, den, num, nums, zero_div, mul_zero, q] at hev
    exact hev dpos.ne'

example : zoeppritz (fin 2) (fin 1) (fin 1) (fin 3) (fin (3 / 2)) (fin 2) (fin 0)
    = (fin (1 / 2), fin 0) := by
  have h := (C50_normal ⟨2, 1, 1, 3, 3 / 2, 2⟩ (by norm_num) (by norm_num) (by norm_num)
    (by norm_num) (by norm_num) (by norm_num)).1
  dsimp only at h
  rw [h]; norm_num

/-- C50 (what should hold): without any contrast nothing is reflected, at every angle of
incidence. -/
theorem C50_no_contrast_spec {α β ρ i : ℝ} (hα : α ≠ 0) (h0 : -(Real.pi / 2) ≤ i)
    (h1 : i ≤ Real.pi / 2) : IsReflection ⟨α, β, ρ, α, β, ρ⟩ i 0 0 := by
  have h : Real.arcsin (Real.sin i / α * α) = i := by
    rw [div_mul_cancel₀ _ hα, Real.arcsin_sin h0 h1]
  refine ⟨1, 0, ?_⟩
  dsimp only
  rw [h]
  constructor <;> ring

example : IsReflection ⟨4, 2, 2.5, 4, 2, 2.5⟩ 0.5 0 0 :=
  C50_no_contrast_spec (by norm_num) (by linarith [Real.pi_gt_three])
    (by linarith [Real.pi_gt_three])

/-- C50 (violation): for identical half spaces and an angle of `θ` degrees, the code returns
`(cos θ° - |cos θ|)/(cos θ° + |cos θ|)`, where the second cosine takes the degrees as radians. -/
theorem C50_no_contrast_code {α β ρ θ : ℝ} (hβ : 0 < β) (hαβ : β < α) (hρ : 0 < ρ)
    (hθ : 0 < Real.cos (θ * (Real.pi / 180))) :
    zoeppritz (fin α) (fin β) (fin ρ) (fin α) (fin β) (fin ρ) (fin θ)
      = (fin ((Real.cos (θ * (Real.pi / 180)) - |Real.cos θ|)
          / (Real.cos (θ * (Real.pi / 180)) + |Real.cos θ|)), fin 0) := by
  have hα : 0 < α := hβ.trans hαβ
  have hs := Real.abs_sin_le_one θ
  have e1 : Real.sin θ / α * α = Real.sin θ := by field
  have lt1 : |Real.sin θ / α * β| < 1 := by
    rw [abs_mul, abs_div, abs_of_pos hα, abs_of_pos hβ, div_mul_eq_mul_div, div_lt_one hα]
    nlinarith
  have pc : PreCritical ⟨α, β, ρ, α, β, ρ⟩ (Real.sin θ / α) :=
    ⟨hα, hα, hβ, hβ, by rw [e1]; exact hs, lt1.le, lt1.le⟩
  have hcos : Real.cos (Real.arcsin (Real.sin θ)) = |Real.cos θ| := by
    rw [Real.cos_arcsin, ← Real.cos_sq', Real.sqrt_sq_eq_abs]
  have hcz : 0 < Real.cos (Real.arcsin (Real.sin θ / α * β)) := by
    rw [Real.cos_arcsin]
    apply Real.sqrt_pos.mpr
    have := (sq_lt_one_iff_abs_lt_one _).mpr lt1
    linarith
  have hev := zoepp_eval pc
  unfold zoepp iDen iNumP iNumS hCode ia ib ic id' sy sz sw zDen zNumP zNumS zA zB zC zD at hev
  dsimp only at hev
  rw [e1, hcos] at hev
  generalize Real.sin θ / α = p at *
  generalize Real.cos (Real.arcsin (p * β)) = cz at *
  have hx : 0 < Real.cos (θ * (Real.pi / 180)) + |Real.cos θ| := by positivity
  generalize Real.cos (θ * (Real.pi / 180)) = x at *
  generalize |Real.cos θ| = y at *
  have hD : ((ρ - 2 * (ρ * β ^ 2) * p ^ 2 + 2 * (ρ * β ^ 2) * p ^ 2) * (x / α) +
        (ρ - 2 * (ρ * β ^ 2) * p ^ 2 + 2 * (ρ * β ^ 2) * p ^ 2) * (y / α)) *
      ((ρ - 2 * (ρ * β ^ 2) * p ^ 2 + 2 * (ρ * β ^ 2) * p ^ 2) * (cz / β) +
        (ρ - 2 * (ρ * β ^ 2) * p ^ 2 + 2 * (ρ * β ^ 2) * p ^ 2) * (cz / β)) +
      (ρ - 2 * (ρ * β ^ 2) * p ^ 2 - (ρ - 2 * (ρ * β ^ 2) * p ^ 2) -
        2 * (ρ * β ^ 2 - ρ * β ^ 2) * (x / α) * (cz / β)) *
      (ρ - 2 * (ρ * β ^ 2) * p ^ 2 - (ρ - 2 * (ρ * β ^ 2) * p ^ 2) -
        2 * (ρ * β ^ 2 - ρ * β ^ 2) * (y / α) * (cz / β)) * p ^ 2
      = 2 * ρ ^ 2 * (x + y) * cz / (α * β) := by
    field
  rw [hD] at hev
  rw [hev (by positivity)]
  refine Prod.ext (congrArg fin ?_) (congrArg fin ?_)
  · field
  · ring

/-- C50 (violation, concrete): at an incidence angle of `π` degrees (3.14°) every homogeneous
medium is reported to reflect. -/
theorem C50_no_contrast_violated {α β ρ : ℝ} (hβ : 0 < β) (hαβ : β < α) (hρ : 0 < ρ) :
    (zoeppritz (fin α) (fin β) (fin ρ) (fin α) (fin β) (fin ρ) (fin Real.pi)).1 < fin 0 := by
  have h3 := Real.pi_gt_three
  have h4 := Real.pi_lt_d2
  have i0 : 0 < Real.pi * (Real.pi / 180) := by positivity
  have i1 : Real.pi * (Real.pi / 180) < Real.pi / 2 := by nlinarith
  have c0 : 0 < Real.cos (Real.pi * (Real.pi / 180)) :=
    Real.cos_pos_of_mem_Ioo ⟨by linarith, i1⟩
  have c1 : Real.cos (Real.pi * (Real.pi / 180)) < 1 := by
    have := Real.cos_lt_cos_of_nonneg_of_le_pi_div_two le_rfl i1.le i0
    rwa [Real.cos_zero] at this
  rw [C50_no_contrast_code hβ hαβ hρ c0, fin_lt, Real.cos_pi, abs_neg, abs_one]
  exact div_neg_of_neg_of_pos (by linarith) (by linarith)

example : (zoeppritz (fin 4) (fin 2) (fin 2.5) (fin 4) (fin 2) (fin 2.5) (fin Real.pi)).1 < fin 0 :=
  C50_no_contrast_violated (by norm_num) (by norm_num) (by norm_num)

/-- C50: beyond a critical angle of the angle actually used there is no real result. -/
theorem C50_post_critical {I : Interface} {θ : ℝ} (h1 : I.α1 ≠ 0)
    (h : 1 < |Real.sin θ / I.α1 * I.α2|) :
    zoeppritz (fin I.α1) (fin I.β1) (fin I.ρ1) (fin I.α2) (fin I.β2) (fin I.ρ2) (fin θ)
      = (bad, bad) := by
  have e : PyNum.arcsin (fin (Real.sin θ / I.α1 * I.α2)) = bad := by
    refine if_neg ?_
    rw [← abs_le]; exact not_le.mpr h
  have cb : PyNum.cos bad = bad := rfl
  unfold zoeppritz
  dsimp only
  rw [fl_sin, fl_div h1, fl_mul, fl_mul, fl_mul, e, cb]
  simp only [fl]

/-- C50: at an angle where the sine of the degrees taken as radians is right, and if the two half
spaces have the same shear velocity or the same shear modulus, the result solves the boundary
equations. -/
theorem C50_correct {I : Interface} {θ : ℝ} (hθ : Real.sin θ = Real.sin (θ * (Real.pi / 180)))
    (pc : PreCritical I (Real.sin θ / I.α1))
    (hI : I.β1 = I.β2 ∨ I.ρ1 * I.β1 ^ 2 = I.ρ2 * I.β2 ^ 2)
    (hD : iDen I (Real.sin θ / I.α1) (Real.cos (θ * (Real.pi / 180)) / I.α1)
      (hCode I (Real.sin θ / I.α1)) ≠ 0) :
    ∃ Rpp Rps, zoeppritz (fin I.α1) (fin I.β1) (fin I.ρ1) (fin I.α2) (fin I.β2) (fin I.ρ2) (fin θ)
        = (fin Rpp, fin Rps) ∧ IsReflection I (θ * (Real.pi / 180)) Rpp Rps := by
  have hH : hCode I (Real.sin θ / I.α1) = hRight I (Real.sin θ / I.α1) := by
    unfold hCode hRight
    rcases hI with h | h
    · unfold sz sw; rw [h]
    · unfold id' zD; rw [h]; ring
  refine ⟨_, _, zoepp_eval pc hD, ?_⟩
  rw [hH] at hD ⊢
  rw [hθ] at pc hD ⊢
  exact (isReflection_iff pc hD).mpr ⟨rfl, rfl⟩

/-- The hypotheses of `C50_correct` are met by an interface with contrasts in compressional
velocity and density at about 3.09 degrees. -/
example : ∃ Rpp Rps, zoeppritz (fin 2) (fin 1) (fin 1) (fin 3) (fin 1) (fin 2) (fin lucky)
    = (fin Rpp, fin Rps) ∧ IsReflection sameShear (lucky * (Real.pi / 180)) Rpp Rps := by
  obtain ⟨i0, i1⟩ := lucky_rad
  obtain ⟨p0, p1, c0, c1⟩ := small_p i0 i1
  rw [← lucky_sin] at p0 p1
  refine C50_correct (I := sameShear) lucky_sin ?_ (Or.inl rfl) ?_
  · refine preCritical_of ?_ ?_ ?_ ?_ ?_ ?_ ?_ ?_ <;> unfold sameShear <;> norm_num <;> linarith
  · have hp : Real.sin lucky / sameShear.α1 = Real.sin lucky / 2 := rfl
    have ha : sameShear.α1 = 2 := rfl
    rw [hp, ha]
    generalize Real.sin lucky / 2 = p at *
    generalize Real.cos (lucky * (Real.pi / 180)) = cx at *
    unfold iDen hCode ia ib ic id' sy sz sw zDen zA zB zC zD sameShear
    dsimp only
    have p2 : p ^ 2 < 0.0009 := by nlinarith
    obtain ⟨y0, y1⟩ := cos_arcsin_bounds (u := p * 3) (by nlinarith)
    obtain ⟨z0, z1⟩ := cos_arcsin_bounds (u := p * 1) (by nlinarith)
    generalize Real.cos (Real.arcsin (p * 3)) = cy at *
    generalize Real.cos (Real.arcsin (p * 1)) = cz at *
    have E : 0.7 ≤ (2 - 2 * p ^ 2) * (cx / 2) := by nlinarith
    generalize hq : p ^ 2 = q at *
    have q0 : 0 ≤ q := by rw [← hq]; positivity
    have t1 : 0.9 ≤ (2 - 2 * (2 * 1 ^ 2) * q + 2 * (1 * 1 ^ 2) * q) * (cx / 2) +
        (1 - 2 * (1 * 1 ^ 2) * q + 2 * (2 * 1 ^ 2) * q) * (cy / 3) := by nlinarith
    have t2 : 1 ≤ (2 - 2 * (2 * 1 ^ 2) * q + 2 * (1 * 1 ^ 2) * q) * (cz / 1) +
        (1 - 2 * (1 * 1 ^ 2) * q + 2 * (2 * 1 ^ 2) * q) * (cz / 1) := by nlinarith
    have g : ∀ {u v : ℝ}, 0 ≤ u → u ≤ 1 → 0 ≤ v → v ≤ 1 →
        |2 - 2 * (2 * 1 ^ 2) * q - (1 - 2 * (1 * 1 ^ 2) * q)
          - 2 * (2 * 1 ^ 2 - 1 * 1 ^ 2) * u * v| ≤ 3 := by
      intro u v hu hu' hv hv'
      have : 0 ≤ u * v := by positivity
      have : u * v ≤ 1 := by nlinarith
      rw [abs_le]; constructor <;> nlinarith
    have g1 := g (u := cx / 2) (v := cz / 1) (by linarith) (by linarith) (by linarith) (by linarith)
    have g2 := g (u := cy / 3) (v := cz / 1) (by linarith) (by linarith) (by linarith) (by linarith)
    generalize 2 - 2 * (2 * 1 ^ 2) * q - (1 - 2 * (1 * 1 ^ 2) * q)
          - 2 * (2 * 1 ^ 2 - 1 * 1 ^ 2) * (cx / 2) * (cz / 1) = G at *
    generalize 2 - 2 * (2 * 1 ^ 2) * q - (1 - 2 * (1 * 1 ^ 2) * q)
          - 2 * (2 * 1 ^ 2 - 1 * 1 ^ 2) * (cy / 3) * (cz / 1) = H at *
    have gh : |G * H| ≤ 9 := by
      rw [abs_mul]; nlinarith [abs_nonneg G, abs_nonneg H]
    rw [abs_le] at gh
    nlinarith

/-- C50 (violation): even where the sine of the angle is right, the result is wrong: for a stiffer
lower half space at about 3.09 degrees the code returns a finite pair, and its first member is not
the P reflection coefficient.  The factor `H` pairs the transmitted P wave with the transmitted
instead of the reflected S wave. -/
theorem C50_wrong : ∃ rpp rps,
    zoeppritz (fin 2) (fin 1) (fin 1) (fin 3) (fin (3 / 2)) (fin 2) (fin lucky)
        = (fin rpp, fin rps) ∧
      (∃ Rpp Rps, IsReflection stiffBelow (lucky * (Real.pi / 180)) Rpp Rps) ∧
      ∀ Rpp Rps, IsReflection stiffBelow (lucky * (Real.pi / 180)) Rpp Rps → rpp ≠ Rpp := by
  obtain ⟨i0, i1⟩ := lucky_rad
  obtain ⟨p0, p1, c0, c1⟩ := small_p i0 i1
  have hp : Real.sin (lucky * (Real.pi / 180)) / stiffBelow.α1
      = Real.sin (lucky * (Real.pi / 180)) / 2 := rfl
  have hp' : Real.sin lucky / stiffBelow.α1 = Real.sin (lucky * (Real.pi / 180)) / 2 := by
    rw [lucky_sin]; rfl
  have ha : stiffBelow.α1 = 2 := rfl
  have pc : PreCritical stiffBelow (Real.sin (lucky * (Real.pi / 180)) / 2) := by
    refine preCritical_of ?_ ?_ ?_ ?_ ?_ ?_ ?_ ?_ <;> (try unfold stiffBelow) <;> norm_num <;> linarith
  have ev := zoepp_eval (I := stiffBelow) (θ := lucky)
  have un := fun Rpp Rps => isReflection_iff (I := stiffBelow) (i := lucky * (Real.pi / 180))
    (Rpp := Rpp) (Rps := Rps)
  rw [hp', ha] at ev
  rw [hp, ha] at un
  clear hp hp'
  have cr := cross_eq stiffBelow (Real.sin (lucky * (Real.pi / 180)) / 2)
    (Real.cos (lucky * (Real.pi / 180)) / 2)
  generalize Real.sin (lucky * (Real.pi / 180)) / 2 = p at *
  generalize Real.cos (lucky * (Real.pi / 180)) = cx at *
  have p2 : p ^ 2 < 0.0009 := by nlinarith
  obtain ⟨y0, y1⟩ := cos_arcsin_bounds (u := p * 3) (by nlinarith)
  obtain ⟨z0, z1⟩ := cos_arcsin_bounds (u := p * 1) (by nlinarith)
  obtain ⟨w0, w1⟩ := cos_arcsin_bounds (u := p * (3 / 2)) (by nlinarith)
  have hy : 0.33 ≤ sy stiffBelow p ∧ sy stiffBelow p ≤ 1 / 3 := by
    unfold sy stiffBelow; dsimp only; constructor <;> linarith
  have hz : 0.99 ≤ sz stiffBelow p ∧ sz stiffBelow p ≤ 1 := by
    unfold sz stiffBelow; dsimp only; constructor <;> linarith
  have hw : 0.66 ≤ sw stiffBelow p ∧ sw stiffBelow p ≤ 2 / 3 := by
    unfold sw stiffBelow; dsimp only; constructor <;> linarith
  have q0 : 0 ≤ p ^ 2 := by positivity
  have va : 0.99 ≤ ia stiffBelow p ∧ ia stiffBelow p ≤ 1 := by
    unfold ia zA stiffBelow; dsimp only; constructor <;> nlinarith
  have vb : 1.99 ≤ ib stiffBelow p ∧ ib stiffBelow p ≤ 2 := by
    unfold ib zB stiffBelow; dsimp only; constructor <;> nlinarith
  have vc : 1 ≤ ic stiffBelow p ∧ ic stiffBelow p ≤ 1.01 := by
    unfold ic zC stiffBelow; dsimp only; constructor <;> nlinarith
  have vd : id' stiffBelow = 7 := by unfold id' zD stiffBelow; dsimp only; norm_num
  have gx : 0.49 ≤ cx / 2 ∧ cx / 2 ≤ 1 / 2 := ⟨by linarith, by linarith⟩
  have dC : 0 < iDen stiffBelow p (cx / 2) (hCode stiffBelow p) := by
    unfold iDen hCode; rw [vd]
    exact witness_den va vb vc gx hy hz hw q0 p2 (by linarith [hw.1]) (by linarith [hw.2])
  have dR : 0 < iDen stiffBelow p (cx / 2) (hRight stiffBelow p) := by
    unfold iDen hRight; rw [vd]
    exact witness_den va vb vc gx hy hz hw q0 p2 (by linarith [hz.1]) (by linarith [hz.2])
  have un' := fun Rpp Rps => un Rpp Rps pc dR.ne'
  refine ⟨_, _, ev pc dC.ne', ⟨_, _, (un' _ _).mpr ⟨rfl, rfl⟩⟩, ?_⟩
  intro Rpp Rps hR hE
  rw [((un' _ _).mp hR).1, div_eq_div_iff dC.ne' dR.ne', ← sub_eq_zero, cr, vd] at hE
  have py : 0 < sy stiffBelow p := by linarith only [hy.1]
  have pz : 0 < sz stiffBelow p := by linarith only [hz.1]
  have pw : 0 < sw stiffBelow p := by linarith only [hw.1]
  have pa : 0 < ia stiffBelow p := by linarith only [va.1]
  have pb : 0 < ib stiffBelow p := by linarith only [vb.1]
  have pc' : 0 < ic stiffBelow p := by linarith only [vc.1]
  have f1 : 0 < ib stiffBelow p * sz stiffBelow p + ic stiffBelow p * sw stiffBelow p := by
    positivity
  have f2 : 0 < 7 * sy stiffBelow p * (sz stiffBelow p - sw stiffBelow p) :=
    mul_pos (by positivity) (by linarith only [hz.1, hw.2])
  have f3 : 0 < ia stiffBelow p * ib stiffBelow p
      + ic stiffBelow p * 7 * sy stiffBelow p * sw stiffBelow p := by
    positivity
  have f0 : -2 * (cx / 2) * p ^ 2 < 0 :=
    mul_neg_of_neg_of_pos (by linarith only [gx.1]) (pow_pos p0 2)
  exact absurd hE (mul_neg_of_neg_of_pos (mul_neg_of_neg_of_pos
    (mul_neg_of_neg_of_pos f0 f1) f2) f3).ne

end RockPhy.Props
