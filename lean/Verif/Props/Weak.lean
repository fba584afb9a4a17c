import Verif.Props.AVO
import Verif.Props.Zoeppritz
import Mathlib.Analysis.Calculus.Deriv.Mul
import Mathlib.Analysis.Calculus.Deriv.Inv
import Mathlib.Analysis.SpecialFunctions.Sqrt

/-! # Property C78 (approximate reflectivity is the first order of the exact one) -/

namespace RockPhy.AVO

open Fl Spec Filter Topology

section

variable {a b r da db dr i : ℝ}

/-- A product whose first factor vanishes. -/
theorem hasDerivAt_mul_zero {f g : ℝ → ℝ} {f' : ℝ} (hf : HasDerivAt f f' 0) (h0 : f 0 = 0)
    (hg : DifferentiableAt ℝ g 0) : HasDerivAt (fun t => f t * g t) (f' * g 0) 0 := by
  refine (hf.mul hg.hasDerivAt).congr_deriv ?_
  rw [h0, zero_mul, add_zero]

theorem lin (m d : ℝ) : HasDerivAt (fun t : ℝ => m - t * d / 2) (-d / 2) 0 := by
  have h := ((hasDerivAt_id (0 : ℝ)).mul_const (d / 2)).const_sub m
  refine (h.congr_deriv (by ring)).congr_of_eventuallyEq (Eventually.of_forall fun t => ?_)
  simp only [id]; ring

theorem lin' (m d : ℝ) : HasDerivAt (fun t : ℝ => m + t * d / 2) (d / 2) 0 := by
  have h := ((hasDerivAt_id (0 : ℝ)).mul_const (d / 2)).const_add m
  refine (h.congr_deriv (by ring)).congr_of_eventuallyEq (Eventually.of_forall fun t => ?_)
  simp only [id]; ring

/-- First order of the closed form around a homogeneous medium. -/
theorem quotient_deriv {A B C D P X Y Z W : ℝ → ℝ} {A1 B1 C1 D1 x1 y1 p x z ρ : ℝ}
    (hA : HasDerivAt A A1 0) (hB : HasDerivAt B B1 0) (hC : HasDerivAt C C1 0)
    (hD : HasDerivAt D D1 0) (hP : DifferentiableAt ℝ P 0) (hX : HasDerivAt X x1 0)
    (hY : HasDerivAt Y y1 0) (hZ : DifferentiableAt ℝ Z 0) (hW : DifferentiableAt ℝ W 0)
    (A0 : A 0 = 0) (D0 : D 0 = 0) (B0 : B 0 = ρ) (C0 : C 0 = ρ) (P0 : P 0 = p) (X0 : X 0 = x)
    (Y0 : Y 0 = x) (Z0 : Z 0 = z) (W0 : W 0 = z) (hρ : ρ ≠ 0) (hx : x ≠ 0) (hz : z ≠ 0) :
    (ContinuousAt (fun t => zDen (A t) (B t) (C t) (D t) (P t) (X t) (Y t) (Z t) (W t)
        (A t - D t * Y t * Z t)) 0 ∧
      zDen (A 0) (B 0) (C 0) (D 0) (P 0) (X 0) (Y 0) (Z 0) (W 0) (A 0 - D 0 * Y 0 * Z 0) ≠ 0) ∧
    HasDerivAt (fun t => zNumP (A t) (B t) (C t) (D t) (P t) (X t) (Y t) (Z t) (W t)
        (A t - D t * Y t * Z t) / zDen (A t) (B t) (C t) (D t) (P t) (X t) (Y t) (Z t) (W t)
        (A t - D t * Y t * Z t)) ((B1 - C1) / (2 * ρ) + (x1 - y1) / (2 * x)) 0 ∧
    HasDerivAt (fun t => zNumS (A t) (B t) (C t) (D t) (P t) (X t) (Y t) (W t)
        / zDen (A t) (B t) (C t) (D t) (P t) (X t) (Y t) (Z t) (W t)
        (A t - D t * Y t * Z t)) (-p * (A1 + D1 * x * z) / (2 * ρ * z)) 0 := by
  have dA := hA.differentiableAt
  have dB := hB.differentiableAt
  have dC := hC.differentiableAt
  have dD := hD.differentiableAt
  have dX := hX.differentiableAt
  have dY := hY.differentiableAt
  have dF : DifferentiableAt ℝ (fun t => B t * Z t + C t * W t) 0 := (dB.mul hZ).add (dC.mul hW)
  have dH : DifferentiableAt ℝ (fun t => A t - D t * Y t * Z t) 0 := dA.sub ((dD.mul dY).mul hZ)
  have dDen : DifferentiableAt ℝ (fun t => zDen (A t) (B t) (C t) (D t) (P t) (X t) (Y t) (Z t)
      (W t) (A t - D t * Y t * Z t)) 0 :=
    (((dB.mul dX).add (dC.mul dY)).mul dF).add (((dA.sub ((dD.mul dX).mul hW)).mul dH).mul (hP.pow 2))
  have v : zDen (A 0) (B 0) (C 0) (D 0) (P 0) (X 0) (Y 0) (Z 0) (W 0) (A 0 - D 0 * Y 0 * Z 0)
      = 4 * ρ ^ 2 * x * z := by
    rw [A0, B0, C0, D0, P0, X0, Y0, Z0, W0]; unfold zDen; ring
  have v0 : 4 * ρ ^ 2 * x * z ≠ 0 := by positivity
  have hN : HasDerivAt (fun t => zNumP (A t) (B t) (C t) (D t) (P t) (X t) (Y t) (Z t) (W t)
      (A t - D t * Y t * Z t)) (((B1 - C1) * x + ρ * (x1 - y1)) * (2 * ρ * z)) 0 := by
    have h1 := hasDerivAt_mul_zero ((hB.mul hX).sub (hC.mul hY))
      (by simp only [Pi.sub_apply, Pi.mul_apply, B0, C0, X0, Y0, sub_self]) dF
    have h2 := hasDerivAt_mul_zero (hA.add (((dD.mul dX).mul hW).hasDerivAt))
      (by simp only [Pi.add_apply, Pi.mul_apply, A0, D0]; ring) (dH.mul (hP.pow 2))
    refine ((h1.sub h2).congr_deriv ?_).congr_of_eventuallyEq (Eventually.of_forall fun t => ?_)
    · simp only [Pi.mul_apply, Pi.pow_apply, A0, B0, C0, D0, X0, Y0, Z0, W0]; ring
    · simp only [Pi.mul_apply, Pi.pow_apply, Pi.sub_apply, Pi.add_apply]; unfold zNumP; ring
  have hS : HasDerivAt (fun t => zNumS (A t) (B t) (C t) (D t) (P t) (X t) (Y t) (W t))
      ((A1 + D1 * x * z) * (-2 * ρ * x * p)) 0 := by
    have h1 := hasDerivAt_mul_zero hA A0 ((dB.mul dX).mul hP)
    have h2 := hasDerivAt_mul_zero hD D0 ((((dC.mul dY).mul hW).mul dX).mul hP)
    refine (((h1.add h2).const_mul (-2)).congr_deriv ?_).congr_of_eventuallyEq
      (Eventually.of_forall fun t => ?_)
    · simp only [Pi.mul_apply, B0, C0, X0, Y0, W0, P0]; ring
    · simp only [Pi.mul_apply, Pi.add_apply]; unfold zNumS; ring
  refine ⟨⟨dDen.continuousAt, by rw [v]; exact v0⟩, ?_, ?_⟩
  · refine (hasDerivAt_mul_zero hN ?_ (dDen.inv (by rw [v]; exact v0))).congr_deriv ?_
    · rw [A0, B0, C0, D0, P0, X0, Y0, Z0, W0]; unfold zNumP; ring
    · simp only [Pi.inv_apply]; rw [v]; field
  · refine (hasDerivAt_mul_zero hS ?_ (dDen.inv (by rw [v]; exact v0))).congr_deriv ?_
    · rw [A0, B0, C0, D0, P0, X0, Y0, W0]; unfold zNumS; ring
    · simp only [Pi.inv_apply]; rw [v]; field

/-- Cosine of the refracted direction in a slowly varying medium. -/
theorem cos_refracted {s m d v e : ℝ} (hm : 0 < m) (hs : |s / m * v| < 1) :
    HasDerivAt (fun t : ℝ => Real.cos (Real.arcsin (s / (m - t * d / 2) * (v + t * e / 2))))
      (-(s / m * v) * (s * (d / 2) / m ^ 2 * v + s / m * (e / 2))
        / Real.cos (Real.arcsin (s / m * v))) 0 := by
  have pos : 0 < 1 - (s / m * v) ^ 2 := by
    have := (sq_lt_one_iff_abs_lt_one _).mpr hs; linarith
  have m0 : m - 0 * d / 2 = m := by ring
  have v0 : v + 0 * e / 2 = v := by ring
  have h1 := (((lin m d).inv (by rw [m0]; exact hm.ne')).const_mul s).mul (lin' v e)
  have h2 := (h1.pow 2).const_sub 1
  have h3 := h2.sqrt (by
    simp only [Pi.pow_apply, Pi.mul_apply, Pi.inv_apply]
    rw [m0, v0, ← div_eq_mul_inv]; exact pos.ne')
  refine (h3.congr_deriv ?_).congr_of_eventuallyEq (Eventually.of_forall fun t => ?_)
  · simp only [Pi.pow_apply, Pi.mul_apply, Pi.inv_apply]
    rw [m0, v0, Real.cos_arcsin, ← div_eq_mul_inv]
    have := (Real.sqrt_pos.mpr pos).ne'
    generalize Real.sqrt (1 - (s / m * v) ^ 2) = q at *
    push_cast
    field
  · simp only [Pi.pow_apply, Pi.mul_apply, Pi.inv_apply]
    rw [Real.cos_arcsin, ← div_eq_mul_inv]

/-- Exact reflection coefficients (closed form) of a weak contrast. -/
noncomputable def exactP (a b r da db dr i t : ℝ) : ℝ :=
  let I := weakContrast a b r da db dr t
  iNumP I (Real.sin i / I.α1) (Real.cos i / I.α1) (hRight I (Real.sin i / I.α1))
    / iDen I (Real.sin i / I.α1) (Real.cos i / I.α1) (hRight I (Real.sin i / I.α1))
noncomputable def exactS (a b r da db dr i t : ℝ) : ℝ :=
  let I := weakContrast a b r da db dr t
  I.α1 / I.β1 * (iNumS I (Real.sin i / I.α1) (Real.cos i / I.α1)
    / iDen I (Real.sin i / I.α1) (Real.cos i / I.α1) (hRight I (Real.sin i / I.α1)))

theorem exact_deriv (ha : 0 < a) (hb : 0 < b) (hr : 0 < r) (hba : b < a) (hi : 0 < Real.cos i) :
    (∀ᶠ t in 𝓝 (0 : ℝ), iDen (weakContrast a b r da db dr t)
        (Real.sin i / (weakContrast a b r da db dr t).α1)
        (Real.cos i / (weakContrast a b r da db dr t).α1)
        (hRight (weakContrast a b r da db dr t)
          (Real.sin i / (weakContrast a b r da db dr t).α1)) ≠ 0) ∧
    HasDerivAt (exactP a b r da db dr i) (akiRichards a b r da db dr i) 0 ∧
    HasDerivAt (exactS a b r da db dr i) (akiRichardsPS a b r db dr (Real.sin i / a) (Real.cos i)
      (Real.cos (Real.arcsin (Real.sin i / a * b)))) 0 := by
  have s1 := Real.abs_sin_le_one i
  have hs : |Real.sin i| < 1 := by
    rw [← sq_lt_one_iff_abs_lt_one, Real.sin_sq]; nlinarith
  have hsa : |Real.sin i / a * a| < 1 := by rwa [div_mul_cancel₀ _ ha.ne']
  have hsb : |Real.sin i / a * b| < 1 := by
    rw [abs_mul, abs_div, abs_of_pos ha, abs_of_pos hb, div_mul_eq_mul_div, div_lt_one ha]
    nlinarith
  have a0 : a - 0 * da / 2 = a := by ring
  have a0' : a + 0 * da / 2 = a := by ring
  have b0 : b - 0 * db / 2 = b := by ring
  have b0' : b + 0 * db / 2 = b := by ring
  have r0 : r - 0 * dr / 2 = r := by ring
  have r0' : r + 0 * dr / 2 = r := by ring
  have hP : HasDerivAt (fun t : ℝ => Real.sin i / (a - t * da / 2)) _ 0 :=
    (hasDerivAt_const (0 : ℝ) (Real.sin i)).div (lin a da) (by rw [a0]; exact ha.ne')
  have hX : HasDerivAt (fun t : ℝ => Real.cos i / (a - t * da / 2)) _ 0 :=
    (hasDerivAt_const (0 : ℝ) (Real.cos i)).div (lin a da) (by rw [a0]; exact ha.ne')
  have hY : HasDerivAt (fun t : ℝ => Real.cos (Real.arcsin (Real.sin i / (a - t * da / 2)
      * (a + t * da / 2))) / (a + t * da / 2)) _ 0 :=
    (cos_refracted (d := da) (e := da) ha hsa).div (lin' a da) (by rw [a0']; exact ha.ne')
  have hW : HasDerivAt (fun t : ℝ => Real.cos (Real.arcsin (Real.sin i / (a - t * da / 2)
      * (b + t * db / 2))) / (b + t * db / 2)) _ 0 :=
    (cos_refracted (d := da) (e := db) ha hsb).div (lin' b db) (by rw [b0']; exact hb.ne')
  have hZ : DifferentiableAt ℝ (fun t : ℝ => Real.cos (Real.arcsin (Real.sin i / (a - t * da / 2)
      * (b - t * db / 2))) / (b - t * db / 2)) 0 := by
    have h := (cos_refracted (d := da) (e := -db) ha hsb).div (lin b db) (by rw [b0]; exact hb.ne')
    refine (h.congr_of_eventuallyEq (Eventually.of_forall fun t => ?_)).differentiableAt
    simp only [Pi.div_apply]
    rw [show b + t * -db / 2 = b - t * db / 2 by ring]
  have hm1 : HasDerivAt (fun t : ℝ => (r - t * dr / 2) * (b - t * db / 2) ^ 2) _ 0 :=
    (lin r dr).mul ((lin b db).pow 2)
  have hm2 : HasDerivAt (fun t : ℝ => (r + t * dr / 2) * (b + t * db / 2) ^ 2) _ 0 :=
    (lin' r dr).mul ((lin' b db).pow 2)
  have hD : HasDerivAt (fun t : ℝ => zD ((r - t * dr / 2) * (b - t * db / 2) ^ 2)
      ((r + t * dr / 2) * (b + t * db / 2) ^ 2)) _ 0 := (hm2.sub hm1).const_mul 2
  have hA : HasDerivAt (fun t : ℝ => zA (Real.sin i / (a - t * da / 2)) (r - t * dr / 2)
      (r + t * dr / 2) ((r - t * dr / 2) * (b - t * db / 2) ^ 2)
      ((r + t * dr / 2) * (b + t * db / 2) ^ 2)) _ 0 :=
    ((lin' r dr).sub ((hm2.const_mul 2).mul (hP.pow 2))).sub
      ((lin r dr).sub ((hm1.const_mul 2).mul (hP.pow 2)))
  have hB : HasDerivAt (fun t : ℝ => zB (Real.sin i / (a - t * da / 2))
      (r + t * dr / 2) ((r - t * dr / 2) * (b - t * db / 2) ^ 2)
      ((r + t * dr / 2) * (b + t * db / 2) ^ 2)) _ 0 :=
    ((lin' r dr).sub ((hm2.const_mul 2).mul (hP.pow 2))).add ((hm1.const_mul 2).mul (hP.pow 2))
  have hC : HasDerivAt (fun t : ℝ => zC (Real.sin i / (a - t * da / 2))
      (r - t * dr / 2) ((r - t * dr / 2) * (b - t * db / 2) ^ 2)
      ((r + t * dr / 2) * (b + t * db / 2) ^ 2)) _ 0 :=
    ((lin r dr).sub ((hm1.const_mul 2).mul (hP.pow 2))).add ((hm2.const_mul 2).mul (hP.pow 2))
  have cj : 0 < Real.cos (Real.arcsin (Real.sin i / a * b)) := by
    rw [Real.cos_arcsin]
    have := (sq_lt_one_iff_abs_lt_one _).mpr hsb
    exact Real.sqrt_pos.mpr (by linarith)
  have ci : Real.cos (Real.arcsin (Real.sin i / a * a)) = Real.cos i := by
    rw [div_mul_cancel₀ _ ha.ne', Real.cos_arcsin, ← Real.cos_sq', Real.sqrt_sq hi.le]
  obtain ⟨⟨c1, c2⟩, q1, q2⟩ := quotient_deriv (ρ := r) (x := Real.cos i / a) (p := Real.sin i / a)
    (z := Real.cos (Real.arcsin (Real.sin i / a * b)) / b)
    hA hB hC hD hP.differentiableAt hX hY hZ hW.differentiableAt
    (by rw [a0, b0, b0', r0, r0']; unfold zA; ring) (by rw [b0, b0', r0, r0']; unfold zD; ring)
    (by rw [a0, b0, b0', r0, r0']; unfold zB; ring) (by rw [a0, b0, b0', r0, r0']; unfold zC; ring)
    (by rw [a0]) (by rw [a0]) (by rw [a0, a0', ci]) (by rw [a0, b0]) (by rw [a0, b0']) hr.ne'
    (by positivity) (by positivity)
  refine ⟨c1.eventually_ne c2, ?_, ?_⟩
  · refine HasDerivAt.congr_deriv q1 ?_
    simp only [Pi.pow_apply, a0, a0', b0, b0', r0, r0', ci]
    unfold akiRichards
    have e : Real.sin i ^ 2 = 1 - Real.cos i ^ 2 := Real.sin_sq i
    generalize Real.cos i = c at *
    generalize Real.sin i = s at *
    push_cast
    have key : 1 / (2 * c ^ 2) = (s ^ 2 + c ^ 2) / (2 * c ^ 2) := by rw [e]; ring
    rw [key]
    clear e key
    field
  · have h3 := ((lin a da).div (lin b db) (by rw [b0]; exact hb.ne')).mul q2
    refine HasDerivAt.congr_deriv h3 ?_
    simp only [Pi.pow_apply, Pi.div_apply, a0, a0', b0, b0', r0, r0', ci]
    unfold akiRichardsPS zNumS zA zD
    generalize Real.cos (Real.arcsin (Real.sin i / a * b)) = w at *
    generalize Real.cos i = c at *
    generalize Real.sin i = s at *
    push_cast
    field

end

end RockPhy.AVO

namespace RockPhy.AVO

open Fl Spec Filter Topology

variable {a b r da db dr i : ℝ}

theorem weak_pos (m d : ℝ) (hm : 0 < m) :
    (∀ᶠ t : ℝ in 𝓝 0, 0 < m - t * d / 2) ∧ ∀ᶠ t : ℝ in 𝓝 0, 0 < m + t * d / 2 :=
  ⟨(lin m d).continuousAt.eventually_const_lt (by simp only [zero_mul, zero_div, sub_zero]; exact hm),
    (lin' m d).continuousAt.eventually_const_lt (by simp only [zero_mul, zero_div, add_zero]; exact hm)⟩

/-- A weak contrast has no critical angle near a fixed angle below 90 degrees. -/
theorem weak_preCritical (ha : 0 < a) (hb : 0 < b) (hba : b < a) (hi : 0 < Real.cos i) :
    ∀ᶠ t in 𝓝 (0 : ℝ), PreCritical (weakContrast a b r da db dr t)
      (Real.sin i / (weakContrast a b r da db dr t).α1) := by
  have hs : |Real.sin i| < 1 := by
    rw [← sq_lt_one_iff_abs_lt_one, Real.sin_sq]; nlinarith
  have hsb : |Real.sin i / a * b| < 1 := by
    rw [abs_mul, abs_div, abs_of_pos ha, abs_of_pos hb, div_mul_eq_mul_div, div_lt_one ha]
    nlinarith [abs_nonneg (Real.sin i)]
  have cP : ContinuousAt (fun t : ℝ => Real.sin i / (a - t * da / 2)) 0 :=
    continuousAt_const.div (lin a da).continuousAt (by rw [zero_mul, zero_div, sub_zero]; exact ha.ne')
  have e1 : ∀ᶠ t : ℝ in 𝓝 0, |Real.sin i / (a - t * da / 2) * (a + t * da / 2)| < 1 :=
    (cP.mul (lin' a da).continuousAt).abs.eventually_lt_const
      (by simp only [Pi.mul_apply, zero_mul, zero_div, sub_zero, add_zero]; rwa [div_mul_cancel₀ _ ha.ne'])
  have e2 : ∀ᶠ t : ℝ in 𝓝 0, |Real.sin i / (a - t * da / 2) * (b - t * db / 2)| < 1 :=
    (cP.mul (lin b db).continuousAt).abs.eventually_lt_const
      (by simp only [Pi.mul_apply, zero_mul, zero_div, sub_zero]; exact hsb)
  have e3 : ∀ᶠ t : ℝ in 𝓝 0, |Real.sin i / (a - t * da / 2) * (b + t * db / 2)| < 1 :=
    (cP.mul (lin' b db).continuousAt).abs.eventually_lt_const
      (by simp only [Pi.mul_apply, zero_mul, zero_div, sub_zero, add_zero]; exact hsb)
  filter_upwards [(weak_pos a da ha).1, (weak_pos a da ha).2, (weak_pos b db hb).1,
    (weak_pos b db hb).2, e1, e2, e3] with t p1 p2 p3 p4 q1 q2 q3
  exact ⟨p1, p2, p3, p4, q1.le, q2.le, q3.le⟩

theorem weak_reflection (ha : 0 < a) (hb : 0 < b) (hr : 0 < r) (hba : b < a)
    (hi : 0 < Real.cos i) :
    ∀ᶠ t in 𝓝 (0 : ℝ), ∀ R S, IsReflection (weakContrast a b r da db dr t) i R S ↔
      R = exactP a b r da db dr i t ∧ S = exactS a b r da db dr i t := by
  filter_upwards [weak_preCritical (r := r) (da := da) (db := db) (dr := dr) ha hb hba hi,
    (exact_deriv (da := da) (db := db) (dr := dr) ha hb hr hba hi).1] with t h1 h2 R S
  exact isReflection_iff h1 h2

end RockPhy.AVO

namespace RockPhy.Props

open Fl Spec AVO Filter Topology Asymptotics

/-- C78: the reflection coefficients that solve the boundary equations exist for every weak
contrast, and their first order in the contrast is the Aki-Richards P and converted reflectivity
(`a`, `b`, `r` the averages, `t da`, `t db`, `t dr` the contrasts). -/
theorem C78_exact_first_order {a b r da db dr i : ℝ} (ha : 0 < a) (hb : 0 < b) (hr : 0 < r)
    (hba : b < a) (h0 : -(Real.pi / 2) < i) (h1 : i < Real.pi / 2) :
    (∀ᶠ t in 𝓝 (0 : ℝ), ∃ R S, IsReflection (weakContrast a b r da db dr t) i R S) ∧
    ∀ R S : ℝ → ℝ, (∀ᶠ t in 𝓝 (0 : ℝ), IsReflection (weakContrast a b r da db dr t) i (R t) (S t)) →
      HasDerivAt R (akiRichards a b r da db dr i) 0 ∧
      HasDerivAt S (akiRichardsPS a b r db dr (Real.sin i / a) (Real.cos i)
        (Real.cos (Real.arcsin (Real.sin i / a * b)))) 0 := by
  have hi := Real.cos_pos_of_mem_Ioo ⟨h0, h1⟩
  have w := weak_reflection (da := da) (db := db) (dr := dr) ha hb hr hba hi
  obtain ⟨-, d1, d2⟩ := exact_deriv (da := da) (db := db) (dr := dr) ha hb hr hba hi
  refine ⟨w.mono fun t h => ⟨_, _, (h _ _).mpr ⟨rfl, rfl⟩⟩, fun R S h => ?_⟩
  have q := (w.and h).mono fun t h => (h.1 _ _).mp h.2
  exact ⟨d1.congr_of_eventuallyEq (q.mono fun t h => h.1),
    d2.congr_of_eventuallyEq (q.mono fun t h => h.2)⟩

/-- C78: `Aki_Richards` agrees with the exact reflection coefficients up to terms of higher order
in the contrast, for the P and for the converted reflectivity. -/
theorem C78_aki_richards {a b r da db dr θ : ℝ} (ha : 0 < a) (hb : 0 < b) (hr : 0 < r)
    (hba : b < a) (hθ0 : -90 < θ) (hθ1 : θ < 90) {R S : ℝ → ℝ}
    (h : ∀ᶠ t in 𝓝 (0 : ℝ), IsReflection (weakContrast a b r da db dr t) (θ * (Real.pi / 180))
      (R t) (S t)) :
    ∃ A B : ℝ → ℝ, (∀ᶠ t in 𝓝 (0 : ℝ),
      (Aki_Richards (fin θ) (fin (a - t * da / 2)) (fin (a + t * da / 2)) (fin (b - t * db / 2))
        (fin (b + t * db / 2)) (fin (r - t * dr / 2)) (fin (r + t * dr / 2))).1 = fin (A t) ∧
      (Aki_Richards (fin θ) (fin (a - t * da / 2)) (fin (a + t * da / 2)) (fin (b - t * db / 2))
        (fin (b + t * db / 2)) (fin (r - t * dr / 2)) (fin (r + t * dr / 2))).2.1 = fin (B t)) ∧
      (fun t => A t - R t) =o[𝓝 0] (fun t => t) ∧ (fun t => B t - S t) =o[𝓝 0] (fun t => t) := by
  have hi := cos_deg_pos hθ0 hθ1
  have pp := Real.pi_pos
  obtain ⟨-, ex⟩ := C78_exact_first_order (da := da) (db := db) (dr := dr) (i := θ * (Real.pi / 180))
    ha hb hr hba (by nlinarith) (by nlinarith)
  obtain ⟨dR, dS⟩ := ex R S h
  have hsb : |Real.sin (θ * (Real.pi / 180)) / a * b| < 1 := by
    have := Real.abs_sin_le_one (θ * (Real.pi / 180))
    rw [abs_mul, abs_div, abs_of_pos ha, abs_of_pos hb, div_mul_eq_mul_div, div_lt_one ha]
    nlinarith
  have cP : ContinuousAt (fun t : ℝ => Real.sin (θ * (Real.pi / 180)) / (a - t * da / 2)) 0 :=
    continuousAt_const.div (lin a da).continuousAt (by rw [zero_mul, zero_div, sub_zero]; exact ha.ne')
  have cJ : ContinuousAt (fun t : ℝ => Real.cos (Real.arcsin (Real.sin (θ * (Real.pi / 180))
      / (a - t * da / 2) * (b - t * db / 2)))) 0 :=
    (Real.continuous_cos.comp Real.continuous_arcsin).continuousAt.comp
      (cP.mul (lin b db).continuousAt)
  have cj : 0 < Real.cos (Real.arcsin (Real.sin (θ * (Real.pi / 180)) / a * b)) := by
    rw [Real.cos_arcsin]
    have := (sq_lt_one_iff_abs_lt_one _).mpr hsb
    exact Real.sqrt_pos.mpr (by linarith)
  have e0 : weakContrast a b r da db dr 0 = ⟨a, b, r, a, b, r⟩ := by
    unfold weakContrast; simp only [zero_mul, zero_div, sub_zero, add_zero]
  have z := (weak_reflection (da := da) (db := db) (dr := dr) ha hb hr hba hi).self_of_nhds
  have z0 := (z 0 0).mp (by
    rw [e0]; exact C50_no_contrast_spec ha.ne' (by nlinarith) (by nlinarith))
  obtain ⟨R0, S0⟩ := (z _ _).mp h.self_of_nhds
  rw [← z0.1] at R0
  rw [← z0.2] at S0
  let i := θ * (Real.pi / 180)
  let g : ℝ → ℝ := fun t => akiRichardsPS a b r db dr (Real.sin i / (a - t * da / 2)) (Real.cos i)
    (Real.cos (Real.arcsin (Real.sin i / (a - t * da / 2) * (b - t * db / 2))))
  have cg : ContinuousAt g 0 := by
    have k := cP.pow 2
    refine ((cP.mul_const a).div (cJ.const_mul 2) ?_).neg.mul
      ((((continuousAt_const.sub (k.const_mul (2 * b ^ 2))).add
        ((cJ.div_const b).const_mul (2 * b ^ 2 * (Real.cos i / a)))).mul_const (dr / r)).sub
        (((k.const_mul (4 * b ^ 2)).sub
          ((cJ.div_const b).const_mul (4 * b ^ 2 * (Real.cos i / a)))).mul_const (db / b)))
    simp only [zero_mul, zero_div, sub_zero]
    positivity
  have small : ∀ {f g : ℝ → ℝ} {f' : ℝ}, HasDerivAt f f' 0 → f 0 = 0 → ContinuousAt g 0 → g 0 = f' →
      (fun t => t * g t - f t) =o[𝓝 0] (fun t => t) := by
    intro f g f' hf f0 hg hg0
    have h1 := (hasDerivAt_iff_isLittleO.mp hf).neg_left
    have h2 : (fun t => t * (g t - f')) =o[𝓝 0] (fun t : ℝ => t) := by
      have : (fun t => g t - f') =o[𝓝 0] (fun _ : ℝ => (1 : ℝ)) := by
        rw [isLittleO_one_iff]
        have := Tendsto.sub_const (hg0 ▸ hg : Tendsto g (𝓝 0) (𝓝 f')) f'
        rwa [sub_self] at this
      simpa using (isBigO_refl (fun t : ℝ => t) (𝓝 0)).mul_isLittleO this
    simp only [f0, sub_zero, smul_eq_mul] at h1
    refine (h1.add h2).congr_left fun t => ?_
    ring
  refine ⟨fun t => t * akiRichards a b r da db dr i, fun t => t * g t, ?_,
    small (g := fun _ => akiRichards a b r da db dr i) dR R0 continuousAt_const rfl,
    small dS S0 cg (by simp only [g, i, zero_mul, zero_div, sub_zero])⟩
  have e2 : ∀ᶠ t : ℝ in 𝓝 0, |Real.sin i / (a - t * da / 2) * (b - t * db / 2)| < 1 :=
    (cP.mul (lin b db).continuousAt).abs.eventually_lt_const
      (by simp only [Pi.mul_apply, zero_mul, zero_div, sub_zero]; exact hsb)
  filter_upwards [(weak_pos a da ha).1, e2] with t p1 p2
  have s1 : a - t * da / 2 + (a + t * da / 2) = 2 * a := by ring
  have s2 : b - t * db / 2 + (b + t * db / 2) = 2 * b := by ring
  have s3 : r - t * dr / 2 + (r + t * dr / 2) = 2 * r := by ring
  have q1 := (ar_eval (θ := θ) (by rw [s1]; positivity) (by rw [s2]; positivity)
    (by rw [s3]; positivity) hi.ne').1
  have q2 := ar_ps_eval (θ := θ) p1.ne' (by rw [s1]; positivity) (by rw [s2]; positivity)
    (by rw [s3]; positivity) p2
  rw [q1, q2, s1, s2, s3]
  have m : ∀ x : ℝ, 2 * x / 2 = x := fun x => by ring
  have d : ∀ x y : ℝ, x + t * y / 2 - (x - t * y / 2) = t * y := fun x y => by ring
  rw [m, m, m, d, d, d]
  refine ⟨congrArg fin ?_, congrArg fin ?_⟩
  · unfold akiRichards; ring
  · simp only [g]; unfold akiRichardsPS; ring

/-- A concrete medium: 3000 m/s, 1500 m/s, 2300 kg/m³, 30 degrees. -/
example : ∃ R S : ℝ → ℝ, (∀ᶠ t in 𝓝 (0 : ℝ),
      IsReflection (weakContrast 3 1.5 2.3 1 1 0.2 t) (30 * (Real.pi / 180)) (R t) (S t)) ∧
    HasDerivAt R (akiRichards 3 1.5 2.3 1 1 0.2 (30 * (Real.pi / 180))) 0 := by
  have pp := Real.pi_pos
  have hi : 0 < Real.cos (30 * (Real.pi / 180)) :=
    Real.cos_pos_of_mem_Ioo ⟨by linarith, by linarith⟩
  have w := weak_reflection (a := 3) (b := 1.5) (r := 2.3) (da := 1) (db := 1) (dr := 0.2)
    (by norm_num) (by norm_num) (by norm_num) (by norm_num) hi
  refine ⟨_, _, w.mono fun t h => (h _ _).mpr ⟨rfl, rfl⟩, ?_⟩
  exact ((C78_exact_first_order (by norm_num) (by norm_num) (by norm_num) (by norm_num)
    (by linarith) (by linarith)).2 _ _ (w.mono fun t h => (h _ _).mpr ⟨rfl, rfl⟩)).1

/-- C49: the second result of `AVO_abe` is Shuey's gradient, in terms of the relative contrasts and
of Poisson's ratios of the two layers, wherever the intercept is not zero. -/
theorem C49_shuey {a1 a2 b1 b2 r1 r2 : ℝ} (hb1 : 0 < b1) (hb2 : 0 < b2) (h1 : b1 < a1)
    (h2 : b2 < a2) (hr1 : 0 < r1) (hr2 : 0 < r2)
    (h0 : (a2 - a1) / ((a1 + a2) / 2) + (r2 - r1) / ((r1 + r2) / 2) ≠ 0) :
    (AVO_abe (fin a1) (fin b1) (fin r1) (fin a2) (fin b2) (fin r2)).2.1
      = fin (shueyGradient ((a2 - a1) / ((a1 + a2) / 2)) ((r2 - r1) / ((r1 + r2) / 2))
          (poissonRatio a1 b1) (poissonRatio a2 b2)) := by
  have pr : ∀ {a b : ℝ}, 0 < b → b < a → ((1 / 2 * (a / b) ^ 2) - 1) / ((a / b) ^ 2 - 1)
      = poissonRatio a b ∧ (a / b) ^ 2 - 1 ≠ 0 ∧ poissonRatio a b < 1 / 2 := by
    intro a b hb h
    have ha : 0 < a := hb.trans h
    have d : 0 < a ^ 2 - b ^ 2 := by nlinarith
    have e : (a / b) ^ 2 - 1 = (a ^ 2 - b ^ 2) / b ^ 2 := by field
    have n : (a / b) ^ 2 - 1 ≠ 0 := by rw [e]; positivity
    refine ⟨?_, n, ?_⟩
    · unfold poissonRatio
      rw [e]; field
    · unfold poissonRatio
      rw [div_lt_iff₀ (by positivity)]
      nlinarith
  obtain ⟨e1, n1, l1⟩ := pr hb1 h1
  obtain ⟨e2, n2, l2⟩ := pr hb2 h2
  have a1p : 0 < a1 := hb1.trans h1
  have a2p : 0 < a2 := hb2.trans h2
  have sci : (0.5 : Fl) = fin (1 / 2) := by rw [fl_sci]; norm_num
  have q1 : ((0.5 * (fin a1 / fin b1) ** 2) - 1) / ((fin a1 / fin b1) ** 2 - 1)
      = fin (poissonRatio a1 b1) := by
    rw [← e1]; fl_eval [sci]
  have q2 : ((0.5 * (fin a2 / fin b2) ** 2) - 1) / ((fin a2 / fin b2) ** 2 - 1)
      = fin (poissonRatio a2 b2) := by
    rw [← e2]; fl_eval [sci]
  have u : (fin a2 - fin a1) / ((fin a1 + fin a2) / 2) = fin ((a2 - a1) / ((a1 + a2) / 2)) := by
    have : (a1 + a2) / 2 ≠ 0 := by positivity
    fl_eval []
  have v : (fin r2 - fin r1) / ((fin r1 + fin r2) / 2) = fin ((r2 - r1) / ((r1 + r2) / 2)) := by
    have : (r1 + r2) / 2 ≠ 0 := by positivity
    fl_eval []
  have n3 : 1 - (poissonRatio a1 b1 + poissonRatio a2 b2) / 2 ≠ 0 := by linarith
  unfold AVO_abe shueyGradient
  dsimp only
  rw [q1, q2, u, v]
  generalize (a2 - a1) / ((a1 + a2) / 2) = x at *
  generalize (r2 - r1) / ((r1 + r2) / 2) = y at *
  generalize poissonRatio a1 b1 = σ1 at *
  generalize poissonRatio a2 b2 = σ2 at *
  fl_eval [sci]
  exact congrArg fin (by ring)

example : (AVO_abe (fin 3) (fin 1.5) (fin 2.2) (fin 4) (fin 2) (fin 2.4)).2.1
    = fin (shueyGradient ((4 - 3) / ((3 + 4) / 2)) ((2.4 - 2.2) / ((2.2 + 2.4) / 2))
      (poissonRatio 3 1.5) (poissonRatio 4 2)) :=
  C49_shuey (by norm_num) (by norm_num) (by norm_num) (by norm_num) (by norm_num) (by norm_num)
    (by norm_num)

/-- Slope at normal incidence of the first-order converted reflectivity, for incidence from a medium
with the velocities `a1`, `b1`. -/
theorem ps_slope {a b r db dr a1 b1 : ℝ} (ha : a ≠ 0) (hb : b ≠ 0) :
    HasDerivAt (fun i => akiRichardsPS a b r db dr (Real.sin i / a1) (Real.cos i)
        (Real.cos (Real.arcsin (Real.sin i / a1 * b1))))
      (-(a / (2 * a1)) * ((1 + 2 * (b / a)) * (dr / r) + 4 * (b / a) * (db / b))) 0 := by
  have cS : ContinuousAt (fun i => Real.sin i / a1) 0 := Real.continuous_sin.continuousAt.div_const a1
  have cC : ContinuousAt Real.cos 0 := Real.continuous_cos.continuousAt
  have cJ : ContinuousAt (fun i => Real.cos (Real.arcsin (Real.sin i / a1 * b1))) 0 :=
    (Real.continuous_cos.comp Real.continuous_arcsin).continuousAt.comp (cS.mul_const b1)
  let g : ℝ → ℝ := fun i => -(a / a1 / (2 * Real.cos (Real.arcsin (Real.sin i / a1 * b1))))
    * ((1 - 2 * b ^ 2 * (Real.sin i / a1) ^ 2 + 2 * b ^ 2 * (Real.cos i / a)
        * (Real.cos (Real.arcsin (Real.sin i / a1 * b1)) / b)) * (dr / r)
      - (4 * b ^ 2 * (Real.sin i / a1) ^ 2 - 4 * b ^ 2 * (Real.cos i / a)
        * (Real.cos (Real.arcsin (Real.sin i / a1 * b1)) / b)) * (db / b))
  have cg : ContinuousAt g 0 := by
    have k := cS.pow 2
    have m : ∀ c : ℝ, ContinuousAt (fun i => c * (Real.cos i / a)
        * (Real.cos (Real.arcsin (Real.sin i / a1 * b1)) / b)) 0 := fun c =>
      ((cC.div_const a).const_mul c).mul (cJ.div_const b)
    refine (continuousAt_const.div (cJ.const_mul 2) ?_).neg.mul
      ((((continuousAt_const.sub (k.const_mul (2 * b ^ 2))).add (m (2 * b ^ 2))).mul_const (dr / r)).sub
        (((k.const_mul (4 * b ^ 2)).sub (m (4 * b ^ 2))).mul_const (db / b)))
    simp
  have hs := Real.hasDerivAt_sin 0
  have g0 : g 0 = -(a / (2 * a1)) * ((1 + 2 * (b / a)) * (dr / r) + 4 * (b / a) * (db / b)) := by
    simp only [g, Real.sin_zero, Real.cos_zero, zero_div, zero_mul, Real.arcsin_zero]
    field
  have e : (fun i => akiRichardsPS a b r db dr (Real.sin i / a1) (Real.cos i)
      (Real.cos (Real.arcsin (Real.sin i / a1 * b1)))) = fun i => Real.sin i * g i := by
    funext i
    simp only [g]
    unfold akiRichardsPS
    ring
  rw [e, ← g0, hasDerivAt_iff_tendsto_slope]
  rw [hasDerivAt_iff_tendsto_slope, Real.cos_zero] at hs
  have cg' : Tendsto g (𝓝[≠] 0) (𝓝 (g 0)) := cg.tendsto.mono_left nhdsWithin_le_nhds
  have h := hs.mul cg'
  rw [one_mul] at h
  refine h.congr' (Eventually.of_forall fun t => ?_)
  simp only [slope_def_field, Real.sin_zero, sub_zero, zero_mul]
  ring

/-- C49: the converted-wave coefficients of `AVO_abe`.  The last result is the slope at normal
incidence of the converted reflectivity that `Aki_Richards` returns, times the ratio of the upper
to the average S velocity.  The fourth result is that slope for incidence at the average P
velocity, plus a term of third order in the velocity ratio. -/
theorem C49_converted {a1 a2 b1 b2 r1 r2 : ℝ} (ha1 : 0 < a1) (ha2 : 0 < a2) (hb1 : 0 < b1)
    (hb2 : 0 < b2) (hba : b1 < a1) (hr1 : 0 < r1) (hr2 : 0 < r2) :
    ∃ (P : ℝ → ℝ) (s q : ℝ), (∀ θ, -90 < θ → θ < 90 →
        (Aki_Richards (fin θ) (fin a1) (fin a2) (fin b1) (fin b2) (fin r1) (fin r2)).2.1
          = fin (P (θ * (Real.pi / 180)))) ∧
      HasDerivAt P s 0 ∧
      HasDerivAt (fun i => akiRichardsPS ((a1 + a2) / 2) ((b1 + b2) / 2) ((r1 + r2) / 2) (b2 - b1)
        (r2 - r1) (Real.sin i / ((a1 + a2) / 2)) (Real.cos i)
        (Real.cos (Real.arcsin (Real.sin i / ((a1 + a2) / 2) * ((b1 + b2) / 2))))) q 0 ∧
      (AVO_abe (fin a1) (fin b1) (fin r1) (fin a2) (fin b2) (fin r2)).2.2.2
        = (fin (q + ((b1 + b2) / (a1 + a2)) ^ 3 * ((r2 - r1) / (r1 + r2) + 2 * (b2 - b1) / (b1 + b2))),
          fin (b1 / ((b1 + b2) / 2) * s)) := by
  have n1 : a1 + a2 ≠ 0 := by positivity
  have n2 : b1 + b2 ≠ 0 := by positivity
  have n3 : r1 + r2 ≠ 0 := by positivity
  obtain ⟨-, -, f1, f2⟩ := abe_eval n1 n2 n3 ha1.ne'
  refine ⟨_, _, _, fun θ h0 h1 => ?_, ps_slope (a := (a1 + a2) / 2) (b := (b1 + b2) / 2)
      (r := (r1 + r2) / 2) (db := b2 - b1) (dr := r2 - r1) (b1 := b1) (a1 := a1) (by positivity)
      (by positivity),
    ps_slope (by positivity) (by positivity), Prod.ext (f1.trans (congrArg fin ?_))
      (f2.trans (congrArg fin ?_))⟩
  · have hs : |Real.sin (θ * (Real.pi / 180)) / a1 * b1| < 1 := by
      have := Real.abs_sin_le_one (θ * (Real.pi / 180))
      rw [abs_mul, abs_div, abs_of_pos ha1, abs_of_pos hb1, div_mul_eq_mul_div, div_lt_one ha1]
      nlinarith
    exact ar_ps_eval ha1.ne' n1 n2 n3 hs
  · field
  · field

example : ∃ s q : ℝ, (AVO_abe (fin 3) (fin 1.5) (fin 2.2) (fin 4) (fin 2) (fin 2.4)).2.2.2
    = (fin (q + ((1.5 + 2) / (3 + 4)) ^ 3 * ((2.4 - 2.2) / (2.2 + 2.4) + 2 * (2 - 1.5) / (1.5 + 2))),
      fin (1.5 / ((1.5 + 2) / 2) * s)) := by
  obtain ⟨-, s, q, -, -, -, h⟩ := C49_converted (a1 := 3) (a2 := 4) (b1 := 1.5) (b2 := 2) (r1 := 2.2)
    (r2 := 2.4) (by norm_num) (by norm_num) (by norm_num) (by norm_num) (by norm_num) (by norm_num)
    (by norm_num)
  exact ⟨s, q, h⟩

theorem poisson_deriv {a b : ℝ} (hb : 0 < b) (hba : b < a) (u v : ℝ) {A B : ℝ → ℝ}
    (hA : HasDerivAt A u 0) (hB : HasDerivAt B v 0) (A0 : A 0 = a) (B0 : B 0 = b) :
    HasDerivAt (fun t => poissonRatio (A t) (B t))
      (a ^ 2 * b ^ 2 * (u / a - v / b) / (a ^ 2 - b ^ 2) ^ 2) 0 := by
  have ha : 0 < a := hb.trans hba
  have d : 0 < a ^ 2 - b ^ 2 := by nlinarith
  have h := ((hA.pow 2).sub ((hB.pow 2).const_mul 2)).div (((hA.pow 2).sub (hB.pow 2)).const_mul 2)
    (by simp only [Pi.sub_apply, Pi.pow_apply, A0, B0]; positivity)
  refine (h.congr_deriv ?_).congr_of_eventuallyEq (Eventually.of_forall fun t => ?_)
  · simp only [Pi.sub_apply, Pi.pow_apply, A0, B0]
    push_cast
    field
  · rfl

/-- C78: Shuey's gradient (second result of `AVO_abe`) and the Aki-Richards gradient (third result)
agree up to terms of higher order in the contrast. -/
theorem C78_shuey {a b r da db dr : ℝ} (hb : 0 < b) (hba : b < a) (hr : 0 < r)
    (h0 : da / a + dr / r ≠ 0) :
    ∃ B : ℝ → ℝ, (∀ᶠ t in 𝓝[≠] (0 : ℝ),
      (AVO_abe (fin (a - t * da / 2)) (fin (b - t * db / 2)) (fin (r - t * dr / 2))
        (fin (a + t * da / 2)) (fin (b + t * db / 2)) (fin (r + t * dr / 2))).2.1 = fin (B t) ∧
      (AVO_abe (fin (a - t * da / 2)) (fin (b - t * db / 2)) (fin (r - t * dr / 2))
        (fin (a + t * da / 2)) (fin (b + t * db / 2)) (fin (r + t * dr / 2))).2.2.1
        = fin (t * (1 / 2 * (da / a) - 2 * (b / a) ^ 2 * (dr / r) - 4 * (b / a) ^ 2 * (db / b)))) ∧
      HasDerivAt B (1 / 2 * (da / a) - 2 * (b / a) ^ 2 * (dr / r) - 4 * (b / a) ^ 2 * (db / b)) 0 := by
  have ha : 0 < a := hb.trans hba
  have d : 0 < a ^ 2 - b ^ 2 := by nlinarith
  let σ1 : ℝ → ℝ := fun t => poissonRatio (a - t * da / 2) (b - t * db / 2)
  let σ2 : ℝ → ℝ := fun t => poissonRatio (a + t * da / 2) (b + t * db / 2)
  have h1 : HasDerivAt σ1 _ 0 := poisson_deriv hb hba _ _ (lin a da) (lin b db) (by ring) (by ring)
  have h2 : HasDerivAt σ2 _ 0 := poisson_deriv hb hba _ _ (lin' a da) (lin' b db) (by ring) (by ring)
  have s10 : σ1 0 = poissonRatio a b := by
    simp only [σ1, zero_mul, zero_div, sub_zero]
  have s20 : σ2 0 = poissonRatio a b := by
    simp only [σ2, zero_mul, zero_div, add_zero]
  have v0 : 1 - poissonRatio a b = a ^ 2 / (2 * (a ^ 2 - b ^ 2)) := by unfold poissonRatio; field
  have w0 : 1 - 2 * poissonRatio a b = b ^ 2 / (a ^ 2 - b ^ 2) := by unfold poissonRatio; field
  have dm : DifferentiableAt ℝ (fun t => 1 - (σ1 t + σ2 t) / 2) 0 :=
    ((h1.add h2).div_const 2).const_sub 1 |>.differentiableAt
  have m0 : 1 - (σ1 0 + σ2 0) / 2 = 1 - poissonRatio a b := by rw [s10, s20]; ring
  have n0 : 1 - (σ1 0 + σ2 0) / 2 ≠ 0 := by rw [m0, v0]; positivity
  have dn : DifferentiableAt ℝ (fun t => 1 - 2 * ((σ1 t + σ2 t) / 2)) 0 :=
    (((h1.add h2).div_const 2).const_mul 2).const_sub 1 |>.differentiableAt
  let k := da / a / (da / a + dr / r)
  have dk : DifferentiableAt ℝ (fun t => (k - 2 * (1 + k) * ((1 - 2 * ((σ1 t + σ2 t) / 2))
      / (1 - (σ1 t + σ2 t) / 2))) * ((da / a + dr / r) / 2)) 0 :=
    ((dn.div dm n0).const_mul (2 * (1 + k))).const_sub k |>.mul_const _
  have f1 := hasDerivAt_mul_zero (hasDerivAt_id (0 : ℝ)) rfl dk
  have f2 := hasDerivAt_mul_zero (h2.sub h1) (by rw [Pi.sub_apply, s10, s20, sub_self])
    ((dm.pow 2).inv (by simp only [Pi.pow_apply]; exact pow_ne_zero 2 n0))
  refine ⟨fun t => t * ((k - 2 * (1 + k) * ((1 - 2 * ((σ1 t + σ2 t) / 2))
      / (1 - (σ1 t + σ2 t) / 2))) * ((da / a + dr / r) / 2))
      + (σ2 t - σ1 t) * ((1 - (σ1 t + σ2 t) / 2) ^ 2)⁻¹, ?_, ?_⟩
  · have ev : ∀ᶠ t : ℝ in 𝓝 0, (0 < b - t * db / 2 ∧ 0 < b + t * db / 2 ∧ 0 < r - t * dr / 2 ∧
        0 < r + t * dr / 2) ∧ b - t * db / 2 < a - t * da / 2 ∧ b + t * db / 2 < a + t * da / 2 := by
      have e1 : ∀ᶠ t : ℝ in 𝓝 0, b - t * db / 2 < a - t * da / 2 :=
        (lin b db).continuousAt.eventually_lt (lin a da).continuousAt (by simpa using hba)
      have e2 : ∀ᶠ t : ℝ in 𝓝 0, b + t * db / 2 < a + t * da / 2 :=
        (lin' b db).continuousAt.eventually_lt (lin' a da).continuousAt (by simpa using hba)
      filter_upwards [(weak_pos b db hb).1, (weak_pos b db hb).2, (weak_pos r dr hr).1,
        (weak_pos r dr hr).2, e1, e2] with t p1 p2 p3 p4 p5 p6
      exact ⟨⟨p1, p2, p3, p4⟩, p5, p6⟩
    filter_upwards [ev.filter_mono nhdsWithin_le_nhds, self_mem_nhdsWithin]
      with t ⟨⟨p1, p2, p3, p4⟩, p5, p6⟩ ht
    have ht' : t ≠ 0 := ht
    have s1 : a - t * da / 2 + (a + t * da / 2) = 2 * a := by ring
    have s2 : b - t * db / 2 + (b + t * db / 2) = 2 * b := by ring
    have s3 : r - t * dr / 2 + (r + t * dr / 2) = 2 * r := by ring
    have m : ∀ x : ℝ, 2 * x / 2 = x := fun x => by ring
    have dd : ∀ x y : ℝ, x + t * y / 2 - (x - t * y / 2) = t * y := fun x y => by ring
    have tm : ∀ x y : ℝ, t * x / y = t * (x / y) := fun x y => by ring
    have hu : t * (da / a) + t * (dr / r) ≠ 0 := by
      rw [← mul_add]; exact mul_ne_zero ht' h0
    have q1 := C49_shuey p1 p2 p5 p6 p3 p4 (by rw [s1, s3, m, m, dd, dd, tm, tm]; exact hu)
    obtain ⟨-, q2, -, -⟩ := abe_eval (a1 := a - t * da / 2) (a2 := a + t * da / 2)
      (b1 := b - t * db / 2) (b2 := b + t * db / 2) (r1 := r - t * dr / 2) (r2 := r + t * dr / 2)
      (by rw [s1]; positivity) (by rw [s2]; positivity) (by rw [s3]; positivity)
      (by linarith)
    rw [q1, q2, s1, s2, s3, m, m, dd, dd, dd, tm, tm]
    refine ⟨congrArg fin ?_, congrArg fin ?_⟩
    · unfold shueyGradient
      simp only [k, σ1, σ2]
      rw [← mul_add, mul_div_mul_left _ _ ht']
      ring
    · field
  · refine ((f1.add f2).congr_deriv ?_)
    simp only [Pi.inv_apply, Pi.pow_apply]
    rw [m0, show 1 - 2 * ((σ1 0 + σ2 0) / 2) = 1 - 2 * poissonRatio a b by rw [s10, s20]; ring, v0, w0]
    have kk : k * (da / a + dr / r) = da / a := div_mul_cancel₀ _ h0
    have e1 : b ^ 2 / (a ^ 2 - b ^ 2) / (a ^ 2 / (2 * (a ^ 2 - b ^ 2))) = 2 * (b / a) ^ 2 := by field
    rw [e1]
    have e2 : 1 * ((k - 2 * (1 + k) * (2 * (b / a) ^ 2)) * ((da / a + dr / r) / 2))
        = da / a / 2 - 2 * (b / a) ^ 2 * (da / a + dr / r + da / a) := by
      linear_combination (1 / 2 - 2 * (b / a) ^ 2) * kk
    rw [e2]
    field

example : ∃ B : ℝ → ℝ, HasDerivAt B (1 / 2 * ((1 : ℝ) / 3) - 2 * (1.5 / 3) ^ 2 * (0.2 / 2.3)
    - 4 * (1.5 / 3) ^ 2 * (1 / 1.5)) 0 := by
  obtain ⟨B, -, h⟩ := C78_shuey (a := 3) (b := 1.5) (r := 2.3) (da := 1) (db := 1) (dr := 0.2)
    (by norm_num) (by norm_num) (by norm_num) (by norm_num)
  exact ⟨B, h⟩

end RockPhy.Props
