import Verif.Props.Shear

/-! # Property C78 for an incoming SV wave -/

namespace RockPhy.AVO

open Fl Spec Filter Topology

theorem zoeppritzEqsSV_aux {I : Interface} {p θ1 φ1 θ2 φ2 Rsp Rss Tsp Tss : ℝ} (hα1 : I.α1 ≠ 0)
    (hα2 : I.α2 ≠ 0) (hβ1 : I.β1 ≠ 0) (hβ2 : I.β2 ≠ 0) (h1 : Real.sin θ1 = p * I.α1)
    (h2 : Real.sin θ2 = p * I.α2) (h3 : Real.sin φ1 = p * I.β1) (h4 : Real.sin φ2 = p * I.β2) :
    ZoeppritzEqsSV I θ1 φ1 θ2 φ2 Rsp Rss Tsp Tss ↔
      SlownessEqsSV p (Real.cos θ1 / I.α1) (Real.cos θ2 / I.α2) (Real.cos φ1 / I.β1)
        (Real.cos φ2 / I.β2) I.ρ1 I.ρ2 (I.ρ1 * I.β1 ^ 2)
        (I.ρ2 * I.β2 ^ 2) (I.α1 * Rsp / I.β1) Rss (I.α2 * Tsp / I.β1) (I.β2 * Tss / I.β1) := by
  have key : ∀ {l r l' r' : ℝ}, l - r = I.β1 * (l' - r') → (l = r ↔ l' = r') := by
    intro l r l' r' e
    rw [← sub_eq_zero, e, mul_eq_zero, sub_eq_zero]
    exact ⟨fun h => h.resolve_left hβ1, Or.inr⟩
  constructor
  · rintro ⟨q1, q2, q3, q4⟩
    rw [Real.sin_two_mul, Real.sin_two_mul, h3, h4] at q4
    rw [h1, h2] at q1
    rw [h3, h4] at q2 q3
    refine ⟨(key ?_).mp q1, (key ?_).mp q2, (key ?_).mp q3, (key ?_).mp q4⟩ <;> field
  · rintro ⟨q1, q2, q3, q4⟩
    constructor
    · rw [h1, h2]
      exact (key (by field)).mpr q1
    · rw [h3, h4]
      exact (key (by field)).mpr q2
    · rw [h3, h4]
      exact (key (by field)).mpr q3
    · rw [Real.sin_two_mul, Real.sin_two_mul, h3, h4]
      exact (key (by field)).mpr q4

theorem cancel {m n u : ℝ} (hm : m ≠ 0) (hn : n ≠ 0) : m * (n / m * u) / n = u := by field

theorem cancel' {m n u : ℝ} (hm : m ≠ 0) (hn : n ≠ 0) : u = n / m * (m * u / n) := by field

/-- First order of the closed form for an incoming S wave. -/
theorem quotient_deriv_SV {A B C D P X Y Z W : ℝ → ℝ} {A1 B1 C1 D1 z1 w1 p x z ρ : ℝ}
    (hA : HasDerivAt A A1 0) (hB : HasDerivAt B B1 0) (hC : HasDerivAt C C1 0)
    (hD : HasDerivAt D D1 0) (hP : DifferentiableAt ℝ P 0) (dX : DifferentiableAt ℝ X 0)
    (dY : DifferentiableAt ℝ Y 0) (hZ : HasDerivAt Z z1 0) (hW : HasDerivAt W w1 0)
    (A0 : A 0 = 0) (D0 : D 0 = 0) (B0 : B 0 = ρ) (C0 : C 0 = ρ) (P0 : P 0 = p) (X0 : X 0 = x)
    (Y0 : Y 0 = x) (Z0 : Z 0 = z) (W0 : W 0 = z) (hρ : ρ ≠ 0) (hx : x ≠ 0) (hz : z ≠ 0) :
    (ContinuousAt (fun t => zDen (A t) (B t) (C t) (D t) (P t) (X t) (Y t) (Z t) (W t)
        (A t - D t * Y t * Z t)) 0 ∧
      zDen (A 0) (B 0) (C 0) (D 0) (P 0) (X 0) (Y 0) (Z 0) (W 0) (A 0 - D 0 * Y 0 * Z 0) ≠ 0) ∧
    HasDerivAt (fun t => -2 * Z t * (A t * B t + C t * D t * Y t * W t) * P t
        / zDen (A t) (B t) (C t) (D t) (P t) (X t) (Y t) (Z t) (W t) (A t - D t * Y t * Z t))
      (-p * (A1 + D1 * x * z) / (2 * ρ * x)) 0 ∧
    HasDerivAt (fun t => -((B t * Z t - C t * W t) * (B t * X t + C t * Y t)
          - (A t + D t * Y t * Z t) * (A t - D t * X t * W t) * P t ^ 2)
        / zDen (A t) (B t) (C t) (D t) (P t) (X t) (Y t) (Z t) (W t) (A t - D t * Y t * Z t))
      (-((B1 - C1) / (2 * ρ) + (z1 - w1) / (2 * z))) 0 := by
  have dA := hA.differentiableAt
  have dB := hB.differentiableAt
  have dC := hC.differentiableAt
  have dD := hD.differentiableAt
  have dZ := hZ.differentiableAt
  have dW := hW.differentiableAt
  have dE : DifferentiableAt ℝ (fun t => B t * X t + C t * Y t) 0 := (dB.mul dX).add (dC.mul dY)
  have dG : DifferentiableAt ℝ (fun t => A t - D t * X t * W t) 0 := dA.sub ((dD.mul dX).mul dW)
  have dDen : DifferentiableAt ℝ (fun t => zDen (A t) (B t) (C t) (D t) (P t) (X t) (Y t) (Z t)
      (W t) (A t - D t * Y t * Z t)) 0 :=
    (dE.mul ((dB.mul dZ).add (dC.mul dW))).add
      ((dG.mul (dA.sub ((dD.mul dY).mul dZ))).mul (hP.pow 2))
  have v : zDen (A 0) (B 0) (C 0) (D 0) (P 0) (X 0) (Y 0) (Z 0) (W 0) (A 0 - D 0 * Y 0 * Z 0)
      = 4 * ρ ^ 2 * x * z := by
    rw [A0, B0, C0, D0, P0, X0, Y0, Z0, W0]; unfold zDen; ring
  have v0 : 4 * ρ ^ 2 * x * z ≠ 0 := by positivity
  have hN : HasDerivAt (fun t => -((B t * Z t - C t * W t) * (B t * X t + C t * Y t)
      - (A t + D t * Y t * Z t) * (A t - D t * X t * W t) * P t ^ 2))
      (-(((B1 - C1) * z + ρ * (z1 - w1)) * (2 * ρ * x))) 0 := by
    have h1 := hasDerivAt_mul_zero ((hB.mul hZ).sub (hC.mul hW))
      (by simp only [Pi.sub_apply, Pi.mul_apply, B0, C0, Z0, W0, sub_self]) dE
    have h2 := hasDerivAt_mul_zero (hA.add (((dD.mul dY).mul dZ).hasDerivAt))
      (by simp only [Pi.add_apply, Pi.mul_apply, A0, D0]; ring) (dG.mul (hP.pow 2))
    refine ((h1.sub h2).neg.congr_deriv ?_).congr_of_eventuallyEq (Eventually.of_forall fun t => ?_)
    · simp only [Pi.mul_apply, Pi.pow_apply, A0, B0, C0, D0, X0, Y0, Z0, W0]; ring
    · simp only [Pi.mul_apply, Pi.pow_apply, Pi.sub_apply, Pi.add_apply, Pi.neg_apply]; ring
  have hS : HasDerivAt (fun t => -2 * Z t * (A t * B t + C t * D t * Y t * W t) * P t)
      ((A1 + D1 * x * z) * (-2 * ρ * z * p)) 0 := by
    have h1 := hasDerivAt_mul_zero hA A0 ((dB.mul dZ).mul hP)
    have h2 := hasDerivAt_mul_zero hD D0 ((((dC.mul dY).mul dW).mul dZ).mul hP)
    refine (((h1.add h2).const_mul (-2)).congr_deriv ?_).congr_of_eventuallyEq
      (Eventually.of_forall fun t => ?_)
    · simp only [Pi.mul_apply, B0, C0, Z0, Y0, W0, P0]; ring
    · simp only [Pi.mul_apply, Pi.add_apply]; ring
  refine ⟨⟨dDen.continuousAt, by rw [v]; exact v0⟩, ?_, ?_⟩
  · refine (hasDerivAt_mul_zero hS ?_ (dDen.inv (by rw [v]; exact v0))).congr_deriv ?_
    · rw [A0, B0, C0, D0, P0, Z0, Y0, W0]; ring
    · simp only [Pi.inv_apply]; rw [v]; field
  · refine (hasDerivAt_mul_zero hN ?_ (dDen.inv (by rw [v]; exact v0))).congr_deriv ?_
    · rw [A0, B0, C0, D0, P0, X0, Y0, Z0, W0]; ring
    · simp only [Pi.inv_apply]; rw [v]; field

end RockPhy.AVO

namespace RockPhy.Props

open Fl Spec AVO Filter Topology

/-- C78: for an incoming SV wave below the critical angle of the P waves, the reflection coefficients
that solve the boundary equations exist for every weak contrast, and their first order is the S to P
and the SV reflectivity used by the elastic impedances. -/
theorem C78_sv {a b r da db dr j : ℝ} (ha : 0 < a) (hb : 0 < b) (hr : 0 < r)
    (hc : |Real.sin j / b * a| < 1) (h0 : 0 < Real.cos j) :
    (∀ᶠ t in 𝓝 (0 : ℝ), ∃ R S, IsReflectionSV (weakContrast a b r da db dr t) j R S) ∧
    ∀ R S : ℝ → ℝ,
      (∀ᶠ t in 𝓝 (0 : ℝ), IsReflectionSV (weakContrast a b r da db dr t) j (R t) (S t)) →
      HasDerivAt R (akiRichardsSP a b r db dr (Real.sin j / b)
        (Real.cos (Real.arcsin (Real.sin j / b * a))) (Real.cos j)) 0 ∧
      HasDerivAt S (akiRichardsSS b r db dr j) 0 := by
  have hs : |Real.sin j / b * b| < 1 := by
    rw [div_mul_cancel₀ _ hb.ne', ← sq_lt_one_iff_abs_lt_one, Real.sin_sq]; nlinarith
  have a0 : a - 0 * da / 2 = a := by ring
  have a0' : a + 0 * da / 2 = a := by ring
  have b0 : b - 0 * db / 2 = b := by ring
  have b0' : b + 0 * db / 2 = b := by ring
  have r0 : r - 0 * dr / 2 = r := by ring
  have r0' : r + 0 * dr / 2 = r := by ring
  have hP : HasDerivAt (fun t : ℝ => Real.sin j / (b - t * db / 2)) _ 0 :=
    (hasDerivAt_const (0 : ℝ) (Real.sin j)).div (lin b db) (by rw [b0]; exact hb.ne')
  have hZ : HasDerivAt (fun t : ℝ => Real.cos j / (b - t * db / 2)) _ 0 :=
    (hasDerivAt_const (0 : ℝ) (Real.cos j)).div (lin b db) (by rw [b0]; exact hb.ne')
  have hW : HasDerivAt (fun t : ℝ => Real.cos (Real.arcsin (Real.sin j / (b - t * db / 2)
      * (b + t * db / 2))) / (b + t * db / 2)) _ 0 :=
    (cos_refracted (d := db) (e := db) hb hs).div (lin' b db) (by rw [b0']; exact hb.ne')
  have hY : HasDerivAt (fun t : ℝ => Real.cos (Real.arcsin (Real.sin j / (b - t * db / 2)
      * (a + t * da / 2))) / (a + t * da / 2)) _ 0 :=
    (cos_refracted (d := db) (e := da) hb hc).div (lin' a da) (by rw [a0']; exact ha.ne')
  have hX : DifferentiableAt ℝ (fun t : ℝ => Real.cos (Real.arcsin (Real.sin j / (b - t * db / 2)
      * (a - t * da / 2))) / (a - t * da / 2)) 0 := by
    have h := (cos_refracted (d := db) (e := -da) hb hc).div (lin a da) (by rw [a0]; exact ha.ne')
    refine (h.congr_of_eventuallyEq (Eventually.of_forall fun t => ?_)).differentiableAt
    simp only [Pi.div_apply]
    rw [show a + t * -da / 2 = a - t * da / 2 by ring]
  have hm1 : HasDerivAt (fun t : ℝ => (r - t * dr / 2) * (b - t * db / 2) ^ 2) _ 0 :=
    (lin r dr).mul ((lin b db).pow 2)
  have hm2 : HasDerivAt (fun t : ℝ => (r + t * dr / 2) * (b + t * db / 2) ^ 2) _ 0 :=
    (lin' r dr).mul ((lin' b db).pow 2)
  have hD : HasDerivAt (fun t : ℝ => zD ((r - t * dr / 2) * (b - t * db / 2) ^ 2)
      ((r + t * dr / 2) * (b + t * db / 2) ^ 2)) _ 0 := (hm2.sub hm1).const_mul 2
  have hA : HasDerivAt (fun t : ℝ => zA (Real.sin j / (b - t * db / 2)) (r - t * dr / 2)
      (r + t * dr / 2) ((r - t * dr / 2) * (b - t * db / 2) ^ 2)
      ((r + t * dr / 2) * (b + t * db / 2) ^ 2)) _ 0 :=
    ((lin' r dr).sub ((hm2.const_mul 2).mul (hP.pow 2))).sub
      ((lin r dr).sub ((hm1.const_mul 2).mul (hP.pow 2)))
  have hB : HasDerivAt (fun t : ℝ => zB (Real.sin j / (b - t * db / 2))
      (r + t * dr / 2) ((r - t * dr / 2) * (b - t * db / 2) ^ 2)
      ((r + t * dr / 2) * (b + t * db / 2) ^ 2)) _ 0 :=
    ((lin' r dr).sub ((hm2.const_mul 2).mul (hP.pow 2))).add ((hm1.const_mul 2).mul (hP.pow 2))
  have hC : HasDerivAt (fun t : ℝ => zC (Real.sin j / (b - t * db / 2))
      (r - t * dr / 2) ((r - t * dr / 2) * (b - t * db / 2) ^ 2)
      ((r + t * dr / 2) * (b + t * db / 2) ^ 2)) _ 0 :=
    ((lin r dr).sub ((hm1.const_mul 2).mul (hP.pow 2))).add ((hm2.const_mul 2).mul (hP.pow 2))
  have ci : 0 < Real.cos (Real.arcsin (Real.sin j / b * a)) := by
    rw [Real.cos_arcsin]
    have := (sq_lt_one_iff_abs_lt_one _).mpr hc
    exact Real.sqrt_pos.mpr (by linarith)
  have cj : Real.cos (Real.arcsin (Real.sin j / b * b)) = Real.cos j := by
    rw [div_mul_cancel₀ _ hb.ne', Real.cos_arcsin, ← Real.cos_sq', Real.sqrt_sq h0.le]
  obtain ⟨⟨c1, c2⟩, q1, q2⟩ := quotient_deriv_SV (ρ := r) (z := Real.cos j / b)
    (p := Real.sin j / b) (x := Real.cos (Real.arcsin (Real.sin j / b * a)) / a)
    hA hB hC hD hP.differentiableAt hX hY.differentiableAt hZ hW
    (by rw [b0, b0', r0, r0']; unfold zA; ring) (by rw [b0, b0', r0, r0']; unfold zD; ring)
    (by rw [b0, b0', r0, r0']; unfold zB; ring) (by rw [b0, b0', r0, r0']; unfold zC; ring)
    (by rw [b0]) (by rw [a0, b0]) (by rw [a0', b0]) (by rw [b0]) (by rw [b0, b0', cj]) hr.ne'
    (by positivity) (by positivity)
  have e1 : ∀ᶠ t : ℝ in 𝓝 0, |Real.sin j / (b - t * db / 2) * (a + t * da / 2)| < 1 :=
    (hP.continuousAt.mul (lin' a da).continuousAt).abs.eventually_lt_const
      (by simp only [Pi.mul_apply, zero_mul, zero_div, sub_zero, add_zero]; exact hc)
  have e2 : ∀ᶠ t : ℝ in 𝓝 0, |Real.sin j / (b - t * db / 2) * (a - t * da / 2)| < 1 :=
    (hP.continuousAt.mul (lin a da).continuousAt).abs.eventually_lt_const
      (by simp only [Pi.mul_apply, zero_mul, zero_div, sub_zero]; exact hc)
  have e3 : ∀ᶠ t : ℝ in 𝓝 0, |Real.sin j / (b - t * db / 2) * (b + t * db / 2)| < 1 :=
    (hP.continuousAt.mul (lin' b db).continuousAt).abs.eventually_lt_const
      (by simp only [Pi.mul_apply, zero_mul, zero_div, sub_zero, add_zero]; exact hs)
  have pack : ∃ FR FS : ℝ → ℝ, (HasDerivAt FR (akiRichardsSP a b r db dr (Real.sin j / b)
        (Real.cos (Real.arcsin (Real.sin j / b * a))) (Real.cos j)) 0 ∧
        HasDerivAt FS (akiRichardsSS b r db dr j) 0) ∧
      ∀ᶠ t in 𝓝 (0 : ℝ), ∀ R S, IsReflectionSV (weakContrast a b r da db dr t) j R S ↔
        R = FR t ∧ S = FS t := by
    have d := ((lin b db).div (lin a da) (by rw [a0]; exact ha.ne')).mul q1
    refine ⟨_, _, ⟨HasDerivAt.congr_deriv d ?_, HasDerivAt.congr_deriv q2 ?_⟩, ?_⟩
    · simp only [Pi.pow_apply, Pi.div_apply, a0, a0', b0, b0', r0, r0', cj]
      unfold akiRichardsSP akiRichardsPS zA zD
      generalize Real.cos (Real.arcsin (Real.sin j / b * a)) = w at *
      generalize Real.cos j = c at *
      generalize Real.sin j = s at *
      push_cast
      field
    · simp only [Pi.pow_apply, a0, a0', b0, b0', r0, r0', cj]
      unfold akiRichardsSS
      have e : Real.sin j ^ 2 = 1 - Real.cos j ^ 2 := Real.sin_sq j
      generalize Real.cos j = c at *
      generalize Real.sin j = s at *
      push_cast
      have key : 1 / (2 * c ^ 2) = (s ^ 2 + c ^ 2) / (2 * c ^ 2) := by rw [e]; ring
      rw [key]
      clear e key
      field
    filter_upwards [(weak_pos a da ha).1, (weak_pos a da ha).2, (weak_pos b db hb).1,
      (weak_pos b db hb).2, e1, e2, e3, c1.eventually_ne c2] with t p1 p2 p3 p4 l1 l2 l3 hDen R S
    have aux : ∀ Tsp Tss, _ ↔ _ := fun Tsp Tss =>
      zoeppritzEqsSV_aux (I := weakContrast a b r da db dr t) (p := Real.sin j / (b - t * db / 2))
      (θ1 := Real.arcsin (Real.sin j / (b - t * db / 2) * (a - t * da / 2))) (φ1 := j)
      (θ2 := Real.arcsin (Real.sin j / (b - t * db / 2) * (a + t * da / 2)))
      (φ2 := Real.arcsin (Real.sin j / (b - t * db / 2) * (b + t * db / 2)))
      (Rsp := R) (Rss := S) (Tsp := Tsp) (Tss := Tss) p1.ne' p2.ne' p3.ne' p4.ne'
      (Real.sin_arcsin (abs_le.mp l2.le).1 (abs_le.mp l2.le).2)
      (Real.sin_arcsin (abs_le.mp l1.le).1 (abs_le.mp l1.le).2)
      (div_mul_cancel₀ _ p3.ne').symm
      (Real.sin_arcsin (abs_le.mp l3.le).1 (abs_le.mp l3.le).2)
    constructor
    · rintro ⟨Tsp, Tss, q⟩
      obtain ⟨u1, u2⟩ := slowness_unique_SV rfl rfl rfl rfl rfl ((aux Tsp Tss).mp q)
      have R1 := (eq_div_iff hDen).mpr ((mul_comm _ _).trans u1)
      have S1 := (eq_div_iff hDen).mpr ((mul_comm _ _).trans u2)
      refine ⟨?_, S1⟩
      exact (cancel' p1.ne' p3.ne').trans (congrArg _ R1)
    · rintro ⟨f1, f2⟩
      simp only [Pi.mul_apply, Pi.div_apply] at f1
      have sol := slowness_solves_SV rfl rfl rfl rfl rfl hDen
      have back : ∀ {u1 u2 u3 u4 : ℝ}, SlownessEqsSV (Real.sin j / (b - t * db / 2))
          (Real.cos (Real.arcsin (Real.sin j / (b - t * db / 2) * (a - t * da / 2)))
            / (a - t * da / 2))
          (Real.cos (Real.arcsin (Real.sin j / (b - t * db / 2) * (a + t * da / 2)))
            / (a + t * da / 2))
          (Real.cos j / (b - t * db / 2))
          (Real.cos (Real.arcsin (Real.sin j / (b - t * db / 2) * (b + t * db / 2)))
            / (b + t * db / 2))
          (r - t * dr / 2) (r + t * dr / 2) ((r - t * dr / 2) * (b - t * db / 2) ^ 2)
          ((r + t * dr / 2) * (b + t * db / 2) ^ 2) u1 u2 u3 u4 →
          R = (b - t * db / 2) / (a - t * da / 2) * u1 → S = u2 →
          IsReflectionSV (weakContrast a b r da db dr t) j R S := by
        intro u1 u2 u3 u4 q g1 g2
        refine ⟨(b - t * db / 2) / (a + t * da / 2) * u3, (b - t * db / 2) / (b + t * db / 2) * u4,
          (aux _ _).mpr ?_⟩
        simp only [weakContrast]
        rw [g1, g2, cancel p1.ne' p3.ne', cancel p2.ne' p3.ne', cancel p4.ne' p3.ne']
        exact q
      exact back sol f1 f2
  obtain ⟨FR, FS, ⟨dR, dS⟩, sol⟩ := pack
  refine ⟨sol.mono fun t h => ⟨_, _, (h _ _).mpr ⟨rfl, rfl⟩⟩, fun R S h => ?_⟩
  have q := (sol.and h).mono fun t h => (h.1 _ _).mp h.2
  exact ⟨dR.congr_of_eventuallyEq (q.mono fun t h => h.1),
    dS.congr_of_eventuallyEq (q.mono fun t h => h.2)⟩

example : ∃ R S : ℝ → ℝ,
    (∀ᶠ t in 𝓝 (0 : ℝ), IsReflectionSV (weakContrast 3 1.5 2.3 1 1 0.2 t) 0 (R t) (S t)) ∧
    HasDerivAt S (akiRichardsSS 1.5 2.3 1 0.2 0) 0 := by
  obtain ⟨h1, h2⟩ := C78_sv (a := 3) (b := 1.5) (r := 2.3) (da := 1) (db := 1) (dr := 0.2) (j := 0)
    (by norm_num) (by norm_num) (by norm_num) (by simp) (by simp)
  choose! R S h using fun t (h : ∃ R S, IsReflectionSV (weakContrast 3 1.5 2.3 1 1 0.2 t) 0 R S) => h
  exact ⟨R, S, h1.mono h, (h2 R S (h1.mono h)).2⟩

end RockPhy.Props
