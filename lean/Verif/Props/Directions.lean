import Verif.Spec.Directions
import Verif.Model.Anisotropy
import Verif.Model.AVO
import Verif.Model.EM
import Mathlib.NumberTheory.Real.Irrational
import Mathlib.Analysis.Real.Pi.Irrational

/-!
# C112: opposite and mirrored directions
-/

namespace RockPhy.Props

open Spec Fl PyNum

/-! ## Circular functions of such angles -/

theorem Dir_neg_npow_two (x : Fl) : (-x) ** 2 = x ** 2 := by
  cases x with
  | bad => rfl
  | fin a => rw [fl_neg, fl_npow, fl_npow, neg_sq]

theorem Dir_neg_npow_four (x : Fl) : (-x) ** 4 = x ** 4 := by
  cases x with
  | bad => rfl
  | fin a => rw [fl_neg, fl_npow, fl_npow, Even.neg_pow (by decide)]

theorem Dir_neg_mul (x y : Fl) : -x * y = -(x * y) := by
  cases x <;> cases y <;> simp [fl]

theorem Dir_mul_neg (x y : Fl) : x * -y = -(x * y) := by
  cases x <;> cases y <;> simp [fl]

theorem Dir_neg_div (x y : Fl) : -x / y = -(x / y) := by
  cases x with
  | bad => simp only [fl]
  | fin a =>
    cases y with
    | bad => simp only [fl]
    | fin b =>
      by_cases h : b = 0
      · subst h
        have e : ∀ c : ℝ, fin c / fin 0 = bad := fun c => if_pos rfl
        rw [fl_neg, e, e, fl_neg_bad]
      · rw [fl_neg, fl_div h, fl_div h, fl_neg, neg_div]

theorem Dir_sin (x : Fl) : sin (-x) = -sin x := by
  cases x with
  | bad => rfl
  | fin a => simp only [fl, Real.sin_neg]

theorem Dir_cos (x : Fl) : cos (-x) = cos x := by
  cases x with
  | bad => rfl
  | fin a => simp only [fl, Real.cos_neg]

theorem Dir_tan (x : Fl) : tan (-x) = -tan x := by
  cases x with
  | bad => rfl
  | fin a =>
    by_cases h : Real.cos a = 0
    · have h' : Real.cos (-a) = 0 := by rw [Real.cos_neg, h]
      have e : ∀ b : ℝ, Real.cos b = 0 → tan (fin b) = bad := fun b hb => if_pos hb
      rw [fl_neg, e _ h, e _ h', fl_neg_bad]
    · have h' : Real.cos (-a) ≠ 0 := by rwa [Real.cos_neg]
      rw [fl_neg, fl_tan h, fl_tan h', fl_neg, Real.tan_neg]

theorem Dir_arcsin (x : Fl) : arcsin (-x) = -arcsin x := by
  cases x with
  | bad => rfl
  | fin a =>
    by_cases h : -1 ≤ a ∧ a ≤ 1
    · have h' : -1 ≤ -a ∧ -a ≤ 1 := ⟨by linarith [h.2], by linarith [h.1]⟩
      rw [fl_neg, fl_arcsin h, fl_arcsin h', fl_neg, Real.arcsin_neg]
    · have h' : ¬ (-1 ≤ -a ∧ -a ≤ 1) := fun k => h ⟨by linarith [k.2], by linarith [k.1]⟩
      have e : ∀ b : ℝ, ¬ (-1 ≤ b ∧ b ≤ 1) → arcsin (fin b) = bad := fun b hb => if_neg hb
      rw [fl_neg, e _ h, e _ h', fl_neg_bad]

theorem Dir_deg2rad (x : Fl) : deg2rad (-x) = -deg2rad x := by
  unfold deg2rad
  rw [Dir_neg_mul]

theorem Dir_turn (x : Fl) : sin (deg2rad (x + 180)) = -sin (deg2rad x)
    ∧ cos (deg2rad (x + 180)) = -cos (deg2rad x) ∧ tan (deg2rad (x + 180)) = tan (deg2rad x)
    ∧ sin (2 * deg2rad (x + 180)) = sin (2 * deg2rad x) := by
  cases x with
  | bad => exact ⟨rfl, rfl, rfl, rfl⟩
  | fin a =>
    have e : (a + 180) * (Real.pi / 180) = a * (Real.pi / 180) + Real.pi := by ring
    have e2 : 2 * (a * (Real.pi / 180) + Real.pi) = 2 * (a * (Real.pi / 180)) + 2 * Real.pi := by ring
    rw [fl_nat, fl_add, fl_deg2rad, fl_deg2rad, e]
    refine ⟨?_, ?_, ?_, ?_⟩
    · rw [fl_sin, fl_sin, fl_neg, Real.sin_add_pi]
    · rw [fl_cos, fl_cos, fl_neg, Real.cos_add_pi]
    · by_cases h : Real.cos (a * (Real.pi / 180)) = 0
      · have h' : Real.cos (a * (Real.pi / 180) + Real.pi) = 0 := by rw [Real.cos_add_pi, h, neg_zero]
        have e : ∀ b : ℝ, Real.cos b = 0 → tan (fin b) = bad := fun b hb => if_pos hb
        rw [e _ h, e _ h']
      · have h' : Real.cos (a * (Real.pi / 180) + Real.pi) ≠ 0 := by
          rw [Real.cos_add_pi]; exact neg_ne_zero.mpr h
        rw [fl_tan h, fl_tan h', Real.tan_add_pi]
    · simp only [fl]
      rw [e2, Real.sin_add_two_pi]

/-- The sine of such an angle is the same up to the sign. -/
theorem Dir_sign {x y : Fl} (h : SameLine x y) :
    (sin (deg2rad y) = sin (deg2rad x) ∨ sin (deg2rad y) = -sin (deg2rad x))
    ∧ (cos (deg2rad y) = cos (deg2rad x) ∨ cos (deg2rad y) = -cos (deg2rad x))
    ∧ (tan (deg2rad y) = tan (deg2rad x) ∨ tan (deg2rad y) = -tan (deg2rad x))
    ∧ (sin (2 * deg2rad y) = sin (2 * deg2rad x) ∨ sin (2 * deg2rad y) = -sin (2 * deg2rad x)) := by
  have nn : ∀ z : Fl, - -z = z := fun z => by cases z <;> simp [fl]
  induction h with
  | refl => exact ⟨.inl rfl, .inl rfl, .inl rfl, .inl rfl⟩
  | mirror _ ih =>
    obtain ⟨a, b, c, d⟩ := ih
    rw [Dir_deg2rad, Dir_mul_neg, Dir_sin, Dir_cos, Dir_tan, Dir_sin]
    refine ⟨?_, b, ?_, ?_⟩
    · rcases a with a | a <;> rw [a]
      · exact .inr rfl
      · exact .inl (nn _)
    · rcases c with a | a <;> rw [a]
      · exact .inr rfl
      · exact .inl (nn _)
    · rcases d with a | a <;> rw [a]
      · exact .inr rfl
      · exact .inl (nn _)
  | turn _ ih =>
    obtain ⟨a, b, c, d⟩ := ih
    obtain ⟨s, t, u, v⟩ := Dir_turn (by assumption)
    rw [s, t, u, v]
    refine ⟨?_, ?_, c, d⟩
    · rcases a with a | a <;> rw [a]
      · exact .inr rfl
      · exact .inl (nn _)
    · rcases b with a | a <;> rw [a]
      · exact .inr rfl
      · exact .inl (nn _)

theorem Dir_sq {x y : Fl} (h : SameLine x y) :
    sin (deg2rad y) ** 2 = sin (deg2rad x) ** 2 ∧ cos (deg2rad y) ** 2 = cos (deg2rad x) ** 2
    ∧ tan (deg2rad y) ** 2 = tan (deg2rad x) ** 2
    ∧ sin (2 * deg2rad y) ** 2 = sin (2 * deg2rad x) ** 2
    ∧ sin (deg2rad y) ** 4 = sin (deg2rad x) ** 4 ∧ cos (deg2rad y) ** 4 = cos (deg2rad x) ** 4 := by
  obtain ⟨a, b, c, d⟩ := Dir_sign h
  refine ⟨?_, ?_, ?_, ?_, ?_, ?_⟩
  · rcases a with a | a <;> rw [a]; exact Dir_neg_npow_two _
  · rcases b with a | a <;> rw [a]; exact Dir_neg_npow_two _
  · rcases c with a | a <;> rw [a]; exact Dir_neg_npow_two _
  · rcases d with a | a <;> rw [a]; exact Dir_neg_npow_two _
  · rcases a with a | a <;> rw [a]; exact Dir_neg_npow_four _
  · rcases b with a | a <;> rw [a]; exact Dir_neg_npow_four _

/-! ## Velocities -/

theorem C112_Thomsen {x y : Fl} (h : SameLine x y) (C11 C33 C13 C44 C66 den : Fl) :
    Anisotropy.Thomsen C11 C33 C13 C44 C66 den y = Anisotropy.Thomsen C11 C33 C13 C44 C66 den x := by
  obtain ⟨a, b, c, d, e, f⟩ := Dir_sq h
  simp only [Anisotropy.Thomsen, a, b, e]

theorem C112_vel_azi_HTI {x y : Fl} (h : SameLine x y) (C : Mat6 Fl) (Den : Fl) :
    Anisotropy.vel_azi_HTI C Den y = Anisotropy.vel_azi_HTI C Den x := by
  obtain ⟨a, b, c, d, e, f⟩ := Dir_sq h
  simp only [Anisotropy.vel_azi_HTI, a, b]

theorem C112_vel_azi_VTI {x y : Fl} (h : SameLine x y) (C : Mat6 Fl) (Den : Fl) :
    Anisotropy.vel_azi_VTI C Den y = Anisotropy.vel_azi_VTI C Den x := by
  obtain ⟨a, b, c, d, e, f⟩ := Dir_sq h
  simp only [Anisotropy.vel_azi_VTI, a, b, d]

/-! ## Cones of cracks -/

theorem C112_hudson_cone {x y : Fl} (h : SameLine x y) (K G Ki Gi alpha crd : Fl) :
    EM.hudson_cone K G Ki Gi alpha crd y = EM.hudson_cone K G Ki Gi alpha crd x := by
  obtain ⟨a, b, c, d, e, f⟩ := Dir_sq h
  simp only [EM.hudson_cone, a, b, e]

/-! ## Reflectivities -/

theorem C112_AVO_HTI {x y u v : Fl} (h : SameLine x y) (k : SameLine u v) (D1 D2 : Fl)
    (C1 C2 : Mat6 Fl) : AVO.AVO_HTI_entry D1 D2 C1 C2 y v = AVO.AVO_HTI_entry D1 D2 C1 C2 x u := by
  obtain ⟨a, -, c, -, -, -⟩ := Dir_sq h
  obtain ⟨a', b', c', d', e', f'⟩ := Dir_sq k
  simp only [AVO.AVO_HTI_entry, a, c, a', b', f']

theorem Dir_degrees (x : Fl) : x * PyNum.pi / 180 = deg2rad x := by
  cases x with
  | bad => rfl
  | fin a => simp (disch := norm_num) only [fl, mul_div_assoc]

theorem C112_AVO_ortho {x y : Fl} (h : SameLine x y)
    (a1 b1 e11 d11 e12 d12 g1 rho1 a2 b2 e21 d21 e22 d22 g2 rho2 : Fl) :
    AVO.AVO_ortho a1 b1 e11 d11 e12 d12 g1 rho1 a2 b2 e21 d21 e22 d22 g2 rho2 y
      = AVO.AVO_ortho a1 b1 e11 d11 e12 d12 g1 rho1 a2 b2 e21 d21 e22 d22 g2 rho2 x := by
  obtain ⟨a, b, c, d, e, f⟩ := Dir_sq h
  simp only [AVO.AVO_ortho, Dir_degrees, a, c]

/-- Incidence from the other side: the same P reflection, the converted wave with the opposite sign. -/
theorem C112_Aki_Richards (theta vp1 vp2 vs1 vs2 den1 den2 : Fl) :
    let r := AVO.Aki_Richards theta vp1 vp2 vs1 vs2 den1 den2
    AVO.Aki_Richards (-theta) vp1 vp2 vs1 vs2 den1 den2 = (r.1, -r.2.1, r.2.2.1, r.2.2.2) := by
  simp only [AVO.Aki_Richards, Dir_deg2rad, Dir_sin, Dir_cos, Dir_tan, Dir_neg_npow_two, Dir_neg_div,
    Dir_neg_mul, Dir_mul_neg]

theorem C112_zoeppritz (vp1 vs1 rho1 vp2 vs2 rho2 theta : Fl) :
    let r := AVO.zoeppritz vp1 vs1 rho1 vp2 vs2 rho2 theta
    AVO.zoeppritz vp1 vs1 rho1 vp2 vs2 rho2 (-theta) = (r.1, -r.2) := by
  simp only [AVO.zoeppritz, Dir_deg2rad, Dir_sin, Dir_cos, Dir_arcsin, Dir_neg_npow_two, Dir_neg_div,
    Dir_neg_mul, Dir_mul_neg]

/-- The impedances of unconverted waves. -/
theorem C112_EI_ref {x y : Fl} (h : SameLine x y) (ipn isn mVp mVs mrho : Fl) (norm : Bool)
    (Vp Vs rho SP : Fl) :
    let r := AVO.EI_ref_entry ipn isn mVp mVs mrho norm Vp Vs rho x SP
    let s := AVO.EI_ref_entry ipn isn mVp mVs mrho norm Vp Vs rho y SP
    s.1 = r.1 ∧ s.2.2.2.1 = r.2.2.2.1 ∧ s.2.2.2.2 = r.2.2.2.2 := by
  obtain ⟨a, b, c, d, e, f⟩ := Dir_sq h
  obtain ⟨g, -⟩ := Dir_sign h
  refine ⟨?_, ?_, ?_⟩
  · simp only [AVO.EI_ref_entry, a, c]
  · rcases g with g | g <;> simp only [AVO.EI_ref_entry, g, Dir_neg_div, Dir_neg_mul, Dir_arcsin,
      Dir_sin, Dir_cos, Dir_neg_npow_two]
  · rcases g with g | g <;> simp only [AVO.EI_ref_entry, g, Dir_neg_div, Dir_neg_mul, Dir_arcsin,
      Dir_tan, Dir_neg_npow_two]

/-- Without normalisation of the input: the impedances of converted waves at opposite angles are
reciprocal, up to the squared reference impedance. -/
theorem C112_EI_ref_converted {i j vp vs rho a b : ℝ} (x SP : Fl) (m1 m2 m3 : Fl) (hs : 0 < vs)
    (hr : 0 < rho)
    (h1 : (AVO.EI_ref_entry (fin i) (fin j) m1 m2 m3 false (fin vp) (fin vs) (fin rho) x SP).2.1
      = fin a)
    (h2 : (AVO.EI_ref_entry (fin i) (fin j) m1 m2 m3 false (fin vp) (fin vs) (fin rho) (-x) SP).2.1
      = fin b) : a * b = i ^ 2 := by
  have key : ∀ (B C : Fl) (a b : ℝ), fin i * fin vs **. B * fin rho **. C = fin a →
      fin i * fin vs **. (-B) * fin rho **. (-C) = fin b → a * b = i ^ 2 := by
    intro B C a b h k
    cases B with
    | bad => simp only [fl] at h; exact absurd h bad_ne_fin
    | fin B =>
      cases C with
      | bad => simp only [fl] at h; exact absurd h bad_ne_fin
      | fin C =>
        rw [fl_rpow hs, fl_rpow hr, fl_mul, fl_mul, fin_inj] at h
        rw [fl_neg, fl_neg, fl_rpow hs, fl_rpow hr, fl_mul, fl_mul, fin_inj] at k
        rw [← h, ← k, Real.rpow_neg hs.le, Real.rpow_neg hr.le]
        have := (Real.rpow_pos_of_pos hs B).ne'
        have := (Real.rpow_pos_of_pos hr C).ne'
        field_simp
  refine key _ _ a b h1 ?_
  rw [← h2]
  simp only [AVO.EI_ref_entry, Dir_deg2rad, Dir_sin, Dir_cos, Dir_neg_npow_two, Dir_neg_div,
    Dir_neg_mul, Bool.false_eq_true, if_false]

/-! ## Full turns -/

theorem C112_Bond_trans (C : Mat6 Fl) (theta : ℝ) (axis : Int) :
    Anisotropy.Bond_trans C (fin (theta + 360)) axis = Anisotropy.Bond_trans C (fin theta) axis := by
  have e : (theta + 360) * (Real.pi / 180) = theta * (Real.pi / 180) + 2 * Real.pi := by ring
  have c1 : cos (deg2rad (fin (theta + 360))) = cos (deg2rad (fin theta)) := by
    simp only [fl]; rw [e, Real.cos_add_two_pi]
  have h2 : (PyNum.pi : Fl) / 2 = fin (Real.pi / 2) := by simp (disch := norm_num) only [fl]
  have c2 : cos ((PyNum.pi : Fl) / 2 - deg2rad (fin (theta + 360)))
      = cos ((PyNum.pi : Fl) / 2 - deg2rad (fin theta)) := by
    rw [h2]
    simp only [fl]
    rw [e, Real.cos_pi_div_two_sub, Real.cos_pi_div_two_sub, Real.sin_add_two_pi]
  have c3 : cos (deg2rad (fin (theta + 360)) + (PyNum.pi : Fl) / 2)
      = cos (deg2rad (fin theta) + (PyNum.pi : Fl) / 2) := by
    rw [h2]
    simp only [fl]
    rw [e, Real.cos_add_pi_div_two, Real.cos_add_pi_div_two, Real.sin_add_two_pi]
  simp only [Anisotropy.Bond_trans, c1, c2, c3]

/-- A full turn of the angle of incidence changes the exact reflection coefficient (the sine is taken
of the number of degrees). -/
theorem C112_zoeppritz_violated : ∃ vp1 vs1 rho1 vp2 vs2 rho2 : Fl, ∃ r : ℝ,
    (AVO.zoeppritz vp1 vs1 rho1 vp2 vs2 rho2 (fin 0)).2 = fin r
    ∧ (AVO.zoeppritz vp1 vs1 rho1 vp2 vs2 rho2 (fin (0 + 360))).2 ≠ fin r := by
  have hs : Real.sin 360 ≠ 0 := by
    intro h
    obtain ⟨n, hn⟩ := Real.sin_eq_zero_iff.mp h
    have hn0 : (n : ℝ) ≠ 0 := by rintro e; rw [e, zero_mul] at hn; norm_num at hn
    refine (irrational_iff_ne_rational _).mp irrational_pi 360 n (by exact_mod_cast hn0) ?_
    rw [eq_div_iff hn0, mul_comm, hn]; norm_num
  have hs' : 0 < |Real.sin 360| := abs_pos.mpr hs
  set v : ℝ := 2 / |Real.sin 360| with hv
  have hv0 : 0 < v := by positivity
  refine ⟨fin 1, fin 1, fin 1, fin v, fin 1, fin 1, 0, ?_, ?_⟩
  · have h0 : arcsin (fin 0) = fin 0 := by rw [fl_arcsin (by norm_num), Real.arcsin_zero]
    have h1 : (1 : ℝ) + 1 / v + (1 + 1 / v) ≠ 0 := by positivity
    have h2 : (1 : ℝ) + 1 / v ≠ 0 := by positivity
    have h3 := hv0.ne'
    have h4 : (1 + 1 / v) * (1 + 1) ≠ 0 := by positivity
    simp (disch := first | assumption | positivity | norm_num) only [AVO.zoeppritz, fl, zero_mul,
      Real.sin_zero, Real.cos_zero, h0, mul_zero, zero_div, sub_zero, div_one, one_mul, mul_one,
      one_pow, zero_pow, add_zero, sub_self]
  · have hb : arcsin (sin (fin 360) / fin 1 * fin v) = bad := by
      rw [fl_sin, fl_div one_ne_zero, fl_mul, div_one]
      refine if_neg fun h => ?_
      have : |Real.sin 360 * v| ≤ 1 := abs_le.mpr h
      rw [abs_mul, abs_of_pos hv0, hv, mul_div_cancel₀ _ hs'.ne'] at this
      norm_num at this
    have hc : cos (bad : Fl) = bad := rfl
    rw [zero_add]
    simp only [AVO.zoeppritz, hb, hc, fl_bad_mul, fl_mul_bad, fl_bad_div, fl_div_bad, fl_add_bad,
      fl_bad_add]
    exact bad_ne_fin

/-! ## Non-vacuity -/

/-- 30 degrees and -150 degrees. -/
example : SameLine (fin (-150)) (fin 30) := by
  have := SameLine.turn (.refl (fin (-150)))
  rwa [fl_nat, fl_add, show (-150 + 180 : ℝ) = 30 by norm_num] at this

end RockPhy.Props
