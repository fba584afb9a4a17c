import Verif.Lemmas.Berryman
import Verif.Props.Inclusion
import Mathlib.Analysis.Complex.ExponentialBounds

/-! # Property C79: the inclusion shape factors solve Eshelby's problem -/

namespace RockPhy.EM

open Fl Spec

theorem PQ_core_eval {K G Ki Gi a t f : ℝ} (hK : 0 < K) (hG : 0 < G) (hn : 1 - a ^ 2 ≠ 0)
    (hf : f = a ^ 2 * (3 * t - 2) / (1 - a ^ 2))
    (h2 : bF2 (Gi / G - 1) ((Ki / K - Gi / G) / 3) (G / (K + 4 / 3 * G)) t f ≠ 0)
    (h3 : bF3 (Gi / G - 1) (G / (K + 4 / 3 * G)) t f ≠ 0)
    (h4 : bF4 (Gi / G - 1) (G / (K + 4 / 3 * G)) t f ≠ 0) :
    PQ_core (fin K) (fin G) (fin Ki) (fin Gi) (fin a) (fin t)
      = (fin (bP (Gi / G - 1) ((Ki / K - Gi / G) / 3) (G / (K + 4 / 3 * G)) t f),
         fin (bQ (Gi / G - 1) ((Ki / K - Gi / G) / 3) (G / (K + 4 / 3 * G)) t f)) := by
  have k1 : (1.0 : Fl) = fin 1 := by rw [fl_sci]; norm_num
  have k2 : (2.0 : Fl) = fin 2 := by rw [fl_sci]; norm_num
  have k3 : (3.0 : Fl) = fin 3 := by rw [fl_sci]; norm_num
  have k4 : (4.0 : Fl) = fin 4 := by rw [fl_sci]; norm_num
  have k5 : (5.0 : Fl) = fin 5 := by rw [fl_sci]; norm_num
  have k9 : (9.0 : Fl) = fin 9 := by rw [fl_sci]; norm_num
  have k15 : (1.5 : Fl) = fin (3 / 2) := by rw [fl_sci]; norm_num
  have k25 : (2.5 : Fl) = fin (5 / 2) := by rw [fl_sci]; norm_num
  have z2 : (2 : ℝ) ≠ 0 := by norm_num
  have z3 : (3 : ℝ) ≠ 0 := by norm_num
  have z4 : (4 : ℝ) ≠ 0 := by norm_num
  have z5 : (5 : ℝ) ≠ 0 := by norm_num
  have zR : K + 4 / 3 * G ≠ 0 := by positivity
  have z24 := mul_ne_zero h2 h4
  subst hf
  unfold bF2 at h2 z24
  unfold bF3 at h3
  unfold bF4 at h4 z24
  unfold PQ_core bP bQ bF1 bF2 bF3 bF4 bF5 bF6 bF7 bF8 bF9
  simp (disch := first | assumption | positivity) only [fl, k1, k2, k3, k4, k5, k9, k15, k25]
  refine Prod.ext (congrArg fin ?_) (congrArg fin ?_)
  · ring
  · ring

theorem PQ_theta_oblate {a : ℝ} (h0 : 0 < a) (h1 : a < 1) : PQ_theta (fin a) = fin (shapeT a) := by
  have e1 : (1.0 : ℝ) = 1 := by norm_num
  have e3 : (3.0 : ℝ) / 2.0 = 3 / 2 := by norm_num
  have p : 0 < 1 - a ^ 2 := by nlinarith
  have pr : 0 < (1 - a ^ 2) ^ ((3 : ℝ) / 2) := Real.rpow_pos_of_pos p _
  have ac : -1 ≤ a ∧ a ≤ 1 := ⟨by linarith, h1.le⟩
  have ps : 0 < √(1 - a ^ 2) := Real.sqrt_pos.mpr p
  have e : (1 - a ^ 2) ^ ((3 : ℝ) / 2) = √(1 - a ^ 2) ^ 3 := by
    rw [Real.sqrt_eq_rpow, ← Real.rpow_mul_natCast p.le]
    norm_num
  have v : PQ_theta (fin a)
      = fin (a / (1 - a ^ 2) ^ ((3 : ℝ) / 2) * (Real.arccos a - a * √(1 - a ^ 2))) := by
    unfold PQ_theta
    rw [if_pos (by simp only [fl]; exact h1)]
    fl_eval [e1, e3]
  rw [v, shapeT_oblate h0 h1, e]
  congr 1
  ring

/-- `PQ` of an oblate or spherical inclusion, by the shape numbers of the spheroid. -/
theorem PQ_eval {K G Ki Gi a : ℝ} (hK : 0 < K) (hG : 0 < G) (hKi : 0 ≤ Ki) (hGi : 0 ≤ Gi)
    (h0 : 0 < a) (h1 : a ≤ 1) :
    PQ (fin K) (fin G) (fin Ki) (fin Gi) (fin a)
      = (fin (bP (Gi / G - 1) ((Ki / K - Gi / G) / 3) (G / (K + 4 / 3 * G)) (shapeT a) (shapeF a)),
         fin (bQ (Gi / G - 1) ((Ki / K - Gi / G) / 3) (G / (K + 4 / 3 * G)) (shapeT a)
          (shapeF a))) := by
  obtain ⟨rA, rB, rR, rR'⟩ := berryman_ranges hK hG hKi hGi
  obtain ⟨b1, b2, b3, b4⟩ := shape_bounds h0 h1
  have p2 := bF2_pos rA rB rR rR' b1 b2 b3 b4
  have p3 := bF3_pos rA rR rR' b2 b3 b4
  have p4 := bF4_pos rA rR rR' b1 b2 b3 b4
  rcases h1.lt_or_eq with h | h
  · unfold PQ
    rw [if_neg (by simp only [fl]; exact h.ne), PQ_theta_oblate h0 h]
    refine PQ_core_eval hK hG (by nlinarith) (shapeF_eq h0 h.ne) p2.ne' p3.ne' p4.ne'
  · subst h
    rw [PQ_sphere_eval hK hG hKi hGi, bQ_eq p2.ne' p4.ne']
    obtain ⟨s1, s2⟩ := shape_sphere
    rw [s1, s2] at p2 p3 p4 ⊢
    refine Prod.ext (congrArg fin ?_) (congrArg fin ?_)
    · have : 0 < Ki + 4 * G / 3 := by positivity
      unfold bP
      rw [eq_div_iff p2.ne']
      unfold bF1 bF2
      field
    · have e3 : bF3 (Gi / G - 1) (G / (K + 4 / 3 * G)) (2 / 3) (-(2 / 5))
          = (6 * Gi * (K + 2 * G) + G * (9 * K + 8 * G)) / (5 * G * (3 * K + 4 * G)) := by
        unfold bF3
        field
      have e4 : bF4 (Gi / G - 1) (G / (K + 4 / 3 * G)) (2 / 3) (-(2 / 5))
          = (6 * Gi * (K + 2 * G) + G * (9 * K + 8 * G)) / (5 * G * (3 * K + 4 * G)) := by
        unfold bF4
        field
      have e2 : bF2 (Gi / G - 1) ((Ki / K - Gi / G) / 3) (G / (K + 4 / 3 * G)) (2 / 3) (-(2 / 5))
          = (6 * Gi * (K + 2 * G) + G * (9 * K + 8 * G)) / (5 * G * (3 * K + 4 * G))
            * ((3 + (3 - 4 * (G / (K + 4 / 3 * G)))
              * (Gi / G - 1 + 3 * ((Ki / K - Gi / G) / 3))) / 3) := by
        unfold bF2
        field
      rw [e2, e3, e4]
      have q : 0 < (3 + (3 - 4 * (G / (K + 4 / 3 * G)))
              * (Gi / G - 1 + 3 * ((Ki / K - Gi / G) / 3))) / 3 := by
        have : 0 < 3 - 4 * (G / (K + 4 / 3 * G)) := by linarith
        nlinarith
      generalize (3 + (3 - 4 * (G / (K + 4 / 3 * G)))
              * (Gi / G - 1 + 3 * ((Ki / K - Gi / G) / 3))) / 3 = q at *
      have r : 0 < 6 * Gi * (K + 2 * G) + G * (9 * K + 8 * G) := by positivity
      have e5 : Gi + G / 6 * (9 * K + 8 * G) / (K + 2 * G)
          = (6 * Gi * (K + 2 * G) + G * (9 * K + 8 * G)) / (6 * (K + 2 * G)) := by field
      rw [e5]
      generalize 6 * Gi * (K + 2 * G) + G * (9 * K + 8 * G) = r at *
      field

end RockPhy.EM

namespace RockPhy.Props

open Fl EM Spec

/-! ## C79: shape factors are Eshelby's strain concentrations -/

/-- For every oblate or spherical inclusion, of any non-negative moduli (voids and fluids
included), `PQ` returns two positive numbers, and they are the strain concentration factors of
Eshelby's problem. -/
theorem C79_oblate (K G Ki Gi a : ℝ) (hK : 0 < K) (hG : 0 < G) (hKi : 0 ≤ Ki) (hGi : 0 ≤ Gi)
    (h0 : 0 < a) (h1 : a ≤ 1) :
    ∃ P Q : ℝ, PQ (fin K) (fin G) (fin Ki) (fin Gi) (fin a) = (fin P, fin Q) ∧ 0 < P ∧ 0 < Q ∧
      IsConcentration K G Ki Gi (spheroid a) P Q := by
  obtain ⟨rA, rB, rR, rR'⟩ := berryman_ranges hK hG hKi hGi
  obtain ⟨b1, b2, b3, b4⟩ := shape_bounds h0 h1
  have p1 := bF1_pos rA rR rR' b2 b3 b4
  have p2 := bF2_pos rA rB rR rR' b1 b2 b3 b4
  have p3 := bF3_pos rA rR rR' b2 b3 b4
  have p4 := bF4_pos rA rR rR' b1 b2 b3 b4
  refine ⟨_, _, PQ_eval hK hG hKi hGi h0 h1, div_pos p1 p2, ?_,
    berryman_concentration hK hG h0 p2.ne' p3.ne' p4.ne'⟩
  rw [bQ_eq p2.ne' p4.ne']
  have : 0 < 3 - 4 * (G / (K + 4 / 3 * G)) := by linarith
  have : 0 < 3 + (3 - 4 * (G / (K + 4 / 3 * G)))
      * (Gi / G - 1 + 3 * ((Ki / K - Gi / G) / 3)) := by nlinarith
  positivity

example : (0 : ℝ) < 37 ∧ (0 : ℝ) < 44 ∧ (0 : ℝ) ≤ 2.2 ∧ (0 : ℝ) ≤ 0 ∧ (0 : ℝ) < 0.01 ∧
    (0.01 : ℝ) ≤ 1 := by norm_num

/-- Prolate inclusions are handled wrongly: `np.cosh(alpha)**-1` is the reciprocal of the
hyperbolic cosine, not its inverse function.  For empty prolate pores of aspect ratio 2 the
factors are not those of Eshelby's problem, whose solution exists. -/
theorem C79_prolate_wrong :
    ∃ P Q P' Q' : ℝ, PQ (fin 2) (fin 3) (fin 0) (fin 0) (fin 2) = (fin P, fin Q) ∧
      IsConcentration 2 3 0 0 (spheroid 2) P' Q' ∧
      ¬ IsConcentration 2 3 0 0 (spheroid 2) P Q := by
  -- the value computed for theta
  have hs3 : 0 < √3 := by positivity
  have hs3' : √3 ^ 2 = 3 := Real.sq_sqrt (by norm_num)
  have c3 : (3 : ℝ) ≤ Real.cosh 2 := by
    have h := Real.exp_one_gt_d9
    have e : Real.exp 2 = Real.exp 1 ^ 2 := by rw [← Real.exp_nat_mul]; norm_num
    have p := Real.exp_pos (-2)
    rw [Real.cosh_eq]
    nlinarith
  have cp : 0 < Real.cosh 2 := by linarith
  obtain ⟨c, hc, hc1, hc2⟩ : ∃ c, PQ_theta (fin 2) = fin c ∧ 6 / 5 < c ∧ c < 4 / 3 := by
    have pr : (0 : ℝ) < 3 ^ ((3 : ℝ) / 2) := Real.rpow_pos_of_pos (by norm_num) _
    have e1 : (2 : ℝ) ^ 2 - 1 = 3 := by norm_num
    have e3 : (3.0 : ℝ) / 2.0 = 3 / 2 := by norm_num
    have e5 : (0.5 : ℝ) = 1 / 2 := by norm_num
    have v : PQ_theta (fin 2)
        = fin (2 / 3 ^ ((3 : ℝ) / 2) * (2 * 3 ^ ((1 : ℝ) / 2) - (Real.cosh 2)⁻¹)) := by
      unfold PQ_theta
      rw [if_neg (by simp only [fl]; norm_num)]
      fl_eval [e1, e3, e5]
    have e6 : (3 : ℝ) ^ ((3 : ℝ) / 2) = 3 * √3 := by
      rw [Real.sqrt_eq_rpow, show (3 : ℝ) / 2 = 1 + 1 / 2 by norm_num,
        Real.rpow_add (by norm_num), Real.rpow_one]
    rw [e6, ← Real.sqrt_eq_rpow] at v
    have e7 : 2 / (3 * √3) * (2 * √3 - (Real.cosh 2)⁻¹)
        = 4 / 3 - 2 / 3 * ((√3)⁻¹ * (Real.cosh 2)⁻¹) := by field
    refine ⟨_, v, ?_, ?_⟩
    · rw [e7]
      have : (√3)⁻¹ * (Real.cosh 2)⁻¹ < 1 / 5 := by
        rw [← mul_inv, one_div]
        apply inv_strictAnti₀ (by norm_num)
        have : (17 / 10 : ℝ) < √3 := Real.lt_sqrt_of_sq_lt (by norm_num)
        nlinarith
      linarith
    · rw [e7]
      have : 0 < (√3)⁻¹ * (Real.cosh 2)⁻¹ := by positivity
      linarith
  -- the true one
  have o2 : (0 : ℝ) < 2 := by norm_num
  have hT : 2 / 3 < shapeT 2 ∧ shapeT 2 < 1 := by
    have p := Real.pi_pos
    obtain ⟨-, -, i2⟩ := spheroid_I o2
    have pos := muraI_pos (spheroid_pos o2) 2
    have pos2 := muraII_pos (spheroid_pos o2) 0 2
    have d := spheroid_h o2
    have fe := shapeF_eq o2 (by norm_num)
    rw [i2] at pos
    rw [d, fe] at pos2
    have h1 := pos_of_mul_pos_right pos (by positivity)
    have h2 := pos_of_mul_pos_right pos2 (by positivity)
    constructor
    · norm_num at h2
      linarith
    · linarith
  have fe := shapeF_eq o2 (by norm_num)
  have r : ∀ x f : ℝ, f = 2 ^ 2 * (3 * x - 2) / (1 - 2 ^ 2) →
      bF1 (0 / 3 - 1) (3 / (2 + 4 / 3 * 3)) x f = 11 / 4 * x - 5 / 3 ∧
      bF2 (0 / 3 - 1) ((0 / 2 - 0 / 3) / 3) (3 / (2 + 4 / 3 * 3)) x f
        = -(4 / 3) + 5 / 2 * x - x ^ 2 / 2 ∧
      bF3 (0 / 3 - 1) (3 / (2 + 4 / 3 * 3)) x f = 4 / 3 - x ∧
      bF4 (0 / 3 - 1) (3 / (2 + 4 / 3 * 3)) x f = 2 / 3 - 3 / 8 * x := by
    rintro x f rfl
    unfold bF1 bF2 bF3 bF4
    refine ⟨?_, ?_, ?_, ?_⟩ <;> norm_num <;> ring
  obtain ⟨t1, t2, t3, t4⟩ := r _ _ fe
  obtain ⟨u1, u2, u3, u4⟩ := r c _ rfl
  obtain ⟨hT1, hT2⟩ := hT
  have pt2 : 0 < -(4 / 3) + 5 / 2 * shapeT 2 - shapeT 2 ^ 2 / 2 := by nlinarith
  have pu2 : 0 < -(4 / 3) + 5 / 2 * c - c ^ 2 / 2 := by nlinarith
  have con := berryman_concentration (K := 2) (G := 3) (Ki := 0) (Gi := 0) (a := 2)
    (by norm_num) (by norm_num) o2 (by rw [t2]; exact pt2.ne') (by rw [t3]; linarith)
    (by rw [t4]; linarith)
  refine ⟨bP (0 / 3 - 1) ((0 / 2 - 0 / 3) / 3) (3 / (2 + 4 / 3 * 3)) c
      (2 ^ 2 * (3 * c - 2) / (1 - 2 ^ 2)),
    bQ (0 / 3 - 1) ((0 / 2 - 0 / 3) / 3) (3 / (2 + 4 / 3 * 3)) c
      (2 ^ 2 * (3 * c - 2) / (1 - 2 ^ 2)), _, _, ?_, con, ?_⟩
  · unfold PQ
    rw [if_neg (by simp only [fl]; norm_num), hc]
    exact PQ_core_eval (by norm_num) (by norm_num) (by norm_num) rfl (by rw [u2]; exact pu2.ne')
      (by rw [u3]; linarith) (by rw [u4]; linarith)
  · rintro ⟨⟨e, he⟩, -, h, -⟩
    have x1 := h e he
    have x2 := con.2.2.1 e he
    rw [x1] at x2
    have x3 := mul_left_cancel₀ (by norm_num : (3 : ℝ) ≠ 0) x2
    unfold bP at x3
    rw [u1, u2, t1, t2] at x3
    have lo : (11 / 4 * shapeT 2 - 5 / 3) / (-(4 / 3) + 5 / 2 * shapeT 2 - shapeT 2 ^ 2 / 2)
        ≤ 13 / 8 := by
      rw [div_le_iff₀ pt2]
      nlinarith
    have hi : 13 / 8 < (11 / 4 * c - 5 / 3) / (-(4 / 3) + 5 / 2 * c - c ^ 2 / 2) := by
      rw [lt_div_iff₀ pu2]
      nlinarith
    linarith

end RockPhy.Props
