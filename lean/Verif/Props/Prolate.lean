import Verif.Lemmas.Prolate
import Verif.Props.Eshelby

/-! # Property C79, elongated inclusions: what is wrong in `EM.PQ`, and what would be right -/

namespace RockPhy.EM

open Fl Spec Filter Topology

/-- What `EM.PQ` computes for `theta` of a prolate spheroid. -/
noncomputable def codeT (a : ℝ) : ℝ :=
  a * (a * √(a ^ 2 - 1) - (Real.cosh a)⁻¹) / √(a ^ 2 - 1) ^ 3

theorem prolate_pow {a : ℝ} (h1 : 1 < a) :
    (a ^ 2 - 1) ^ ((3 : ℝ) / 2) = √(a ^ 2 - 1) ^ 3 := by
  have p : 0 < a ^ 2 - 1 := by nlinarith
  rw [Real.sqrt_eq_rpow, ← Real.rpow_mul_natCast p.le]
  norm_num

theorem PQ_theta_prolate {a : ℝ} (h1 : 1 < a) : PQ_theta (fin a) = fin (codeT a) := by
  have p : 0 < a ^ 2 - 1 := by nlinarith
  have pr : 0 < (a ^ 2 - 1) ^ ((3 : ℝ) / 2) := Real.rpow_pos_of_pos p _
  have pc : Real.cosh a ≠ 0 := (Real.cosh_pos a).ne'
  have e3 : (3.0 : ℝ) / 2.0 = 3 / 2 := by norm_num
  have e5 : (0.5 : ℝ) = 1 / 2 := by norm_num
  have v : PQ_theta (fin a) = fin (a / (a ^ 2 - 1) ^ ((3 : ℝ) / 2)
      * (a * (a ^ 2 - 1) ^ ((1 : ℝ) / 2) - (Real.cosh a)⁻¹)) := by
    unfold PQ_theta
    rw [if_neg (by simp only [fl]; exact h1.not_gt)]
    fl_eval [e3, e5]
  rw [v, prolate_pow h1, ← Real.sqrt_eq_rpow]
  unfold codeT
  congr 1
  ring

end RockPhy.EM

namespace RockPhy.Props

open Fl EM Spec Filter Topology

/-- With the inverse hyperbolic cosine in place of `np.cosh(alpha)**-1`, the formulas of `EM.PQ`
would return Eshelby's strain concentrations for every prolate inclusion of non-negative moduli,
voids and fluids included. -/
theorem C79_prolate_mended {K G Ki Gi a : ℝ} (hK : 0 < K) (hG : 0 < G) (hKi : 0 ≤ Ki)
    (hGi : 0 ≤ Gi) (h1 : 1 < a) :
    ∃ P Q : ℝ, PQ_core (fin K) (fin G) (fin Ki) (fin Gi) (fin a)
        (fin (a / (a ^ 2 - 1) ^ ((3 : ℝ) / 2) * (a * √(a ^ 2 - 1) - Real.arcosh a)))
        = (fin P, fin Q) ∧ 0 < P ∧ 0 < Q ∧
      IsConcentration K G Ki Gi (spheroid a) P Q := by
  have h0 : 0 < a := by linarith
  have e : a / (a ^ 2 - 1) ^ ((3 : ℝ) / 2) * (a * √(a ^ 2 - 1) - Real.arcosh a) = shapeT a := by
    rw [shapeT_prolate h1, prolate_pow h1]
    ring
  rw [e]
  obtain ⟨rA, rB, rR, rR'⟩ := berryman_ranges hK hG hKi hGi
  obtain ⟨b1, b2, b3, b4⟩ := shape_bounds_prolate h1
  have p1 := bF1_prolate rA rR rR' b1 b2 b3 b4
  have p2 := bF2_prolate rA rB rR rR' b1 b2 b3 b4
  have p3 := bF3_prolate rA rR rR' b1 b2 b3 b4
  have p4 := bF4_prolate rA rR rR' b1 b2 b3 b4
  have hn : 1 - a ^ 2 ≠ 0 := by nlinarith
  refine ⟨_, _, PQ_core_eval hK hG hn (shapeF_eq h0 h1.ne') p2.ne' p3.ne' p4.ne',
    div_pos (by linarith) p2, ?_, berryman_concentration hK hG h0 p2.ne' p3.ne' p4.ne'⟩
  rw [bQ_eq p2.ne' p4.ne']
  have : 0 < 3 - 4 * (G / (K + 4 / 3 * G)) := by linarith
  have : 0 < 3 + (3 - 4 * (G / (K + 4 / 3 * G)))
      * (Gi / G - 1 + 3 * ((Ki / K - Gi / G) / 3)) := by nlinarith
  positivity

example : (0 : ℝ) < 37 ∧ (0 : ℝ) < 44 ∧ (0 : ℝ) ≤ 2.2 ∧ (0 : ℝ) ≤ 0 ∧ (1 : ℝ) < 5 := by norm_num

/-- There is exactly one elongation at which `1 / cosh` and the inverse of `cosh` agree: at every
other one the shape number `theta` of `EM.PQ` is not that of the spheroid. -/
theorem C79_prolate_theta :
    ∃ a0 : ℝ, 1 < a0 ∧ ∀ a : ℝ, 1 < a →
      (PQ_theta (fin a) = fin (muraI (spheroid a) 0 / (2 * Real.pi)) ↔ a = a0) := by
  have inj : ∀ a b : ℝ, 1 ≤ a → a < b → Real.arcosh a - (Real.cosh a)⁻¹
      < Real.arcosh b - (Real.cosh b)⁻¹ := by
    intro a b ha hb
    have h1 : Real.arcosh a < Real.arcosh b :=
      (Real.arcosh_lt_arcosh (by linarith) (by linarith)).mpr hb
    have h2 : Real.cosh a < Real.cosh b := by
      rw [Real.cosh_lt_cosh, abs_of_pos (by linarith), abs_of_pos (by linarith)]
      exact hb
    have h3 := inv_strictAnti₀ (Real.cosh_pos a) h2
    linarith
  have cont : ContinuousOn (fun a => Real.arcosh a - (Real.cosh a)⁻¹) (Set.Icc 1 (Real.cosh 1)) :=
    (Real.continuousOn_arcosh.mono fun x hx => hx.1).sub
      ((Real.continuous_cosh.inv₀ fun x => (Real.cosh_pos x).ne').continuousOn)
  have lo : Real.arcosh 1 - (Real.cosh 1)⁻¹ < 0 := by
    have := inv_pos.mpr (Real.cosh_pos 1)
    rw [Real.arcosh_zero]
    linarith
  have hc1 : 1 < Real.cosh 1 := Real.one_lt_cosh.mpr one_ne_zero
  have hi : 0 < Real.arcosh (Real.cosh 1) - (Real.cosh (Real.cosh 1))⁻¹ := by
    rw [Real.arcosh_cosh zero_le_one]
    have : 1 < Real.cosh (Real.cosh 1) := Real.one_lt_cosh.mpr (by linarith)
    have := inv_lt_one_of_one_lt₀ this
    linarith
  obtain ⟨a0, ⟨ha0, -⟩, hz⟩ := intermediate_value_Icc hc1.le cont ⟨lo.le, hi.le⟩
  simp only at hz
  have ha1 : 1 < a0 := by
    rcases ha0.lt_or_eq with h | h
    · exact h
    · rw [← h] at hz
      linarith
  refine ⟨a0, ha1, fun a h1 => ?_⟩
  have hs : 0 < √(a ^ 2 - 1) := Real.sqrt_pos.mpr (by nlinarith)
  have ht : muraI (spheroid a) 0 / (2 * Real.pi) = shapeT a := rfl
  rw [PQ_theta_prolate h1, ht, shapeT_prolate h1]
  unfold codeT
  constructor
  · intro h
    have h := Fl.fin.inj h
    rw [div_left_inj' (by positivity)] at h
    have h := mul_left_cancel₀ (by linarith : a ≠ 0) h
    have hza : Real.arcosh a - (Real.cosh a)⁻¹ = 0 := by linarith
    rcases lt_trichotomy a a0 with g | g | g
    · have := inj a a0 h1.le g
      linarith
    · exact g
    · have := inj a0 a ha1.le g
      linarith
  · rintro rfl
    have : (Real.cosh a)⁻¹ = Real.arcosh a := by linarith
    rw [this]

/-- As the elongation of an inclusion tends to that of a sphere, both factors returned by `EM.PQ`
tend to zero, whatever the matrix and the inclusion (unless they share a modulus): the inclusion
would not be strained at all. -/
theorem C79_prolate_limit {K G Ki Gi : ℝ} (hK : 0 < K) (hG : 0 < G) (nK : Ki ≠ K) (nG : Gi ≠ G) :
    ∃ P Q : ℝ → ℝ,
      (∀ᶠ a in 𝓝[>] (1 : ℝ), PQ (fin K) (fin G) (fin Ki) (fin Gi) (fin a)
        = (fin (P a), fin (Q a))) ∧
      Tendsto P (𝓝[>] 1) (𝓝 0) ∧ Tendsto Q (𝓝[>] 1) (𝓝 0) := by
  set A := Gi / G - 1 with hA
  set B := (Ki / K - Gi / G) / 3 with hB
  set R := G / (K + 4 / 3 * G) with hR
  have nA : A ≠ 0 := by
    intro h
    rw [hA, sub_eq_zero, div_eq_one_iff_eq hG.ne'] at h
    exact nG h
  have nB : A + 3 * B ≠ 0 := by
    intro h
    have : Ki / K = 1 := by rw [hA, hB] at h; linarith
    rw [div_eq_one_iff_eq hK.ne'] at this
    exact nK this
  have rR : 0 < R := by positivity
  have rR' : R < 3 / 4 := by
    rw [hR, div_lt_iff₀ (by positivity)]
    linarith
  -- the elongation, and the quantities that stay finite
  have ts : Tendsto (fun a : ℝ => √(a ^ 2 - 1)) (𝓝[>] 1) (𝓝 0) := by
    have : Continuous fun a : ℝ => √(a ^ 2 - 1) := by fun_prop
    have h := this.tendsto 1
    norm_num at h
    exact h.mono_left nhdsWithin_le_nhds
  have ta : Tendsto (fun a : ℝ => a) (𝓝[>] 1) (𝓝 1) := tendsto_id.mono_left nhdsWithin_le_nhds
  set w : ℝ → ℝ := fun a => a * (a * √(a ^ 2 - 1) - (Real.cosh a)⁻¹) with hw
  set g : ℝ → ℝ := fun a => -(a ^ 2 * (3 * w a - 2 * √(a ^ 2 - 1) ^ 3)) with hg
  have cc : Real.cosh 1 ≠ 0 := (Real.cosh_pos 1).ne'
  have tw : Tendsto w (𝓝[>] 1) (𝓝 (-(Real.cosh 1)⁻¹)) := by
    have tc : Tendsto (fun a => (Real.cosh a)⁻¹) (𝓝[>] 1) (𝓝 (Real.cosh 1)⁻¹) :=
      ((Real.continuous_cosh.tendsto 1).mono_left nhdsWithin_le_nhds).inv₀ cc
    have := ta.mul ((ta.mul ts).sub tc)
    simpa using this
  have tg : Tendsto g (𝓝[>] 1) (𝓝 (3 * (Real.cosh 1)⁻¹)) := by
    have := ((ta.pow 2).mul ((tw.const_mul 3).sub ((ts.pow 3).const_mul 2))).neg
    simpa using this
  have vt : ∀ a : ℝ, 1 < a → w a = √(a ^ 2 - 1) ^ 3 * codeT a := by
    intro a h1
    have hs : 0 < √(a ^ 2 - 1) := Real.sqrt_pos.mpr (by nlinarith)
    simp only [hw, codeT]
    field
  set f : ℝ → ℝ := fun a => a ^ 2 * (3 * codeT a - 2) / (1 - a ^ 2) with hf
  have vf : ∀ a : ℝ, 1 < a → g a = √(a ^ 2 - 1) ^ 5 * f a := by
    intro a h1
    have hp : 0 < a ^ 2 - 1 := by nlinarith
    have hs2 : √(a ^ 2 - 1) ^ 2 = a ^ 2 - 1 := Real.sq_sqrt hp.le
    have n : 1 - a ^ 2 ≠ 0 := by linarith
    simp only [hg, hf]
    rw [vt a h1, ← mul_div_assoc, eq_div_iff n]
    linear_combination -(√(a ^ 2 - 1) ^ 3 * (a ^ 2 * (3 * codeT a - 2))) * hs2
  -- numerator and denominators, scaled
  have t1 : Tendsto (fun a => √(a ^ 2 - 1) ^ 6 * bF1 A R (codeT a) (f a)) (𝓝[>] 1) (𝓝 0) := by
    have h : Tendsto (fun a => √(a ^ 2 - 1) ^ 6 + A * (3 / 2 * (√(a ^ 2 - 1) * g a
        + √(a ^ 2 - 1) ^ 3 * w a) - R * (3 / 2 * (√(a ^ 2 - 1) * g a)
          + 5 / 2 * (√(a ^ 2 - 1) ^ 3 * w a) - 4 / 3 * √(a ^ 2 - 1) ^ 6))) (𝓝[>] 1)
        (𝓝 (0 ^ 6 + A * (3 / 2 * (0 * (3 * (Real.cosh 1)⁻¹) + 0 ^ 3 * -(Real.cosh 1)⁻¹)
          - R * (3 / 2 * (0 * (3 * (Real.cosh 1)⁻¹)) + 5 / 2 * (0 ^ 3 * -(Real.cosh 1)⁻¹)
            - 4 / 3 * 0 ^ 6)))) :=
      (ts.pow 6).add (((((ts.mul tg).add ((ts.pow 3).mul tw)).const_mul _).sub
        (((((ts.mul tg).const_mul _).add (((ts.pow 3).mul tw).const_mul _)).sub
          ((ts.pow 6).const_mul _)).const_mul _)).const_mul _)
    norm_num at h
    refine h.congr' ?_
    filter_upwards [self_mem_nhdsWithin] with a h1
    rw [vf a h1, vt a h1]
    unfold bF1
    ring
  have t2 : Tendsto (fun a => √(a ^ 2 - 1) ^ 6 * bF2 A B R (codeT a) (f a)) (𝓝[>] 1)
      (𝓝 (A * (A + 3 * B) * (3 / 2 - 2 * R) * (-(R * (2 * (Real.cosh 1)⁻¹ ^ 2))))) := by
    have h : Tendsto (fun a => √(a ^ 2 - 1) ^ 6 + A * (√(a ^ 2 - 1) ^ 6
        + 3 / 2 * (√(a ^ 2 - 1) * g a + √(a ^ 2 - 1) ^ 3 * w a)
          - R * (3 / 2 * (√(a ^ 2 - 1) * g a) + 5 / 2 * (√(a ^ 2 - 1) ^ 3 * w a)))
        + B * (3 - 4 * R) * √(a ^ 2 - 1) ^ 6
        + A * (A + 3 * B) * (3 / 2 - 2 * R) * (√(a ^ 2 - 1) * g a + √(a ^ 2 - 1) ^ 3 * w a
          - R * (√(a ^ 2 - 1) * g a - √(a ^ 2 - 1) ^ 3 * w a + 2 * w a ^ 2))) (𝓝[>] 1)
        (𝓝 (0 ^ 6 + A * (0 ^ 6
          + 3 / 2 * (0 * (3 * (Real.cosh 1)⁻¹) + 0 ^ 3 * -(Real.cosh 1)⁻¹)
            - R * (3 / 2 * (0 * (3 * (Real.cosh 1)⁻¹)) + 5 / 2 * (0 ^ 3 * -(Real.cosh 1)⁻¹)))
          + B * (3 - 4 * R) * 0 ^ 6
          + A * (A + 3 * B) * (3 / 2 - 2 * R)
            * (0 * (3 * (Real.cosh 1)⁻¹) + 0 ^ 3 * -(Real.cosh 1)⁻¹
              - R * (0 * (3 * (Real.cosh 1)⁻¹) - 0 ^ 3 * -(Real.cosh 1)⁻¹
                + 2 * (-(Real.cosh 1)⁻¹) ^ 2)))) := by
      have u := ts.mul tg
      have v := (ts.pow 3).mul tw
      have z := ts.pow 6
      exact ((z.add (((z.add ((u.add v).const_mul _)).sub
        (((u.const_mul _).add (v.const_mul _)).const_mul _)).const_mul _)).add
        (z.const_mul _)).add (((u.add v).sub
          (((u.sub v).add ((tw.pow 2).const_mul _)).const_mul _)).const_mul _)
    have e : (0 ^ 6 + A * (0 ^ 6
          + 3 / 2 * (0 * (3 * (Real.cosh 1)⁻¹) + 0 ^ 3 * -(Real.cosh 1)⁻¹)
            - R * (3 / 2 * (0 * (3 * (Real.cosh 1)⁻¹)) + 5 / 2 * (0 ^ 3 * -(Real.cosh 1)⁻¹)))
          + B * (3 - 4 * R) * 0 ^ 6
          + A * (A + 3 * B) * (3 / 2 - 2 * R)
            * (0 * (3 * (Real.cosh 1)⁻¹) + 0 ^ 3 * -(Real.cosh 1)⁻¹
              - R * (0 * (3 * (Real.cosh 1)⁻¹) - 0 ^ 3 * -(Real.cosh 1)⁻¹
                + 2 * (-(Real.cosh 1)⁻¹) ^ 2)))
        = A * (A + 3 * B) * (3 / 2 - 2 * R) * (-(R * (2 * (Real.cosh 1)⁻¹ ^ 2))) := by ring
    rw [e] at h
    refine h.congr' ?_
    filter_upwards [self_mem_nhdsWithin] with a h1
    rw [vf a h1, vt a h1]
    unfold bF2
    ring
  have t3 : Tendsto (fun a => √(a ^ 2 - 1) ^ 5 * bF3 A R (codeT a) (f a)) (𝓝[>] 1)
      (𝓝 (A * ((R - 1) * (3 * (Real.cosh 1)⁻¹)))) := by
    have h : Tendsto (fun a => √(a ^ 2 - 1) ^ 5 + A * (√(a ^ 2 - 1) ^ 5 - g a
        - 3 / 2 * (√(a ^ 2 - 1) ^ 2 * w a) + R * (g a + √(a ^ 2 - 1) ^ 2 * w a))) (𝓝[>] 1)
        (𝓝 (0 ^ 5 + A * (0 ^ 5 - 3 * (Real.cosh 1)⁻¹
        - 3 / 2 * (0 ^ 2 * -(Real.cosh 1)⁻¹)
          + R * (3 * (Real.cosh 1)⁻¹ + 0 ^ 2 * -(Real.cosh 1)⁻¹)))) := by
      have v := (ts.pow 2).mul tw
      have z := ts.pow 5
      exact z.add ((((z.sub tg).sub (v.const_mul _)).add ((tg.add v).const_mul _)).const_mul _)
    have e : (0 ^ 5 + A * (0 ^ 5 - 3 * (Real.cosh 1)⁻¹
        - 3 / 2 * (0 ^ 2 * -(Real.cosh 1)⁻¹)
          + R * (3 * (Real.cosh 1)⁻¹ + 0 ^ 2 * -(Real.cosh 1)⁻¹)))
        = A * ((R - 1) * (3 * (Real.cosh 1)⁻¹)) := by ring
    rw [e] at h
    refine h.congr' ?_
    filter_upwards [self_mem_nhdsWithin] with a h1
    rw [vf a h1, vt a h1]
    unfold bF3
    ring
  have t4 : Tendsto (fun a => √(a ^ 2 - 1) ^ 5 * bF4 A R (codeT a) (f a)) (𝓝[>] 1)
      (𝓝 (A / 4 * ((1 - R) * (3 * (Real.cosh 1)⁻¹)))) := by
    have h : Tendsto (fun a => √(a ^ 2 - 1) ^ 5 + A / 4 * (g a
        + 3 * (√(a ^ 2 - 1) ^ 2 * w a) - R * (g a - √(a ^ 2 - 1) ^ 2 * w a))) (𝓝[>] 1)
        (𝓝 (0 ^ 5 + A / 4 * (3 * (Real.cosh 1)⁻¹
        + 3 * (0 ^ 2 * -(Real.cosh 1)⁻¹)
          - R * (3 * (Real.cosh 1)⁻¹ - 0 ^ 2 * -(Real.cosh 1)⁻¹)))) := by
      have v := (ts.pow 2).mul tw
      have z := ts.pow 5
      exact z.add (((tg.add (v.const_mul _)).sub ((tg.sub v).const_mul _)).const_mul _)
    have e : (0 ^ 5 + A / 4 * (3 * (Real.cosh 1)⁻¹
        + 3 * (0 ^ 2 * -(Real.cosh 1)⁻¹)
          - R * (3 * (Real.cosh 1)⁻¹ - 0 ^ 2 * -(Real.cosh 1)⁻¹)))
        = A / 4 * ((1 - R) * (3 * (Real.cosh 1)⁻¹)) := by ring
    rw [e] at h
    refine h.congr' ?_
    filter_upwards [self_mem_nhdsWithin] with a h1
    rw [vf a h1, vt a h1]
    unfold bF4
    ring
  have ci : (Real.cosh 1)⁻¹ ≠ 0 := inv_ne_zero cc
  have n2 : A * (A + 3 * B) * (3 / 2 - 2 * R) * (-(R * (2 * (Real.cosh 1)⁻¹ ^ 2))) ≠ 0 :=
    mul_ne_zero (mul_ne_zero (mul_ne_zero nA nB) (by linarith))
      (neg_ne_zero.mpr (mul_ne_zero rR.ne' (mul_ne_zero two_ne_zero (pow_ne_zero _ ci))))
  have n3 : A * ((R - 1) * (3 * (Real.cosh 1)⁻¹)) ≠ 0 :=
    mul_ne_zero nA (mul_ne_zero (by linarith) (mul_ne_zero three_ne_zero ci))
  have n4 : A / 4 * ((1 - R) * (3 * (Real.cosh 1)⁻¹)) ≠ 0 :=
    mul_ne_zero (div_ne_zero nA four_ne_zero)
      (mul_ne_zero (by linarith) (mul_ne_zero three_ne_zero ci))
  have ev : ∀ᶠ a in 𝓝[>] (1 : ℝ), 1 < a ∧ bF2 A B R (codeT a) (f a) ≠ 0 ∧
      bF3 A R (codeT a) (f a) ≠ 0 ∧ bF4 A R (codeT a) (f a) ≠ 0 := by
    filter_upwards [self_mem_nhdsWithin, t2.eventually_ne n2, t3.eventually_ne n3,
      t4.eventually_ne n4] with a h1 h2 h3 h4
    exact ⟨h1, right_ne_zero_of_mul h2, right_ne_zero_of_mul h3, right_ne_zero_of_mul h4⟩
  have z1 : Tendsto (fun a => bP A B R (codeT a) (f a)) (𝓝[>] 1) (𝓝 0) := by
    have h := t1.div t2 n2
    rw [zero_div] at h
    refine h.congr' ?_
    filter_upwards [self_mem_nhdsWithin] with a h1
    have hs : 0 < √(a ^ 2 - 1) := Real.sqrt_pos.mpr (by have : 1 < a := h1; nlinarith)
    simp only [Pi.div_apply]
    rw [mul_div_mul_left _ _ (by positivity)]
    rfl
  have z2 : Tendsto (fun a => bQ A B R (codeT a) (f a)) (𝓝[>] 1) (𝓝 0) := by
    have h := ((((ts.pow 5).div t3 n3).const_mul 2).add (((ts.pow 5).div t4 n4).const_mul 2)).add
      (((ts.pow 6).div t2 n2).const_mul ((3 + (3 - 4 * R) * (A + 3 * B)) / 3)) |>.div_const 5
    have e : (2 * (0 ^ 5 / (A * ((R - 1) * (3 * (Real.cosh 1)⁻¹))))
        + 2 * (0 ^ 5 / (A / 4 * ((1 - R) * (3 * (Real.cosh 1)⁻¹))))
        + (3 + (3 - 4 * R) * (A + 3 * B)) / 3
          * (0 ^ 6 / (A * (A + 3 * B) * (3 / 2 - 2 * R)
            * (-(R * (2 * (Real.cosh 1)⁻¹ ^ 2)))))) / 5 = 0 := by norm_num
    rw [e] at h
    refine h.congr' ?_
    filter_upwards [ev] with a ⟨h1, h2, h3, h4⟩
    have hs : √(a ^ 2 - 1) ≠ 0 := (Real.sqrt_pos.mpr (by nlinarith)).ne'
    have q : ∀ (n : ℕ) (x : ℝ), √(a ^ 2 - 1) ^ n / (√(a ^ 2 - 1) ^ n * x) = 1 / x := by
      intro n x
      rw [div_mul_eq_div_div, div_self (pow_ne_zero _ hs)]
    simp only [Pi.div_apply, q]
    rw [bQ_eq h2 h4]
    ring
  refine ⟨fun a => bP A B R (codeT a) (f a), fun a => bQ A B R (codeT a) (f a), ?_, z1, z2⟩
  filter_upwards [ev] with a ⟨h1, h2, h3, h4⟩
  unfold PQ
  rw [if_neg (by simp only [fl]; exact h1.ne'), PQ_theta_prolate h1]
  exact PQ_core_eval hK hG (by nlinarith) rfl h2 h3 h4

example : (0 : ℝ) < 37 ∧ (0 : ℝ) < 44 ∧ (2.2 : ℝ) ≠ 37 ∧ (0 : ℝ) ≠ 44 := by norm_num

/-- Whatever the matrix and the inclusion (unless they share a modulus), for slightly elongated
inclusions the factors of `EM.PQ` are not Eshelby's. -/
theorem C79_prolate_near_sphere {K G Ki Gi : ℝ} (hK : 0 < K) (hG : 0 < G) (hKi : 0 ≤ Ki)
    (hGi : 0 ≤ Gi) (nK : Ki ≠ K) (nG : Gi ≠ G) :
    ∃ δ > 0, ∀ a, 1 < a → a < 1 + δ → ∃ P Q P' Q' : ℝ,
      PQ (fin K) (fin G) (fin Ki) (fin Gi) (fin a) = (fin P, fin Q) ∧
      IsConcentration K G Ki Gi (spheroid a) P' Q' ∧
      ¬ IsConcentration K G Ki Gi (spheroid a) P Q := by
  obtain ⟨P, Q, hPQ, hP, -⟩ := C79_prolate_limit hK hG nK nG
  obtain ⟨rA, rB, rR, rR'⟩ := berryman_ranges hK hG hKi hGi
  set A := Gi / G - 1 with hA
  set B := (Ki / K - Gi / G) / 3 with hB
  set R := G / (K + 4 / 3 * G) with hR
  set m := R / 3 / (10 * (1 + (A + 1)) * (1 + (A + 3 * B + 1))) with hm
  have d1 : 0 < 10 * (1 + (A + 1)) * (1 + (A + 3 * B + 1)) :=
    mul_pos (mul_pos (by norm_num) (by linarith)) (by linarith)
  have pm : 0 < m := div_pos (by linarith) d1
  have ev := hPQ.and (hP.eventually (gt_mem_nhds pm))
  rw [eventually_nhdsWithin_iff, Metric.eventually_nhds_iff] at ev
  obtain ⟨δ, hδ, h⟩ := ev
  refine ⟨δ, hδ, fun a h1 h2 => ?_⟩
  have ha : 0 < a := by linarith
  obtain ⟨e, lt⟩ := h (by rw [Real.dist_eq, abs_of_pos (by linarith)]; linarith) h1
  obtain ⟨b1, b2, b3, b4⟩ := shape_bounds_prolate h1
  have p1 := bF1_prolate rA rR rR' b1 b2 b3 b4
  have p2 := bF2_prolate rA rB rR rR' b1 b2 b3 b4
  have p2' := bF2_prolate_le rA rB rR rR' b1 b2 b3 b4
  have p3 := bF3_prolate rA rR rR' b1 b2 b3 b4
  have p4 := bF4_prolate rA rR rR' b1 b2 b3 b4
  have con := berryman_concentration (Ki := Ki) (Gi := Gi) hK hG ha p2.ne' p3.ne' p4.ne'
  refine ⟨_, _, _, _, e, con, ?_⟩
  rintro ⟨⟨s, hs⟩, -, c, -⟩
  have x1 := c s hs
  have x2 := con.2.2.1 s hs
  rw [x1] at x2
  have x3 := mul_left_cancel₀ (by norm_num : (3 : ℝ) ≠ 0) x2
  have : m ≤ bP A B R (shapeT a) (shapeF a) := by
    unfold bP
    exact div_le_div₀ (by linarith) p1 p2 p2'
  linarith

example : (0 : ℝ) < 37 ∧ (0 : ℝ) < 44 ∧ (0 : ℝ) ≤ 2.2 ∧ (0 : ℝ) ≤ 0 ∧ (2.2 : ℝ) ≠ 37 ∧
    (0 : ℝ) ≠ 44 := by norm_num

/-- The error dies out for needles: as the elongation grows without bound the factors of `EM.PQ`
and Eshelby's tend to the same positive limits. -/
theorem C79_needle {K G Ki Gi : ℝ} (hK : 0 < K) (hG : 0 < G) (hKi : 0 ≤ Ki) (hGi : 0 ≤ Gi) :
    ∃ (P Q P' Q' : ℝ → ℝ) (p q : ℝ),
      (∀ᶠ a in atTop, PQ (fin K) (fin G) (fin Ki) (fin Gi) (fin a) = (fin (P a), fin (Q a))) ∧
      (∀ᶠ a in atTop, IsConcentration K G Ki Gi (spheroid a) (P' a) (Q' a)) ∧
      0 < p ∧ 0 < q ∧ Tendsto P atTop (𝓝 p) ∧ Tendsto P' atTop (𝓝 p) ∧
      Tendsto Q atTop (𝓝 q) ∧ Tendsto Q' atTop (𝓝 q) := by
  obtain ⟨rA, rB, rR, rR'⟩ := berryman_ranges hK hG hKi hGi
  set A := Gi / G - 1 with hA
  set B := (Ki / K - Gi / G) / 3 with hB
  set R := G / (K + 4 / 3 * G) with hR
  have p1 : 0 < bF1 A R 1 (-1) := by
    unfold bF1
    nlinarith
  have p2 : 0 < bF2 A B R 1 (-1) := by
    unfold bF2
    nlinarith
  have p3 : 0 < bF3 A R 1 (-1) := by
    unfold bF3
    nlinarith
  have p4 : 0 < bF4 A R 1 (-1) := by
    unfold bF4
    nlinarith
  -- the elongation over the focal distance
  have hs : ∀ a : ℝ, 1 < a → 0 < √(a ^ 2 - 1) := fun a h => Real.sqrt_pos.mpr (by nlinarith)
  have hs2 : ∀ a : ℝ, 1 < a → √(a ^ 2 - 1) ^ 2 = a ^ 2 - 1 := fun a h =>
    Real.sq_sqrt (by nlinarith)
  have ti : Tendsto (fun a : ℝ => a⁻¹) atTop (𝓝 0) := tendsto_inv_atTop_zero
  have tr2 : Tendsto (fun a : ℝ => (1 - a⁻¹ ^ 2)⁻¹) atTop (𝓝 1) := by
    have h := (tendsto_const_nhds (x := (1 : ℝ))).sub (ti.pow 2) |>.inv₀ (by norm_num)
    simpa using h
  have ta2 : Tendsto (fun a : ℝ => a ^ 2 / √(a ^ 2 - 1) ^ 2) atTop (𝓝 1) := by
    refine tr2.congr' ?_
    filter_upwards [eventually_gt_atTop 1] with a h1
    rw [hs2 a h1]
    have : a ^ 2 - 1 ≠ 0 := by nlinarith
    have : a ≠ 0 := by linarith
    have : 1 - a⁻¹ ^ 2 ≠ 0 := by
      have e : 1 - a⁻¹ ^ 2 = (a ^ 2 - 1) / a ^ 2 := by field
      rw [e]
      positivity
    field_simp
  have lim : ∀ x : ℝ → ℝ, (∀ a, 1 < a → 0 ≤ x a ∧ x a ≤ 2 * a) →
      Tendsto (fun a => a * (a * √(a ^ 2 - 1) - x a) / √(a ^ 2 - 1) ^ 3) atTop (𝓝 1) := by
    intro x hx
    have small : Tendsto (fun a => a * x a / √(a ^ 2 - 1) ^ 3) atTop (𝓝 0) := by
      have tsq : Tendsto (fun a : ℝ => √(a ^ 2 - 1)) atTop atTop :=
        Real.tendsto_sqrt_atTop.comp
          (tendsto_atTop_add_const_right _ (-1) (tendsto_pow_atTop two_ne_zero))
      have g := (ta2.mul (tendsto_inv_atTop_zero.comp tsq)).const_mul 2
      rw [mul_zero, mul_zero] at g
      refine squeeze_zero' ?_ ?_ g
      · filter_upwards [eventually_gt_atTop 1] with a h1
        have := hs a h1
        have := (hx a h1).1
        positivity
      · filter_upwards [eventually_gt_atTop 1] with a h1
        have h := hs a h1
        have hxa := (hx a h1).2
        have e : 2 * (a ^ 2 / √(a ^ 2 - 1) ^ 2 * ((fun y => y⁻¹) ∘ fun a => √(a ^ 2 - 1)) a)
            = a * (2 * a) / √(a ^ 2 - 1) ^ 3 := by
          simp only [Function.comp_apply]
          field
        rw [e]
        gcongr
    have g := ta2.sub small
    rw [sub_zero] at g
    refine g.congr' ?_
    filter_upwards [eventually_gt_atTop 1] with a h1
    have h := hs a h1
    field
  have tc : Tendsto codeT atTop (𝓝 1) := by
    refine lim (fun a => (Real.cosh a)⁻¹) fun a h1 => ⟨(inv_pos.mpr (Real.cosh_pos a)).le, ?_⟩
    have := inv_le_one_of_one_le₀ (Real.one_le_cosh a)
    linarith
  have tt : Tendsto shapeT atTop (𝓝 1) := by
    refine (lim Real.arcosh fun a h1 => ⟨Real.arcosh_nonneg h1.le, ?_⟩).congr' ?_
    · have e : Real.arcosh a = Real.log (a + √(a ^ 2 - 1)) := rfl
      have h := hs a h1
      have h2 := hs2 a h1
      have := Real.log_le_sub_one_of_pos (by positivity : 0 < a + √(a ^ 2 - 1))
      have : √(a ^ 2 - 1) ≤ a := by nlinarith
      rw [e]
      linarith
    · filter_upwards [eventually_gt_atTop 1] with a h1
      exact (shapeT_prolate h1).symm
  have tf : ∀ T : ℝ → ℝ, Tendsto T atTop (𝓝 1) →
      Tendsto (fun a => a ^ 2 * (3 * T a - 2) / (1 - a ^ 2)) atTop (𝓝 (-1)) := by
    intro T hT
    have g := (tr2.mul ((hT.const_mul 3).sub_const 2)).neg
    rw [show -(1 * (3 * 1 - 2) : ℝ) = -1 by norm_num] at g
    refine g.congr' ?_
    filter_upwards [eventually_gt_atTop 1] with a h1
    have n : 1 - a ^ 2 ≠ 0 := by nlinarith
    have : a ≠ 0 := by linarith
    have e : 1 - a⁻¹ ^ 2 = -(1 - a ^ 2) / a ^ 2 := by field
    rw [e]
    field
  have tF : Tendsto shapeF atTop (𝓝 (-1)) := by
    refine (tf shapeT tt).congr' ?_
    filter_upwards [eventually_gt_atTop 1] with a h1
    exact (shapeF_eq (by linarith) h1.ne').symm
  set f : ℝ → ℝ := fun a => a ^ 2 * (3 * codeT a - 2) / (1 - a ^ 2) with hf
  have all : ∀ T F : ℝ → ℝ, Tendsto T atTop (𝓝 1) → Tendsto F atTop (𝓝 (-1)) →
      (∀ᶠ a in atTop, bF2 A B R (T a) (F a) ≠ 0 ∧ bF3 A R (T a) (F a) ≠ 0 ∧
        bF4 A R (T a) (F a) ≠ 0) ∧
      Tendsto (fun a => bP A B R (T a) (F a)) atTop (𝓝 (bP A B R 1 (-1))) ∧
      Tendsto (fun a => bQ A B R (T a) (F a)) atTop (𝓝 (bQ A B R 1 (-1))) := by
    intro T F hT hF
    have tp := hT.prodMk_nhds hF
    have c1 : Continuous fun z : ℝ × ℝ => bF1 A R z.1 z.2 := by unfold bF1; fun_prop
    have c2 : Continuous fun z : ℝ × ℝ => bF2 A B R z.1 z.2 := by unfold bF2; fun_prop
    have c3 : Continuous fun z : ℝ × ℝ => bF3 A R z.1 z.2 := by unfold bF3; fun_prop
    have c4 : Continuous fun z : ℝ × ℝ => bF4 A R z.1 z.2 := by unfold bF4; fun_prop
    have l1 := (c1.tendsto (1, -1)).comp tp
    have l2 := (c2.tendsto (1, -1)).comp tp
    have l3 := (c3.tendsto (1, -1)).comp tp
    have l4 := (c4.tendsto (1, -1)).comp tp
    have ev := (l2.eventually_ne p2.ne').and ((l3.eventually_ne p3.ne').and
      (l4.eventually_ne p4.ne'))
    refine ⟨ev, l1.div l2 p2.ne', ?_⟩
    have h := (((tendsto_const_nhds (x := (2 : ℝ))).div l3 p3.ne').add
      ((tendsto_const_nhds (x := (2 : ℝ))).div l4 p4.ne')).add
      ((tendsto_const_nhds (x := (3 + (3 - 4 * R) * (A + 3 * B)) / 3)).div l2 p2.ne')
      |>.div_const 5
    rw [bQ_eq p2.ne' p4.ne']
    refine h.congr' ?_
    filter_upwards [ev] with a ⟨h2, h3, h4⟩
    rw [bQ_eq h2 h4]
    rfl
  obtain ⟨e1, l1, l2⟩ := all codeT f tc (tf codeT tc)
  obtain ⟨e3, l3, l4⟩ := all shapeT shapeF tt tF
  refine ⟨_, _, _, _, _, _, ?_, ?_, div_pos p1 p2, ?_, l1, l3, l2, l4⟩
  · filter_upwards [e1, eventually_gt_atTop 1] with a ⟨h2, h3, h4⟩ h1
    unfold PQ
    rw [if_neg (by simp only [fl]; exact h1.ne'), PQ_theta_prolate h1]
    exact PQ_core_eval hK hG (by nlinarith) rfl h2 h3 h4
  · filter_upwards [e3, eventually_gt_atTop 1] with a ⟨h2, h3, h4⟩ h1
    exact berryman_concentration hK hG (by linarith) h2 h3 h4
  · rw [bQ_eq p2.ne' p4.ne']
    have : 0 < 3 + (3 - 4 * R) * (A + 3 * B) := by nlinarith
    positivity

example : (0 : ℝ) < 37 ∧ (0 : ℝ) < 44 ∧ (0 : ℝ) ≤ 2.2 ∧ (0 : ℝ) ≤ 0 := by norm_num

end RockPhy.Props
