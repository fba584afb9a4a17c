import Verif.Lemmas.Berryman
import Verif.Lemmas.Ode

/-! # Berryman's formulas as a smooth field, up to the edges of the quadrant of moduli -/

namespace RockPhy.Spec

open Set
open scoped Topology

section

variable {A B R t f : ℝ}

theorem bF2_pos_edge (hA : -1 ≤ A) (hB : -1 ≤ A + 3 * B) (hR : 0 ≤ R) (hR' : R ≤ 3 / 4)
    (ht : 0 < t) (ht' : t ≤ 2 / 3) (hf : f < 0) (hf' : 0 < t + f)
    (h0 : R = 0 → -1 < A + 3 * B) (h1 : R = 3 / 4 → -1 < A) : 0 < bF2 A B R t f := by
  rcases hR.eq_or_lt with rfl | hR
  · have hB := h0 rfl
    have e : bF2 A B 0 t f = (A + 1) * (A + 3 * B + 1) * (3 / 2 * (f + t))
        + (A + 3 * B + 1) * (1 - 3 / 2 * (f + t)) := by
      unfold bF2
      ring
    rw [e]
    have : 0 ≤ A + 1 := by linarith
    have : 0 < A + 3 * B + 1 := by linarith
    have : 0 < f + t := by linarith
    have : 0 < 1 - 3 / 2 * (f + t) := by linarith
    positivity
  · rcases hR'.eq_or_lt with rfl | hR'
    · have hA := h1 rfl
      have e : bF2 A B (3 / 4) t f = (A + 1) * (1 + 3 / 8 * (f - t)) + 3 / 8 * (t - f) := by
        unfold bF2
        ring
      rw [e]
      have : 0 < A + 1 := by linarith
      have : 0 < 1 + 3 / 8 * (f - t) := by linarith
      have : 0 < t - f := by linarith
      positivity
    · exact bF2_pos hA hB hR hR' ht ht' hf hf'

theorem bF3_pos_edge (hA : -1 ≤ A) (hR : 0 ≤ R) (hR' : R ≤ 3 / 4)
    (ht' : t ≤ 2 / 3) (hf : f < 0) (hf' : 0 < t + f) : 0 < bF3 A R t f := by
  unfold bF3
  have h1 : 0 ≤ R * (f + t) := mul_nonneg hR (by linarith)
  have h2 : 1 - f - 3 / 2 * t + R * (f + t) < 1 := by
    have : R * (f + t) ≤ 3 / 4 * (f + t) := mul_le_mul_of_nonneg_right hR' (by linarith)
    linarith
  nlinarith

theorem bF4_pos_edge (hA : -1 ≤ A) (hR : 0 ≤ R) (hR' : R ≤ 3 / 4) (ht : 0 < t)
    (ht' : t ≤ 2 / 3) (hf : f < 0) (hf' : 0 < t + f) : 0 < bF4 A R t f := by
  unfold bF4
  have h1 : 0 < (f + 3 * t - R * (f - t)) / 4 := by nlinarith
  have h2 : (f + 3 * t - R * (f - t)) / 4 < 1 := by nlinarith
  nlinarith

theorem bF1_pos_edge (hA : -1 ≤ A) (hR : 0 ≤ R) (hR' : R ≤ 3 / 4)
    (ht' : t ≤ 2 / 3) (hf : f < 0) (hf' : 0 < t + f) : 0 < bF1 A R t f := by
  unfold bF1
  have h1 : 0 < 3 / 2 * (f + t) - R * (3 / 2 * f + 5 / 2 * t - 4 / 3) := by nlinarith
  have h2 : 3 / 2 * (f + t) - R * (3 / 2 * f + 5 / 2 * t - 4 / 3) < 1 := by nlinarith
  nlinarith

end

/-- Smoothness of `P` and `Q` along smooth `A`, `B`, `R` with positive denominators. -/
theorem bPQ_contDiffAt {E : Type*} [NormedAddCommGroup E] [NormedSpace ℝ E] {A B R : E → ℝ} {p : E}
    {t f : ℝ} (hA : ContDiffAt ℝ 1 A p) (hB : ContDiffAt ℝ 1 B p) (hR : ContDiffAt ℝ 1 R p)
    (h2 : bF2 (A p) (B p) (R p) t f ≠ 0) (h3 : bF3 (A p) (R p) t f ≠ 0)
    (h4 : bF4 (A p) (R p) t f ≠ 0) :
    ContDiffAt ℝ 1 (fun x => bP (A x) (B x) (R x) t f) p ∧
    ContDiffAt ℝ 1 (fun x => bQ (A x) (B x) (R x) t f) p := by
  have c2 : ContDiffAt ℝ 1 (fun x => bF2 (A x) (B x) (R x) t f) p := by
    unfold bF2
    fun_prop
  have c3 : ContDiffAt ℝ 1 (fun x => bF3 (A x) (R x) t f) p := by
    unfold bF3
    fun_prop
  have c4 : ContDiffAt ℝ 1 (fun x => bF4 (A x) (R x) t f) p := by
    unfold bF4
    fun_prop
  constructor
  · unfold bP
    refine ContDiffAt.div ?_ c2 h2
    unfold bF1
    fun_prop
  · unfold bQ
    refine ContDiffAt.div_const ?_ _
    refine (((contDiffAt_const.div c3 h3).add (contDiffAt_const.div c4 h4))).add
      (ContDiffAt.div ?_ (c2.mul c4) (mul_ne_zero h2 h4))
    unfold bF4 bF5 bF6 bF7 bF8 bF9
    fun_prop

/-- The factors of a spheroid with moduli `Ki`, `Gi` in a medium with moduli `p`. -/
noncomputable def facP (Ki Gi a : ℝ) (p : ℝ × ℝ) : ℝ :=
  bP (Gi / p.2 - 1) ((Ki / p.1 - Gi / p.2) / 3) (p.2 / (p.1 + 4 / 3 * p.2)) (shapeT a) (shapeF a)

noncomputable def facQ (Ki Gi a : ℝ) (p : ℝ × ℝ) : ℝ :=
  bQ (Gi / p.2 - 1) ((Ki / p.1 - Gi / p.2) / 3) (p.2 / (p.1 + 4 / 3 * p.2)) (shapeT a) (shapeF a)

/-- The field of the differential scheme, up to the factor `1 / (1 - t)`. -/
noncomputable def demField (Ki Gi a : ℝ) (p : ℝ × ℝ) : ℝ × ℝ :=
  ((Ki - p.1) * facP Ki Gi a p, (Gi - p.2) * facQ Ki Gi a p)

/-- The field is smooth and its factors are positive at every medium that is not a void, also at
media without a bulk or without a shear modulus provided that the inclusion lacks the same one. -/
theorem demField_smooth {Ki Gi a : ℝ} {p : ℝ × ℝ} (hKi : 0 ≤ Ki) (hGi : 0 ≤ Gi) (ha : 0 < a)
    (ha1 : a ≤ 1) (h1 : 0 ≤ p.1) (h2 : 0 ≤ p.2) (hp : 0 < p.1 + p.2)
    (hz1 : p.1 = 0 → Ki = 0 ∧ 0 < Gi) (hz2 : p.2 = 0 → Gi = 0 ∧ 0 < Ki) :
    ContDiffAt ℝ 1 (demField Ki Gi a) p ∧ 0 ≤ facP Ki Gi a p ∧ 0 ≤ facQ Ki Gi a p ∧
      ContinuousAt (facP Ki Gi a) p ∧ ContinuousAt (facQ Ki Gi a) p := by
  obtain ⟨b1, b2, b3, b4⟩ := shape_bounds ha ha1
  have den : 0 < p.1 + 4 / 3 * p.2 := by linarith
  have qG : 0 ≤ Gi / p.2 := by positivity
  have qK : 0 ≤ Ki / p.1 := by positivity
  have rA : -1 ≤ Gi / p.2 - 1 := by linarith
  have rB : -1 ≤ Gi / p.2 - 1 + 3 * ((Ki / p.1 - Gi / p.2) / 3) := by linarith
  have rR : 0 ≤ p.2 / (p.1 + 4 / 3 * p.2) := by positivity
  have rR' : p.2 / (p.1 + 4 / 3 * p.2) ≤ 3 / 4 := by
    rw [div_le_iff₀ den]
    linarith
  have p2 := bF2_pos_edge rA rB rR rR' b1 b2 b3 b4 (fun e => by
    have e2 : p.2 = 0 := by
      rcases div_eq_zero_iff.mp e with h | h
      · exact h
      · exact absurd h den.ne'
    have i := (hz2 e2).2
    have : 0 < p.1 := by linarith
    have : 0 < Ki / p.1 := by positivity
    linarith) (fun e => by
    rw [div_eq_iff den.ne'] at e
    have e1 : p.1 = 0 := by linarith
    have i := (hz1 e1).2
    have : 0 < p.2 := by linarith
    have : 0 < Gi / p.2 := by positivity
    linarith)
  have p1 := bF1_pos_edge rA rR rR' b2 b3 b4
  have p3 := bF3_pos_edge rA rR rR' b2 b3 b4
  have p4 := bF4_pos_edge rA rR rR' b1 b2 b3 b4
  have cG : ContDiffAt ℝ 1 (fun x : ℝ × ℝ => Gi / x.2) p := by
    by_cases h : p.2 = 0
    · rw [(hz2 h).1]
      simp only [zero_div]
      exact contDiffAt_const
    · exact contDiffAt_const.div contDiffAt_snd h
  have cK : ContDiffAt ℝ 1 (fun x : ℝ × ℝ => Ki / x.1) p := by
    by_cases h : p.1 = 0
    · rw [(hz1 h).1]
      simp only [zero_div]
      exact contDiffAt_const
    · exact contDiffAt_const.div contDiffAt_fst h
  have cA : ContDiffAt ℝ 1 (fun x : ℝ × ℝ => Gi / x.2 - 1) p := cG.sub contDiffAt_const
  have cB : ContDiffAt ℝ 1 (fun x : ℝ × ℝ => (Ki / x.1 - Gi / x.2) / 3) p := (cK.sub cG).div_const _
  have cR : ContDiffAt ℝ 1 (fun x : ℝ × ℝ => x.2 / (x.1 + 4 / 3 * x.2)) p :=
    contDiffAt_snd.div (by fun_prop) den.ne'
  obtain ⟨cP, cQ⟩ := bPQ_contDiffAt (t := shapeT a) (f := shapeF a) cA cB cR p2.ne' p3.ne' p4.ne'
  refine ⟨?_, (div_pos p1 p2).le, ?_, cP.continuousAt, cQ.continuousAt⟩
  · exact ((contDiffAt_const.sub contDiffAt_fst).mul cP).prodMk
      ((contDiffAt_const.sub contDiffAt_snd).mul cQ)
  · unfold facQ
    rw [bQ_eq p2.ne' p4.ne']
    have : 0 ≤ 3 + (3 - 4 * (p.2 / (p.1 + 4 / 3 * p.2)))
        * (Gi / p.2 - 1 + 3 * ((Ki / p.1 - Gi / p.2) / 3)) := by nlinarith
    positivity

/-! ## Voids -/

theorem bF2_void (R t f : ℝ) : bF2 (-1) 0 R t f
    = R * ((3 / 2 - 2 * R) * (t - 2 * t ^ 2) + t / 2 - f * (2 - 2 * R)) := by
  unfold bF2
  ring

/-- In a medium with little shear stiffness voids weaken the bulk modulus faster. -/
theorem void_soft {t f : ℝ} (ht : 0 < t) (ht' : t ≤ 2 / 3) (hf : f < 0) (hf' : 0 < t + f) :
    ∃ ε > 0, ∀ R, 0 < R → R < ε → R < 3 / 4 → bQ (-1) 0 R t f ≤ bP (-1) 0 R t f := by
  have c : ContinuousAt (fun R : ℝ => (5 * bF1 (-1) R t f - 4 * R / 3)
      / ((3 / 2 - 2 * R) * (t - 2 * t ^ 2) + t / 2 - f * (2 - 2 * R))
      - 2 * R / bF3 (-1) R t f - 2 * R / bF4 (-1) R t f) 0 := by
    have g0 : (3 / 2 - 2 * (0 : ℝ)) * (t - 2 * t ^ 2) + t / 2 - f * (2 - 2 * 0) ≠ 0 := by
      have : (3 / 2 - 2 * (0 : ℝ)) * (t - 2 * t ^ 2) + t / 2 - f * (2 - 2 * 0)
        = t * (2 - 3 * t) - 2 * f := by ring
      rw [this]
      have : 0 ≤ t * (2 - 3 * t) := mul_nonneg ht.le (by linarith)
      exact (by linarith : 0 < t * (2 - 3 * t) - 2 * f).ne'
    have g3 := (bF3_pos_edge (A := -1) (R := 0) (t := t) (f := f) le_rfl le_rfl (by norm_num) ht' hf
      hf').ne'
    have g4 := (bF4_pos_edge (A := -1) (R := 0) (t := t) (f := f) le_rfl le_rfl (by norm_num) ht ht'
      hf hf').ne'
    have k1 : ContinuousAt (fun R : ℝ => 5 * bF1 (-1) R t f - 4 * R / 3) 0 := by
      unfold bF1
      fun_prop
    have k2 : ContinuousAt (fun R : ℝ => (3 / 2 - 2 * R) * (t - 2 * t ^ 2) + t / 2
        - f * (2 - 2 * R)) 0 := by fun_prop
    have k3 : ContinuousAt (fun R : ℝ => bF3 (-1) R t f) 0 := by
      unfold bF3
      fun_prop
    have k4 : ContinuousAt (fun R : ℝ => bF4 (-1) R t f) 0 := by
      unfold bF4
      fun_prop
    have k5 : ContinuousAt (fun R : ℝ => 2 * R) 0 := by fun_prop
    exact ((k1.div k2 g0).sub (k5.div k3 g3)).sub (k5.div k4 g4)
  have pos : 0 < (5 * bF1 (-1) 0 t f - 4 * 0 / 3)
      / ((3 / 2 - 2 * (0 : ℝ)) * (t - 2 * t ^ 2) + t / 2 - f * (2 - 2 * 0))
      - 2 * 0 / bF3 (-1) 0 t f - 2 * 0 / bF4 (-1) 0 t f := by
    have p1 := bF1_pos_edge (A := -1) (R := 0) (t := t) (f := f) le_rfl le_rfl (by norm_num) ht' hf
      hf'
    have : (3 / 2 - 2 * (0 : ℝ)) * (t - 2 * t ^ 2) + t / 2 - f * (2 - 2 * 0)
        = t * (2 - 3 * t) - 2 * f := by ring
    rw [this]
    have : 0 ≤ t * (2 - 3 * t) := mul_nonneg ht.le (by linarith)
    have : 0 < t * (2 - 3 * t) - 2 * f := by linarith
    simp only [mul_zero, zero_div, sub_zero]
    positivity
  obtain ⟨ε, he, hb⟩ := Metric.eventually_nhds_iff.mp (c.eventually (lt_mem_nhds pos))
  refine ⟨ε, he, fun R h0 hR h34 => ?_⟩
  have := @hb R (by rw [Real.dist_eq, sub_zero, abs_of_pos h0]; exact hR)
  have p2 := bF2_pos (A := -1) (B := 0) le_rfl (by norm_num) h0 h34 ht ht' hf hf'
  have p3 := bF3_pos (A := -1) (R := R) (t := t) (f := f) le_rfl h0 h34 ht' hf hf'
  have p4 := bF4_pos (A := -1) (R := R) (t := t) (f := f) le_rfl h0 h34 ht ht' hf hf'
  rw [bQ_eq p2.ne' p4.ne']
  unfold bP
  rw [bF2_void] at p2 ⊢
  have pg := pos_of_mul_pos_right p2 h0.le
  generalize (3 / 2 - 2 * R) * (t - 2 * t ^ 2) + t / 2 - f * (2 - 2 * R) = g at *
  generalize bF1 (-1) R t f = F1 at *
  generalize bF3 (-1) R t f = F3 at *
  generalize bF4 (-1) R t f = F4 at *
  have e : F1 / (R * g) - (2 / F3 + 2 / F4 + (3 + (3 - 4 * R) * (-1 + 3 * 0)) / 3 / (R * g)) / 5
      = ((5 * F1 - 4 * R / 3) / g - 2 * R / F3 - 2 * R / F4) / (5 * R) := by field
  have : 0 < ((5 * F1 - 4 * R / 3) / g - 2 * R / F3 - 2 * R / F4) / (5 * R) := by positivity
  linarith

/-- In a medium with little bulk stiffness voids weaken the shear modulus faster. -/
theorem void_stiff {t f : ℝ} (ht : 0 < t) (ht' : t ≤ 2 / 3) (hf : f < 0) (hf' : 0 < t + f) :
    ∃ ε > 0, ∀ R, 0 < R → 3 / 4 - ε < R → R < 3 / 4 → bP (-1) 0 R t f ≤ bQ (-1) 0 R t f := by
  have e1 : bF1 (-1) (3 / 4) t f = 3 / 8 * (t - f) := by
    unfold bF1
    ring
  have e2 : bF2 (-1) 0 (3 / 4) t f = 3 / 8 * (t - f) := by
    unfold bF2
    ring
  have e3 : bF3 (-1) (3 / 4) t f = (f + 3 * t) / 4 := by
    unfold bF3
    ring
  have g2 : bF2 (-1) 0 (3 / 4) t f ≠ 0 := by
    rw [e2]
    exact (by linarith : 0 < 3 / 8 * (t - f)).ne'
  have g3 := bF3_pos_edge (A := -1) (R := 3 / 4) (t := t) (f := f) le_rfl (by norm_num) le_rfl ht' hf
      hf'
  have g4 := bF4_pos_edge (A := -1) (R := 3 / 4) (t := t) (f := f) le_rfl (by norm_num) le_rfl ht ht'
      hf hf'
  obtain ⟨cP, cQ⟩ := bPQ_contDiffAt (A := fun _ : ℝ => -1) (B := fun _ => 0) (R := fun R => R)
    (p := 3 / 4) (t := t) (f := f) contDiffAt_const contDiffAt_const contDiffAt_id g2 g3.ne' g4.ne'
  have pos : 0 < bQ (-1) 0 (3 / 4) t f - bP (-1) 0 (3 / 4) t f := by
    have l4 : bF4 (-1) (3 / 4) t f < 1 := by
      unfold bF4
      linarith
    rw [bQ_eq g2 g4.ne']
    unfold bP
    rw [e1, div_eq_one_iff_eq g2 |>.mpr e2.symm]
    have a3 : 4 < 2 / bF3 (-1) (3 / 4) t f := by
      rw [lt_div_iff₀ g3, e3]
      linarith
    have a4 : 2 < 2 / bF4 (-1) (3 / 4) t f := by
      rw [lt_div_iff₀ g4]
      linarith
    have a2 : 0 ≤ (3 + (3 - 4 * (3 / 4 : ℝ)) * (-1 + 3 * 0)) / 3 / bF2 (-1) 0 (3 / 4) t f := by
      rw [e2]
      exact div_nonneg (by norm_num) (by linarith)
    linarith
  obtain ⟨ε, he, hb⟩ := Metric.eventually_nhds_iff.mp
    ((cQ.continuousAt.sub cP.continuousAt).eventually (lt_mem_nhds pos))
  refine ⟨ε, he, fun R h0 hR h34 => ?_⟩
  have : 0 < bQ (-1) 0 R t f - bP (-1) 0 R t f :=
    @hb R (by rw [Real.dist_eq, abs_sub_lt_iff]; constructor <;> linarith)
  linarith

end RockPhy.Spec
