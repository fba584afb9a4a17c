import Verif.Spec.SelfConsistent
import Verif.Props.Porous
import Mathlib.Topology.Order.MonotoneConvergence
import Mathlib.Topology.Algebra.Order.LiminfLimsup
import Mathlib.Analysis.SpecificLimits.Basic

/-!
# The map that `EM.SC_flex` iterates

The iteration is `x ↦ m + f (i - m) (x + z) / (i + z)` in both moduli.  When the inclusion is the
stiffer phase it is monotone, and scaling the argument by `t < 1` scales the result by more than `t`.
-/

namespace RockPhy.Props

open EM Fl Spec Filter Topology

/-- One modulus of the iteration: matrix `m`, inclusion `i`, current value `x`, comparison `z`. -/
noncomputable def scMap (f m i x z : ℝ) : ℝ := m + f * (i - m) * ((x + z) / (i + z))

section
variable {f m i x z X Z c d : ℝ}

theorem scMap_ge (hf : 0 ≤ f) (hmi : m ≤ i) (hi : 0 < i) (hx : 0 ≤ x) (hz : 0 ≤ z) :
    m ≤ scMap f m i x z := by
  have : 0 ≤ f * (i - m) * ((x + z) / (i + z)) :=
    mul_nonneg (mul_nonneg hf (by linarith)) (by positivity)
  unfold scMap; linarith

theorem scMap_lt (hf1 : f ≤ 1) (hmi : m < i) (hi : 0 < i) (hx : 0 ≤ x) (hxi : x < i)
    (hz : 0 ≤ z) : scMap f m i x z < i := by
  have h1 : (x + z) / (i + z) < 1 := by rw [div_lt_one (by linarith)]; linarith
  have h0 : 0 ≤ (x + z) / (i + z) := by positivity
  have : f * ((x + z) / (i + z)) < 1 := by nlinarith
  unfold scMap; nlinarith

theorem scMap_mono {x' z' : ℝ} (hf : 0 ≤ f) (hmi : m ≤ i) (hi : 0 < i) (hx : x ≤ x') (hxi : x' ≤ i)
    (hz : 0 ≤ z) (hzz : z ≤ z') : scMap f m i x z ≤ scMap f m i x' z' := by
  unfold scMap
  have : (x + z) / (i + z) ≤ (x' + z') / (i + z') := by
    rw [div_le_div_iff₀ (by linarith) (by linarith)]
    nlinarith [mul_nonneg (sub_nonneg.mpr hzz) (sub_nonneg.mpr hxi),
      mul_nonneg (sub_nonneg.mpr hx) (by linarith : 0 ≤ i + z)]
  have h2 : 0 ≤ f * (i - m) := mul_nonneg hf (by linarith)
  nlinarith [mul_le_mul_of_nonneg_left this h2]

/-- The distance from a fixed point shrinks, seen from below. -/
theorem scMap_below (hf : 0 ≤ f) (hmi : m ≤ i) (hm : 0 < m) (hX : 0 < X) (hZ : 0 < Z)
    (hfix : scMap f m i X Z = X) (hc : c * X ≤ m) (hc1 : c ≤ 1) (hd : 0 ≤ d)
    (hx : 0 ≤ x) (hxi : x ≤ i) (hz : 0 ≤ z) (h1 : (1 - d) * X ≤ x) (h2 : (1 - d) * Z ≤ z) :
    (1 - d * (1 - c)) * X ≤ scMap f m i x z := by
  have hi : 0 < i := by linarith
  have k : 0 ≤ f * (i - m) := mul_nonneg hf (by linarith)
  rcases le_or_gt d 1 with hd1 | hd1
  · have t0 : 0 ≤ 1 - d := by linarith
    have e1 := scMap_mono (f := f) (m := m) hf hmi hi h1 hxi
      (mul_nonneg t0 hZ.le) h2
    refine le_trans ?_ e1
    have e2 : (1 - d) * ((X + Z) / (i + Z)) ≤ ((1 - d) * X + (1 - d) * Z) / (i + (1 - d) * Z) := by
      rw [← mul_add, mul_div_assoc]
      gcongr
      nlinarith
    have e3 := mul_le_mul_of_nonneg_left e2 k
    have : X = m + f * (i - m) * ((X + Z) / (i + Z)) := hfix.symm
    unfold scMap
    have e4 : (1 - d) * X = (1 - d) * m + f * (i - m) * ((1 - d) * ((X + Z) / (i + Z))) := by
      conv_lhs => rw [this]
      ring
    nlinarith
  · have e := scMap_ge hf hmi hi hx hz
    have : 1 - d * (1 - c) ≤ c := by nlinarith
    nlinarith [mul_le_mul_of_nonneg_right this hX.le]

/-- The distance from a fixed point shrinks, seen from above. -/
theorem scMap_above (hf : 0 ≤ f) (hmi : m ≤ i) (hm : 0 < m) (hX : 0 < X) (hZ : 0 < Z)
    (hfix : scMap f m i X Z = X) (hc : c * X ≤ m) (hd : 0 ≤ d)
    (hxi : x ≤ i) (hz : 0 ≤ z) (h1 : x ≤ (1 + d) * X) (h2 : z ≤ (1 + d) * Z) :
    scMap f m i x z ≤ (1 + d * (1 - c)) * X := by
  have hi : 0 < i := by linarith
  have k : 0 ≤ f * (i - m) := mul_nonneg hf (by linarith)
  have e1 := scMap_mono (f := f) (m := m) hf hmi hi le_rfl hxi hz h2
  have e2 : (x + (1 + d) * Z) / (i + (1 + d) * Z) ≤ (1 + d) * ((X + Z) / (i + Z)) := by
    rw [← mul_div_assoc, mul_add]
    gcongr
    nlinarith
  have e3 := mul_le_mul_of_nonneg_left e2 k
  have : X = m + f * (i - m) * ((X + Z) / (i + Z)) := hfix.symm
  have e4 : (1 + d) * X = (1 + d) * m + f * (i - m) * ((1 + d) * ((X + Z) / (i + Z))) := by
    conv_lhs => rw [this]
    ring
  refine e1.trans ?_
  unfold scMap
  nlinarith

/-- A fixed point is the average of the phases with comparison `z`. -/
theorem scMap_fixed (hm : 0 < m) (hi : 0 ≤ i) (hX : 0 < X) (hZ : 0 < Z) :
    scMap f m i X Z = X ↔
      f * (i - X) * ((X + Z) / (i + Z)) + (1 - f) * (m - X) * ((X + Z) / (m + Z)) = 0 := by
  have e : f * (i - X) * ((X + Z) / (i + Z)) + (1 - f) * (m - X) * ((X + Z) / (m + Z))
      = (scMap f m i X Z - X) * ((X + Z) / (m + Z)) := by
    unfold scMap; field
  have p : (X + Z) / (m + Z) ≠ 0 := by positivity
  rw [e, mul_eq_zero, sub_eq_zero]
  simp [p]

theorem scMap_hsMean (hf0 : 0 ≤ f) (hf1 : f ≤ 1) (hm : 0 < m) (hi : 0 ≤ i)
    (hZ : 0 < Z) : scMap f m i X Z = X ↔ X = hsMean f i m Z := by
  have hd := hsMean_den hf0 hf1 (a := i) (b := m) (z := Z) (by linarith) (by linarith)
  rw [hsMean_closed hf0 hf1 (by linarith) (by linarith), eq_div_iff hd.ne', ← sub_eq_zero,
    ← sub_eq_zero (b := i * m + _)]
  have e : X * (Z + (f * m + (1 - f) * i)) - (i * m + Z * (f * i + (1 - f) * m))
      = -(scMap f m i X Z - X) * (i + Z) := by unfold scMap; field
  rw [e]
  have : i + Z ≠ 0 := by positivity
  rw [mul_eq_zero, neg_eq_zero]
  simp [this]
end

theorem hsShear_scale (t K G : ℝ) (ht : t ≠ 0) : hsShear (t * K) (t * G) = t * hsShear K G := by
  unfold hsShear
  have : (9 * (t * K) + 8 * (t * G)) / (t * K + 2 * (t * G)) = (9 * K + 8 * G) / (K + 2 * G) := by
    rw [show 9 * (t * K) + 8 * (t * G) = t * (9 * K + 8 * G) by ring,
      show t * K + 2 * (t * G) = t * (K + 2 * G) by ring, mul_div_mul_left _ _ ht]
  rw [this]; ring

/-- One iteration on both moduli. -/
noncomputable def scFlex (f Km Ki Gm Gi : ℝ) (s : ℝ × ℝ) : ℝ × ℝ :=
  (scMap f Km Ki s.1 (hsBulk s.2), scMap f Gm Gi s.2 (hsShear s.1 s.2))

theorem scFlex_eval {f Km Ki Gm Gi K G : ℝ} (hKm : 0 < Km) (hGm : 0 < Gm) (hK : 0 < K)
    (hG : 0 < G) (hKi : 0 ≤ Ki) (hGi : 0 ≤ Gi) (h1 : K ≠ Ki) (h2 : G ≠ Gi) :
    SC_flex_step (fin f) (fin Km) (fin Ki) (fin Gm) (fin Gi) (fin K, fin G)
      = (fin (scFlex f Km Ki Gm Gi (K, G)).1, fin (scFlex f Km Ki Gm Gi (K, G)).2) := by
  rw [SC_flex_step_eval hKm hGm hK hG hKi hGi h1 h2]
  refine Prod.ext ?_ ?_ <;> rw [fin_inj]
  · unfold scFlex scMap hsBulk
    have p1 : 0 < 4 * K * G + 3 * K * Ki := by positivity
    have e : (K + 4 * G / 3) / (Ki + 4 * G / 3) = K * (3 * K + 4 * G) / (4 * K * G + 3 * K * Ki) := by
      rw [div_eq_div_iff (by positivity) (by positivity)]; ring
    simp only [e]
    field
  · unfold scFlex scMap hsShear
    have p2 : 0 < G * (9 * K + 8 * G) + Gi * (6 * (K + 2 * G)) := by positivity
    have e : (G + G / 6 * ((9 * K + 8 * G) / (K + 2 * G))) / (Gi + G / 6 * ((9 * K + 8 * G) / (K + 2 * G)))
        = G * (5 * (3 * K + 4 * G)) / (G * (9 * K + 8 * G) + Gi * (6 * (K + 2 * G))) := by
      have : Gi + G / 6 * ((9 * K + 8 * G) / (K + 2 * G))
          = (G * (9 * K + 8 * G) + Gi * (6 * (K + 2 * G))) / (6 * (K + 2 * G)) := by field
      rw [this]
      have : G + G / 6 * ((9 * K + 8 * G) / (K + 2 * G))
          = G * (5 * (3 * K + 4 * G)) / (6 * (K + 2 * G)) := by field
      rw [this, div_div_div_cancel_right₀ (by positivity)]
    simp only [e]
    field


theorem scFlex_fixed {f Km Ki Gm Gi K G : ℝ} (hKm : 0 < Km) (hGm : 0 < Gm) (hK : 0 < K)
    (hG : 0 < G) (hKi : 0 ≤ Ki) (hGi : 0 ≤ Gi) :
    scFlex f Km Ki Gm Gi (K, G) = (K, G) ↔ SelfConsistent2 f Ki Gi Km Gm K G := by
  have hz := hsBulk_pos hG
  have hs := hsShear_pos hK hG
  unfold scFlex SelfConsistent2
  rw [Prod.mk.injEq]
  refine and_congr ?_ ?_
  · rw [scMap_fixed hKm hKi hK hz]
    unfold sphereP hsBulk
    rw [show 4 / 3 * G = 4 * G / 3 by ring]
  · rw [scMap_fixed hGm hGi hG hs]
    rfl

theorem selfConsistent2_hsMean {f Km Ki Gm Gi K G : ℝ} (hf0 : 0 ≤ f) (hf1 : f ≤ 1) (hKm : 0 < Km)
    (hGm : 0 < Gm) (hK : 0 < K) (hG : 0 < G) (hKi : 0 ≤ Ki) (hGi : 0 ≤ Gi) :
    SelfConsistent2 f Ki Gi Km Gm K G ↔
      K = hsMean f Ki Km (hsBulk G) ∧ G = hsMean f Gi Gm (hsShear K G) := by
  have hz := hsBulk_pos hG
  have hs := hsShear_pos hK hG
  rw [← scFlex_fixed hKm hGm hK hG hKi hGi]
  unfold scFlex
  rw [Prod.mk.injEq]
  exact and_congr (scMap_hsMean hf0 hf1 hKm hKi hz) (scMap_hsMean hf0 hf1 hGm hGi hs)

/-- Scaling the comparison down scales the average down by less. -/
theorem hsMean_scale {f a b z t : ℝ} (hf0 : 0 ≤ f) (hf1 : f ≤ 1) (ha : 0 ≤ a) (hb : 0 ≤ b)
    (hB : 0 < f * a + (1 - f) * b) (hz : 0 < z) (ht : 0 < t) (ht1 : t < 1) :
    t * hsMean f a b z < hsMean f a b (t * z) := by
  have htz : 0 < t * z := mul_pos ht hz
  have d1 := hsMean_den hf0 hf1 (a := a) (b := b) (z := z) (by linarith) (by linarith)
  have d2 := hsMean_den hf0 hf1 (a := a) (b := b) (z := t * z) (by linarith) (by linarith)
  have hab : 0 ≤ a * b := mul_nonneg ha hb
  have hA : 0 ≤ f * b + (1 - f) * a :=
    add_nonneg (mul_nonneg hf0 hb) (mul_nonneg (sub_nonneg.mpr hf1) ha)
  rw [hsMean_closed hf0 hf1 (by linarith) (by linarith),
    hsMean_closed hf0 hf1 (by linarith) (by linarith), ← mul_div_assoc, div_lt_div_iff₀ d1 d2]
  have t1 : 0 < 1 - t := by linarith
  have e : (a * b + t * z * (f * a + (1 - f) * b)) * (z + (f * b + (1 - f) * a))
      - t * (a * b + z * (f * a + (1 - f) * b)) * (t * z + (f * b + (1 - f) * a))
      = (1 - t) * (a * b * (f * b + (1 - f) * a) + (1 + t) * z * (a * b)
        + t * z * z * (f * a + (1 - f) * b)) := by ring
  have : 0 < (1 - t) * (a * b * (f * b + (1 - f) * a) + (1 + t) * z * (a * b)
        + t * z * z * (f * a + (1 - f) * b)) := by positivity
  linarith

theorem selfConsistent2_le {f Km Ki Gm Gi K G K' G' : ℝ} (hf0 : 0 ≤ f) (hf1 : f ≤ 1)
    (hKm : 0 < Km) (hGm : 0 < Gm) (hKi : 0 ≤ Ki) (hGi : 0 ≤ Gi)
    (hBK : 0 < f * Ki + (1 - f) * Km) (hBG : 0 < f * Gi + (1 - f) * Gm)
    (hK : 0 < K) (hG : 0 < G) (hK' : 0 < K') (hG' : 0 < G')
    (h1 : K = hsMean f Ki Km (hsBulk G)) (h2 : G = hsMean f Gi Gm (hsShear K G))
    (h1' : K' = hsMean f Ki Km (hsBulk G')) (h2' : G' = hsMean f Gi Gm (hsShear K' G')) :
    K ≤ K' ∧ G ≤ G' := by
  set t := min (K' / K) (G' / G) with ht
  have tpos : 0 < t := lt_min (by positivity) (by positivity)
  have tK : t * K ≤ K' := by rw [← le_div_iff₀ hK]; exact min_le_left _ _
  have tG : t * G ≤ G' := by rw [← le_div_iff₀ hG]; exact min_le_right _ _
  have hz := hsBulk_pos hG
  have hs := hsShear_pos hK hG
  rcases lt_or_ge t 1 with h | h
  · exfalso
    have a1 : t * K < K' := by
      conv_lhs => rw [h1]
      refine (hsMean_scale hf0 hf1 hKi hKm.le hBK hz tpos h).trans_le ?_
      rw [h1']
      have : t * hsBulk G ≤ hsBulk G' := by unfold hsBulk; linarith
      have : 0 < t * hsBulk G := mul_pos tpos hz
      exact hsMean_mono hf0 hf1 (by linarith) (by linarith) (by linarith)
    have a2 : t * G < G' := by
      conv_lhs => rw [h2]
      refine (hsMean_scale hf0 hf1 hGi hGm.le hBG hs tpos h).trans_le ?_
      rw [h2']
      have q : t * hsShear K G ≤ hsShear K' G' := by
        rw [← hsShear_scale _ _ _ tpos.ne']
        exact hsShear_mono (mul_pos tpos hK) (mul_pos tpos hG) tK tG
      have : 0 < t * hsShear K G := mul_pos tpos hs
      exact hsMean_mono hf0 hf1 (by linarith) (by linarith) q
    rcases min_choice (K' / K) (G' / G) with e | e
    · rw [← ht] at e; rw [e, div_mul_cancel₀ _ hK.ne'] at a1; exact lt_irrefl _ a1
    · rw [← ht] at e; rw [e, div_mul_cancel₀ _ hG.ne'] at a2; exact lt_irrefl _ a2
  · constructor <;> nlinarith


/-- The average at the current moduli. -/
noncomputable def hsNext (f Km Ki Gm Gi : ℝ) (s : ℝ × ℝ) : ℝ × ℝ :=
  (hsMean f Ki Km (hsBulk s.2), hsMean f Gi Gm (hsShear s.1 s.2))

theorem hsMean_continuousAt {f a b z : ℝ} (hf0 : 0 ≤ f) (hf1 : f ≤ 1) (ha : 0 < a) (hb : 0 < b)
    (hz : 0 < z) : ContinuousAt (hsMean f a b) z := by
  have d : f / (a + z) + (1 - f) / (b + z) ≠ 0 := by
    have d1 := hsMean_den hf0 hf1 (a := a) (b := b) (z := z) (by linarith) (by linarith)
    rw [show f / (a + z) + (1 - f) / (b + z)
      = (z + (f * b + (1 - f) * a)) / ((a + z) * (b + z)) by field]
    positivity
  unfold hsMean
  refine ContinuousAt.sub (ContinuousAt.inv₀ (ContinuousAt.add ?_ ?_) d) continuousAt_id
  · exact ContinuousAt.div continuousAt_const (continuousAt_const.add continuousAt_id) (by positivity)
  · exact ContinuousAt.div continuousAt_const (continuousAt_const.add continuousAt_id) (by positivity)

theorem hsNext_continuousAt {f Km Ki Gm Gi : ℝ} {s : ℝ × ℝ} (hf0 : 0 ≤ f) (hf1 : f ≤ 1)
    (hKm : 0 < Km) (hGm : 0 < Gm) (hKi : 0 < Ki) (hGi : 0 < Gi) (h1 : 0 < s.1) (h2 : 0 < s.2) :
    ContinuousAt (hsNext f Km Ki Gm Gi) s := by
  have hz := hsBulk_pos h2
  have hs := hsShear_pos h1 h2
  unfold hsNext
  refine ContinuousAt.prodMk ?_ ?_
  · refine ContinuousAt.comp (f := fun s : ℝ × ℝ => hsBulk s.2)
      (hsMean_continuousAt hf0 hf1 hKi hKm hz) ?_
    unfold hsBulk; fun_prop
  · refine ContinuousAt.comp (f := fun s : ℝ × ℝ => hsShear s.1 s.2)
      (hsMean_continuousAt hf0 hf1 hGi hGm hs) ?_
    unfold hsShear
    have : s.1 + 2 * s.2 ≠ 0 := by positivity
    refine ContinuousAt.mul (by fun_prop) (ContinuousAt.div (by fun_prop) (by fun_prop) this)

theorem mean_pos {f a b : ℝ} (hf0 : 0 ≤ f) (hf1 : f ≤ 1) (ha : 0 < a) (hb : 0 < b) :
    0 < f * a + (1 - f) * b := by
  rcases eq_or_lt_of_le hf0 with h | h
  · rw [← h]; linarith
  · nlinarith [mul_pos h ha, mul_nonneg (sub_nonneg.mpr hf1) hb.le]

/-- Self-consistent moduli exist, between the moduli of the phases. -/
theorem hsNext_fixed {f Km Ki Gm Gi : ℝ} (hf0 : 0 ≤ f) (hf1 : f ≤ 1)
    (hKm : 0 < Km) (hGm : 0 < Gm) (hKi : 0 < Ki) (hGi : 0 < Gi) :
    ∃ K G, min Ki Km ≤ K ∧ min Gi Gm ≤ G ∧ hsNext f Km Ki Gm Gi (K, G) = (K, G) := by
  set T := hsNext f Km Ki Gm Gi with hT
  set s : ℕ → ℝ × ℝ := fun n => T^[n] (min Ki Km, min Gi Gm) with hs
  have lk : 0 < min Ki Km := lt_min hKi hKm
  have lg : 0 < min Gi Gm := lt_min hGi hGm
  have step : ∀ n, s (n + 1) = T (s n) := fun n => Function.iterate_succ_apply' _ _ _
  have low : ∀ n, min Ki Km ≤ (s n).1 ∧ min Gi Gm ≤ (s n).2 := by
    intro n
    induction n with
    | zero => exact ⟨le_rfl, le_rfl⟩
    | succ n ih =>
      rw [step]
      have hz := hsBulk_pos (lg.trans_le ih.2)
      have hs := hsShear_pos (lk.trans_le ih.1) (lg.trans_le ih.2)
      exact ⟨le_hsMean hf0 hf1 (by linarith) (by linarith) (min_le_left _ _) (min_le_right _ _),
        le_hsMean hf0 hf1 (by linarith) (by linarith) (min_le_left _ _) (min_le_right _ _)⟩
  have high : ∀ n, (s n).1 ≤ max Ki Km ∧ (s n).2 ≤ max Gi Gm := by
    intro n
    induction n with
    | zero => exact ⟨min_le_max, min_le_max⟩
    | succ n ih =>
      rw [step]
      have hz := hsBulk_pos (lg.trans_le (low n).2)
      have hs := hsShear_pos (lk.trans_le (low n).1) (lg.trans_le (low n).2)
      exact ⟨hsMean_le hf0 hf1 (by linarith) (by linarith) (le_max_left _ _) (le_max_right _ _),
        hsMean_le hf0 hf1 (by linarith) (by linarith) (le_max_left _ _) (le_max_right _ _)⟩
  have up : ∀ n, (s n).1 ≤ (s (n + 1)).1 ∧ (s n).2 ≤ (s (n + 1)).2 := by
    intro n
    induction n with
    | zero => exact low 1
    | succ n ih =>
      rw [step (n + 1), step n]
      rw [step n] at ih
      have l1 := lk.trans_le (low n).1
      have l2 := lg.trans_le (low n).2
      have hz := hsBulk_pos l2
      have hs := hsShear_pos l1 l2
      exact ⟨hsMean_mono hf0 hf1 (by linarith) (by linarith)
          (by unfold hsBulk; linarith [ih.2]),
        hsMean_mono hf0 hf1 (by linarith) (by linarith) (hsShear_mono l1 l2 ih.1 ih.2)⟩
  have c1 := tendsto_atTop_ciSup (monotone_nat_of_le_succ fun n => (up n).1)
    ⟨max Ki Km, by rintro _ ⟨n, rfl⟩; exact (high n).1⟩
  have c2 := tendsto_atTop_ciSup (monotone_nat_of_le_succ fun n => (up n).2)
    ⟨max Gi Gm, by rintro _ ⟨n, rfl⟩; exact (high n).2⟩
  set K := ⨆ n, (s n).1
  set G := ⨆ n, (s n).2
  have hK : min Ki Km ≤ K := ge_of_tendsto' c1 fun n => (low n).1
  have hG : min Gi Gm ≤ G := ge_of_tendsto' c2 fun n => (low n).2
  refine ⟨K, G, hK, hG, ?_⟩
  have c : Tendsto s atTop (𝓝 (K, G)) := c1.prodMk_nhds c2
  have c' := (hsNext_continuousAt (s := (K, G)) hf0 hf1 hKm hGm hKi hGi (lk.trans_le hK)
    (lg.trans_le hG)).tendsto.comp c
  have c'' : Tendsto (fun n => s (n + 1)) atTop (𝓝 (K, G)) := c.comp (tendsto_add_atTop_nat 1)
  refine tendsto_nhds_unique (c'.congr fun n => ?_) c''
  exact (step n).symm


/-! ## Empty inclusions -/

/-- A finite result of a step on empty inclusions comes from finite moduli, and by these formulas. -/
theorem SC_flex_step_void {f Km Gm k' g' : ℝ} {s : Fl × Fl} (hKm : Km ≠ 0) (hGm : Gm ≠ 0)
    (h : SC_flex_step (fin f) (fin Km) (fin 0) (fin Gm) (fin 0) s = (fin k', fin g')) :
    ∃ k g, s = (fin k, fin g) ∧ k ≠ 0 ∧ g ≠ 0 ∧ 3 * k + 4 * g ≠ 0 ∧ 9 * k + 8 * g ≠ 0 ∧
      k' = (1 - f * ((3 * k + 4 * g) / (4 * g))) * Km ∧
      g' = (1 - f * (5 * (3 * k + 4 * g) / (9 * k + 8 * g))) * Gm := by
  obtain ⟨a, b⟩ := s
  cases a with
  | bad => simp only [SC_flex_step, fl, Prod.mk.injEq, bad_ne_fin, false_and] at h
  | fin k =>
  cases b with
  | bad => simp only [SC_flex_step, fl, Prod.mk.injEq, bad_ne_fin, and_false] at h
  | fin g =>
  have hk : k ≠ 0 := by
    rintro rfl
    simp only [SC_flex_step, fl, sub_self, mul_zero, fl_div_zero, Prod.mk.injEq, bad_ne_fin,
      false_and] at h
  have hg : g ≠ 0 := by
    rintro rfl
    simp only [SC_flex_step, fl, sub_self, mul_zero, fl_div_zero, Prod.mk.injEq, bad_ne_fin,
      and_false] at h
  have h1 : 3 * k + g ≠ 0 := by
    intro e
    simp only [SC_flex_step, fl, e, fl_div_zero, Prod.mk.injEq, bad_ne_fin, false_and] at h
  have h2 : 3 * k + 4 * g ≠ 0 := by
    intro e
    have : 1 - 0.5 * (3 * k - 2 * g) / (3 * k + g) = 0 := by
      rw [sub_eq_zero, eq_comm, div_eq_one_iff_eq h1]; linarith
    simp only [SC_flex_step, fl, fl_div h1, this, fl_div_zero, Prod.mk.injEq, bad_ne_fin, false_and] at h
  have n1 : 1 - 0.5 * (3 * k - 2 * g) / (3 * k + g) = (3 * k + 4 * g) / (2 * (3 * k + g)) := by
    norm_num; field_simp; ring
  have n0 : 1 - 0.5 * (3 * k - 2 * g) / (3 * k + g) ≠ 0 := by
    rw [n1]; exact div_ne_zero h2 (mul_ne_zero two_ne_zero h1)
  have c : (0.5 : ℝ) = 1 / 2 := by norm_num
  have s1 : (1 : Fl) / 3 * (1 + 0.5 * (3 * fin k - 2 * fin g) / (3 * fin k + fin g))
        / (1 - 0.5 * (3 * fin k - 2 * fin g) / (3 * fin k + fin g))
      = fin (3 * k / (3 * k + 4 * g)) := by
    fl_eval []
    rw [n1, c, fin_inj]
    field_simp
    ring
  have s2 : (2 : Fl) / 15 * (4 - 5 * (0.5 * (3 * fin k - 2 * fin g) / (3 * fin k + fin g)))
        / (1 - 0.5 * (3 * fin k - 2 * fin g) / (3 * fin k + fin g))
      = fin (6 * (k + 2 * g) / (5 * (3 * k + 4 * g))) := by
    fl_eval []
    rw [n1, c, fin_inj]
    field_simp
    ring
  have e1 : k / k - 3 * k / (3 * k + 4 * g) = 4 * g / (3 * k + 4 * g) := by
    rw [div_self hk, eq_div_iff h2, sub_mul, div_mul_cancel₀ _ h2]; ring
  have e2 : g / g - 6 * (k + 2 * g) / (5 * (3 * k + 4 * g))
      = (9 * k + 8 * g) / (5 * (3 * k + 4 * g)) := by
    have : 5 * (3 * k + 4 * g) ≠ 0 := mul_ne_zero (by norm_num) h2
    rw [div_self hg, eq_div_iff this, sub_mul, div_mul_cancel₀ _ this]; ring
  unfold SC_flex_step at h
  dsimp only at h
  rw [s1, s2] at h
  have m1 : Km * k ≠ 0 := mul_ne_zero hKm hk
  have m2 : Gm * g ≠ 0 := mul_ne_zero hGm hg
  have h3 : 9 * k + 8 * g ≠ 0 := by
    intro e
    simp only [fl, sub_zero, fl_div hg, fl_div hk, fl_div m1, fl_div m2, e2, e, zero_div, fl_inv_zero,
      Prod.mk.injEq, bad_ne_fin, and_false] at h
  have k1 : 4 * g / (3 * k + 4 * g) ≠ 0 := div_ne_zero (by simpa using hg) h2
  have k2 : (9 * k + 8 * g) / (5 * (3 * k + 4 * g)) ≠ 0 :=
    div_ne_zero h3 (mul_ne_zero (by norm_num) h2)
  simp only [fl, sub_zero, fl_div hg, fl_div hk, fl_div m1, fl_div m2, e1, e2, fl_inv k1, fl_inv k2,
    Prod.mk.injEq, fin_inj] at h
  refine ⟨k, g, rfl, hk, hg, h2, h3, ?_, ?_⟩
  · rw [← h.1, inv_div]; field_simp
  · rw [← h.2, inv_div]; field_simp

end RockPhy.Props
