import Verif.Spec.Mix
import Verif.Model.EM
import Verif.Lemmas.FlAlg
import Mathlib.Tactic.GCongr

/-! Lemmas about the two-phase averages and the model functions that compute them. -/

namespace RockPhy.Spec

variable {f a b z z' : ℝ}

theorem hsMean_den (hf0 : 0 ≤ f) (hf1 : f ≤ 1) (ha : 0 < a + z) (hb : 0 < b + z) :
    0 < z + (f * b + (1 - f) * a) := by
  have : z + (f * b + (1 - f) * a) = f * (b + z) + (1 - f) * (a + z) := by ring
  rw [this]
  rcases hf0.eq_or_lt with rfl | h
  · simpa using ha
  · have := mul_pos h hb
    have := mul_nonneg (sub_nonneg.mpr hf1) ha.le
    linarith

theorem hsMean_closed (hf0 : 0 ≤ f) (hf1 : f ≤ 1) (ha : 0 < a + z) (hb : 0 < b + z) :
    hsMean f a b z = (a * b + z * (f * a + (1 - f) * b)) / (z + (f * b + (1 - f) * a)) := by
  have hd := hsMean_den hf0 hf1 ha hb
  unfold hsMean
  have e : f / (a + z) + (1 - f) / (b + z)
      = (z + (f * b + (1 - f) * a)) / ((a + z) * (b + z)) := by field
  rw [e, inv_div, eq_div_iff hd.ne', sub_mul, div_mul_cancel₀ _ hd.ne']
  ring

theorem hsMean_mono (hf0 : 0 ≤ f) (hf1 : f ≤ 1) (ha : 0 < a + z) (hb : 0 < b + z) (h : z ≤ z') :
    hsMean f a b z ≤ hsMean f a b z' := by
  rw [hsMean_closed hf0 hf1 ha hb, hsMean_closed hf0 hf1 (by linarith) (by linarith)]
  have h1 := hsMean_den hf0 hf1 ha hb
  have h2 : 0 < z' + (f * b + (1 - f) * a) := by linarith
  rw [div_le_div_iff₀ h1 h2]
  have k : 0 ≤ f * (1 - f) * (a - b) ^ 2 :=
    mul_nonneg (mul_nonneg hf0 (by linarith)) (sq_nonneg _)
  nlinarith [mul_nonneg k (sub_nonneg.mpr h)]

theorem hsMean_strictMono (hf0 : 0 < f) (hf1 : f < 1) (hab : a ≠ b) (ha : 0 < a + z)
    (hb : 0 < b + z) (h : z < z') : hsMean f a b z < hsMean f a b z' := by
  rw [hsMean_closed hf0.le hf1.le ha hb,
    hsMean_closed hf0.le hf1.le (by linarith) (by linarith)]
  have h1 := hsMean_den hf0.le hf1.le ha hb
  have h2 : 0 < z' + (f * b + (1 - f) * a) := by linarith
  rw [div_lt_div_iff₀ h1 h2]
  have k : 0 < f * (1 - f) * (a - b) ^ 2 := by
    have := sub_ne_zero.mpr hab
    have : 0 < 1 - f := by linarith
    positivity
  nlinarith [mul_pos k (sub_pos.mpr h)]

theorem hsMean_le_voigt (hf0 : 0 ≤ f) (hf1 : f ≤ 1) (ha : 0 < a + z) (hb : 0 < b + z) :
    hsMean f a b z ≤ voigt2 f a b := by
  rw [hsMean_closed hf0 hf1 ha hb, div_le_iff₀ (hsMean_den hf0 hf1 ha hb), voigt2]
  have k : 0 ≤ f * (1 - f) * (a - b) ^ 2 :=
    mul_nonneg (mul_nonneg hf0 (by linarith)) (sq_nonneg _)
  nlinarith

theorem hsMean_zero : hsMean f a b 0 = reuss2 f a b := by simp [hsMean, reuss2]

theorem reuss_le_hsMean (hf0 : 0 ≤ f) (hf1 : f ≤ 1) (ha : 0 < a) (hb : 0 < b) (h : 0 ≤ z) :
    reuss2 f a b ≤ hsMean f a b z := by
  rw [← hsMean_zero]
  exact hsMean_mono hf0 hf1 (by linarith) (by linarith) h

theorem hsMean_one : hsMean 1 a b z = a := by
  simp only [hsMean, sub_self, zero_div, add_zero, one_div, inv_inv]
  ring

theorem hsMean_f0 : hsMean 0 a b z = b := by
  simp only [hsMean, sub_zero, zero_div, zero_add, one_div, inv_inv]
  ring

theorem hsMean_swap : hsMean (1 - f) b a z = hsMean f a b z := by
  simp only [hsMean, sub_sub_cancel, add_comm]

theorem hsMean_same : hsMean f a a z = a := by
  unfold hsMean
  rw [← add_div, add_sub_cancel, one_div, inv_inv]
  ring

theorem le_hsMean {lo : ℝ} (hf0 : 0 ≤ f) (hf1 : f ≤ 1) (ha : 0 < a + z) (hb : 0 < b + z)
    (h1 : lo ≤ a) (h2 : lo ≤ b) : lo ≤ hsMean f a b z := by
  rw [hsMean_closed hf0 hf1 ha hb, le_div_iff₀ (hsMean_den hf0 hf1 ha hb)]
  have e : a * b + z * (f * a + (1 - f) * b) - lo * (z + (f * b + (1 - f) * a))
      = f * ((a - lo) * (b + z)) + (1 - f) * ((b - lo) * (a + z)) := by ring
  have := mul_nonneg hf0 (mul_nonneg (sub_nonneg.mpr h1) hb.le)
  have := mul_nonneg (sub_nonneg.mpr hf1) (mul_nonneg (sub_nonneg.mpr h2) ha.le)
  linarith

theorem hsMean_le {hi : ℝ} (hf0 : 0 ≤ f) (hf1 : f ≤ 1) (ha : 0 < a + z) (hb : 0 < b + z)
    (h1 : a ≤ hi) (h2 : b ≤ hi) : hsMean f a b z ≤ hi := by
  refine (hsMean_le_voigt hf0 hf1 ha hb).trans ?_
  unfold voigt2
  nlinarith [mul_nonneg hf0 (sub_nonneg.mpr h1),
    mul_nonneg (sub_nonneg.mpr hf1) (sub_nonneg.mpr h2)]

/-- More of the stiffer phase gives a stiffer average. -/
theorem hsMean_mono_f {f' : ℝ} (hf0 : 0 ≤ f) (hf1 : f' ≤ 1) (h : f ≤ f') (ha : 0 < a + z)
    (hb : 0 < b + z) (hba : b ≤ a) : hsMean f a b z ≤ hsMean f' a b z := by
  rw [hsMean_closed hf0 (h.trans hf1) ha hb, hsMean_closed (hf0.trans h) hf1 ha hb,
    div_le_div_iff₀ (hsMean_den hf0 (h.trans hf1) ha hb) (hsMean_den (hf0.trans h) hf1 ha hb)]
  have := mul_nonneg (mul_nonneg (sub_nonneg.mpr h) (sub_nonneg.mpr hba)) (mul_pos ha hb).le
  nlinarith

/-- The average is non-decreasing in the moduli of its phases. -/
theorem hsMean_mono_ab {a' b' : ℝ} (hf0 : 0 ≤ f) (hf1 : f ≤ 1) (ha : 0 < a + z)
    (hb : 0 < b + z) (haa : a ≤ a') (hbb : b ≤ b') : hsMean f a b z ≤ hsMean f a' b' z := by
  unfold hsMean
  have h1 : 0 ≤ 1 - f := by linarith
  have key : f / (a' + z) + (1 - f) / (b' + z) ≤ f / (a + z) + (1 - f) / (b + z) := by
    gcongr
  have pos : 0 < f / (a' + z) + (1 - f) / (b' + z) := by
    have ha' : 0 < a' + z := by linarith
    have hb' : 0 < b' + z := by linarith
    rcases hf0.eq_or_lt with rfl | h
    · have : 0 < (1 - 0 : ℝ) / (b' + z) := by positivity
      simpa using this
    · positivity
  have := inv_anti₀ pos key
  linarith

theorem hsBulk_pos {G : ℝ} (hG : 0 < G) : 0 < hsBulk G := by unfold hsBulk; positivity
theorem hsShear_pos {K G : ℝ} (hK : 0 < K) (hG : 0 < G) : 0 < hsShear K G := by
  unfold hsShear; positivity

theorem hsShear_mono {K G K' G' : ℝ} (hK : 0 < K) (hG : 0 < G) (hKK : K ≤ K') (hGG : G ≤ G') :
    hsShear K G ≤ hsShear K' G' := by
  have step1 : hsShear K G ≤ hsShear K' G := by
    unfold hsShear
    apply mul_le_mul_of_nonneg_left _ (by positivity)
    rw [div_le_div_iff₀ (by positivity) (by linarith)]
    nlinarith [mul_nonneg hG.le (sub_nonneg.mpr hKK)]
  have hK' : 0 < K' := by linarith
  have hG' : 0 < G' := by linarith
  have step2 : hsShear K' G ≤ hsShear K' G' := by
    unfold hsShear
    rw [div_mul_div_comm, div_mul_div_comm, div_le_div_iff₀ (by positivity) (by positivity)]
    have d := sub_nonneg.mpr hGG
    have := mul_nonneg d (by positivity : 0 ≤ 9 * K' ^ 2 + 8 * K' * (G + G') + 16 * G * G')
    nlinarith
  exact step1.trans step2

end RockPhy.Spec

namespace RockPhy.EM

open Fl Spec

variable {f K1 K2 G1 G2 : ℝ}

theorem HS_upper_eval (hf0 : 0 ≤ f) (hf1 : f ≤ 1) (hK1 : 0 < K1) (hK2 : 0 < K2) (hG1 : 0 < G1)
    (hG2 : 0 < G2) (hK : K1 ≠ K2) (hG : G1 ≠ G2) :
    HS (fin f) (fin K1) (fin K2) (fin G1) (fin G2) "upper"
      = (fin (hsMean f K1 K2 (hsBulk G1)), fin (hsMean f G1 G2 (hsShear K1 G1))) := by
  have hz := hsBulk_pos hG1
  have hs := hsShear_pos hK1 hG1
  have dK : K2 - K1 ≠ 0 := sub_ne_zero.mpr hK.symm
  have dG : G2 - G1 ≠ 0 := sub_ne_zero.mpr hG.symm
  have n1 := hsMean_den (z := hsBulk G1) hf0 hf1 (by linarith : 0 < K1 + hsBulk G1) (by linarith : 0 < K2 + hsBulk G1)
  have n2 := hsMean_den (z := hsShear K1 G1) hf0 hf1 (by linarith : 0 < G1 + hsShear K1 G1)
    (by linarith : 0 < G2 + hsShear K1 G1)
  have p1 : 0 < K1 + 4 * G1 / 3 := by positivity
  have e1 : (K2 - K1)⁻¹ + f * (K1 + 4 * G1 / 3)⁻¹
      = (hsBulk G1 + (f * K2 + (1 - f) * K1)) / ((K2 - K1) * (K1 + 4 * G1 / 3)) := by
    unfold hsBulk; field
  have t : (K1 + 2 * G1) / (5 * G1 * (K1 + 4 * G1 / 3)) = (2 * (G1 + hsShear K1 G1))⁻¹ := by
    unfold hsShear; field
  have e2 : (G2 - G1)⁻¹ + 2 * f * (2 * (G1 + hsShear K1 G1))⁻¹
      = (hsShear K1 G1 + (f * G2 + (1 - f) * G1)) / ((G2 - G1) * (G1 + hsShear K1 G1)) := by
    field
  have d1 : (K2 - K1)⁻¹ + f * (K1 + 4 * G1 / 3)⁻¹ ≠ 0 := by
    rw [e1]; exact div_ne_zero n1.ne' (mul_ne_zero dK p1.ne')
  have d2 : (G2 - G1)⁻¹ + 2 * f * (2 * (G1 + hsShear K1 G1))⁻¹ ≠ 0 := by
    rw [e2]; exact div_ne_zero n2.ne' (mul_ne_zero dG (by positivity))
  unfold HS
  rw [if_pos rfl]
  fl_eval [t]
  refine Prod.ext (fin_inj.mpr ?_) (fin_inj.mpr ?_)
  · rw [e1, hsMean_closed hf0 hf1 (by linarith) (by linarith)]
    have p : K1 + 4 * G1 / 3 = K1 + hsBulk G1 := rfl
    rw [p]; generalize hsBulk G1 = z at *
    rw [div_div_eq_mul_div, eq_div_iff n1.ne', add_mul, div_mul_cancel₀ _ n1.ne']; ring
  · rw [e2, hsMean_closed hf0 hf1 (by linarith) (by linarith)]
    generalize hsShear K1 G1 = z at *
    rw [div_div_eq_mul_div, eq_div_iff n2.ne', add_mul, div_mul_cancel₀ _ n2.ne']; ring

/-- Any bound name other than `'upper'` swaps the role of the phases. -/
theorem HS_lower_eq_upper {s : String} (hs : s ≠ "upper") (f K1 K2 G1 G2 : ℝ) :
    HS (fin f) (fin K1) (fin K2) (fin G1) (fin G2) s
      = HS (fin (1 - f)) (fin K2) (fin K1) (fin G2) (fin G1) "upper" := by
  unfold HS
  rw [if_neg hs, if_pos rfl]
  simp only [fl, sub_sub_cancel]

theorem HS_lower_eval {s : String} (hs : s ≠ "upper") (hf0 : 0 ≤ f) (hf1 : f ≤ 1) (hK1 : 0 < K1)
    (hK2 : 0 < K2) (hG1 : 0 < G1) (hG2 : 0 < G2) (hK : K1 ≠ K2) (hG : G1 ≠ G2) :
    HS (fin f) (fin K1) (fin K2) (fin G1) (fin G2) s
      = (fin (hsMean f K1 K2 (hsBulk G2)), fin (hsMean f G1 G2 (hsShear K2 G2))) := by
  rw [HS_lower_eq_upper hs, HS_upper_eval (by linarith) (by linarith) hK2 hK1 hG2 hG1 hK.symm
    hG.symm, hsMean_swap, hsMean_swap]

theorem MT_average_eval {Km Gm : ℝ} (hf0 : 0 ≤ f) (hf1 : f ≤ 1) (hKm : 0 < Km) (hGm : 0 < Gm)
    (hK1 : 0 ≤ K1) (hK2 : 0 ≤ K2) (hG1 : 0 ≤ G1) (hG2 : 0 ≤ G2) :
    MT_average (fin f) (fin Km) (fin Gm) (fin K1) (fin G1) (fin K2) (fin G2)
      = (fin (hsMean f K1 K2 (hsBulk Gm)), fin (hsMean f G1 G2 (hsShear Km Gm))) := by
  have hz := hsBulk_pos hGm
  have hs := hsShear_pos hKm hGm
  have nu : 1 - (3 * Km - 2 * Gm) / (2 * (3 * Km + Gm)) = (3 * Km + 4 * Gm) / (2 * (3 * Km + Gm)) := by
    field
  have nu0 : 1 - (3 * Km - 2 * Gm) / (2 * (3 * Km + Gm)) ≠ 0 := by rw [nu]; positivity
  have ea : (1 + (3 * Km - 2 * Gm) / (2 * (3 * Km + Gm)))
      / (3 * (1 - (3 * Km - 2 * Gm) / (2 * (3 * Km + Gm)))) = Km / (Km + hsBulk Gm) := by
    rw [nu]; unfold hsBulk; field
  have eb : 2 * (4 - 5 * ((3 * Km - 2 * Gm) / (2 * (3 * Km + Gm))))
      / (15 * (1 - (3 * Km - 2 * Gm) / (2 * (3 * Km + Gm)))) = Gm / (Gm + hsShear Km Gm) := by
    rw [nu]; unfold hsShear; field
  have q : ∀ {M m z : ℝ}, 0 < M → 0 ≤ m → 0 < z →
      M - (M - m) * (M / (M + z)) = M * (m + z) / (M + z) := by
    intro M m z hM hm hz; field
  have q0 : ∀ {M m z : ℝ}, 0 < M → 0 ≤ m → 0 < z → M - (M - m) * (M / (M + z)) ≠ 0 := by
    intro M m z hM hm hz; rw [q hM hm hz]; positivity
  have r0 : ∀ {M a b z : ℝ}, 0 < M → 0 ≤ a → 0 ≤ b → 0 < z →
      f * M / (M - (M - a) * (M / (M + z))) + (1 - f) * M / (M - (M - b) * (M / (M + z)))
        = (M + z) * ((z + (f * b + (1 - f) * a)) / ((a + z) * (b + z))) := by
    intro M a b z hM ha hb hz
    rw [q hM ha hz, q hM hb hz]; field
  have r0' : ∀ {M a b z : ℝ}, 0 < M → 0 ≤ a → 0 ≤ b → 0 < z →
      f * M / (M - (M - a) * (M / (M + z))) + (1 - f) * M / (M - (M - b) * (M / (M + z))) ≠ 0 := by
    intro M a b z hM ha hb hz
    rw [r0 hM ha hb hz]
    have := hsMean_den (z := z) hf0 hf1 (by linarith : 0 < a + z) (by linarith : 0 < b + z)
    positivity
  have fin0 : ∀ {M a b z : ℝ}, 0 < M → 0 ≤ a → 0 ≤ b → 0 < z →
      (f * M * a / (M - (M - a) * (M / (M + z))) + (1 - f) * M * b / (M - (M - b) * (M / (M + z))))
        / (f * M / (M - (M - a) * (M / (M + z))) + (1 - f) * M / (M - (M - b) * (M / (M + z))))
        = hsMean f a b z := by
    intro M a b z hM ha hb hz
    have := hsMean_den (z := z) hf0 hf1 (by linarith : 0 < a + z) (by linarith : 0 < b + z)
    rw [r0 hM ha hb hz, q hM ha hz, q hM hb hz,
      hsMean_closed hf0 hf1 (by linarith) (by linarith)]
    field
  unfold MT_average
  have n1 := q0 hKm hK1 hz
  have n2 := q0 hKm hK2 hz
  have n3 := q0 hGm hG1 hs
  have n4 := q0 hGm hG2 hs
  have n5 := r0' hKm hK1 hK2 hz
  have n6 := r0' hGm hG1 hG2 hs
  fl_eval [ea, eb, fin0 hKm hK1 hK2 hz, fin0 hGm hG1 hG2 hs, nu0, mul_ne_zero, ne_eq, not_false_eq_true]

end RockPhy.EM
