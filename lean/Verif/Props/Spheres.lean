import Verif.Props.Eshelby
import Verif.Props.Porous

/-! # Property C81: spherical inclusion models by Eshelby's solution -/

namespace RockPhy.Spec

theorem IsConcentration.unique {K G Ki Gi P Q P' Q' : ℝ} {b : Fin 3 → ℝ}
    (h : IsConcentration K G Ki Gi b P Q) (h' : IsConcentration K G Ki Gi b P' Q') :
    P = P' ∧ Q = Q' := by
  obtain ⟨⟨e, he⟩, hs, h1, h2⟩ := h
  obtain ⟨-, -, h1', h2'⟩ := h'
  choose s hs using hs
  have a1 := h1 e he
  have a2 := h1' e he
  have a3 := h2 s hs
  have a4 := h2' s hs
  constructor <;> linarith

/-- Concentration factors of a sphere in closed form. -/
theorem sphere_concentration {K G Ki Gi P Q : ℝ} (hK : 0 < K) (hG : 0 < G) (hKi : 0 ≤ Ki)
    (hGi : 0 ≤ Gi) (h : IsConcentration K G Ki Gi (spheroid 1) P Q) :
    P = (3 * K + 4 * G) / (3 * Ki + 4 * G) ∧
    Q = 5 * G * (3 * K + 4 * G) / (6 * Gi * (K + 2 * G) + G * (9 * K + 8 * G)) := by
  obtain ⟨P', Q', e, -, -, h'⟩ := Props.C79_oblate K G Ki Gi 1 hK hG hKi hGi one_pos le_rfl
  obtain ⟨u1, u2⟩ := h.unique h'
  rw [EM.PQ_sphere_eval hK hG hKi hGi] at e
  injection e with e1 e2
  rw [Fl.fin_inj] at e1 e2
  rw [u1, u2, ← e1, ← e2]
  constructor
  · field
  · field

end RockPhy.Spec

namespace RockPhy.Props

open Fl EM Spec

/-- `Swiss_cheese`: dry spherical pores at fixed stress; every pore adds its strain concentration
to the compliance. -/
theorem C81_Swiss_cheese (Ks Gs φ P Q : ℝ) (hK : 0 < Ks) (hG : 0 < Gs) (hφ : 0 ≤ φ)
    (h : IsConcentration Ks Gs 0 0 (spheroid 1) P Q) :
    Swiss_cheese (fin Ks) (fin Gs) (fin φ) = (fin (1 / (1 / Ks + φ * P / Ks)),
      fin (1 / (1 / Gs + φ * Q / Gs))) := by
  obtain ⟨e1, e2⟩ := sphere_concentration hK hG le_rfl le_rfl h
  obtain ⟨K, G, e, a, b⟩ := C20_Swiss_cheese_slope Ks Gs φ hK hG hφ
  have hK' : K = 1 / (1 / K) := by rw [one_div_one_div]
  have hG' : G = 1 / (1 / G) := by rw [one_div_one_div]
  rw [e, hK', hG', a, b, e1, e2]
  refine Prod.ext (congrArg fin ?_) (congrArg fin ?_)
  · congr 1
    field
  · congr 1
    field

example : ∃ P Q, IsConcentration 37 44 0 0 (spheroid 1) P Q := by
  obtain ⟨P, Q, -, -, -, h⟩ := C79_oblate 37 44 0 0 1 (by norm_num) (by norm_num) le_rfl le_rfl
    one_pos le_rfl
  exact ⟨P, Q, h⟩

/-- The self-consistent equations of `SC`: the same compliance rule with the pores embedded in the
effective medium. -/
theorem C81_SelfConsistent (φ Ks Gs K G P Q : ℝ) (hK : 0 < K) (hG : 0 < G)
    (h : IsConcentration K G 0 0 (spheroid 1) P Q) :
    SelfConsistent φ Ks Gs K G ↔ 1 / K = 1 / Ks + φ * P / K ∧ 1 / G = 1 / Gs + φ * Q / G := by
  obtain ⟨e1, e2⟩ := sphere_concentration hK hG le_rfl le_rfl h
  unfold SelfConsistent
  have a1 : (1 / K + 3 / (4 * G)) * φ = φ * P / K := by rw [e1]; field
  have a2 : (15 * K + 20 * G) / (9 * K + 8 * G) * φ / G = φ * Q / G := by rw [e2]; field
  rw [a1, a2]

/-- `SC_dilute`: with the stress prescribed the inclusions add to the compliance, with the strain
prescribed to the stiffness (both results relative to the matrix). -/
theorem C81_SC_dilute (Km Gm Ki Gi f P Q : ℝ) (hK : 0 < Km) (hG : 0 < Gm) (hKi : 0 ≤ Ki)
    (hGi : 0 ≤ Gi) (h1 : Ki ≠ Km) (h2 : Gi ≠ Gm)
    (h : IsConcentration Km Gm Ki Gi (spheroid 1) P Q) :
    SC_dilute (fin Km) (fin Gm) (fin Ki) (fin Gi) (fin f) "strain"
      = .ok (fin ((Km + f * (Ki - Km) * P) / Km), fin ((Gm + f * (Gi - Gm) * Q) / Gm)) ∧
    (1 / Km + f * (1 / Km - Ki / Km ^ 2) * P ≠ 0 → 1 / Gm + f * (1 / Gm - Gi / Gm ^ 2) * Q ≠ 0 →
      SC_dilute (fin Km) (fin Gm) (fin Ki) (fin Gi) (fin f) "stress"
        = .ok (fin (1 / (1 / Km + f * (1 / Km - Ki / Km ^ 2) * P) / Km),
            fin (1 / (1 / Gm + f * (1 / Gm - Gi / Gm ^ 2) * Q) / Gm))) := by
  obtain ⟨c1, c2⟩ := sphere_concentration hK hG hKi hGi h
  have d1 : Km - Ki ≠ 0 := sub_ne_zero.mpr h1.symm
  have d2 : Gm - Gi ≠ 0 := sub_ne_zero.mpr h2.symm
  have p1 : 0 < 3 * Ki + 4 * Gm := by positivity
  have p2 : 0 < 6 * Gi * (Km + 2 * Gm) + Gm * (9 * Km + 8 * Gm) := by positivity
  have e1 : Km / (Km - Ki) - 3 * Km / (3 * Km + 4 * Gm)
      = Km * (3 * Ki + 4 * Gm) / ((Km - Ki) * (3 * Km + 4 * Gm)) := by field
  have e2 : Gm / (Gm - Gi) - 6 * (Km + 2 * Gm) / (5 * (3 * Km + 4 * Gm))
      = (6 * Gi * (Km + 2 * Gm) + Gm * (9 * Km + 8 * Gm))
        / ((Gm - Gi) * (5 * (3 * Km + 4 * Gm))) := by field
  have k1 : inv (fin Km / (fin Km - fin Ki) - fin (3 * Km / (3 * Km + 4 * Gm)))
      = fin ((Km - Ki) * P / Km) := by
    have : Km / (Km - Ki) - 3 * Km / (3 * Km + 4 * Gm) ≠ 0 := by
      rw [e1]
      exact div_ne_zero (by positivity) (mul_ne_zero d1 (by positivity))
    fl_eval []
    rw [e1, inv_div, c1, fin_inj]
    field
  have k2 : inv (fin Gm / (fin Gm - fin Gi) - fin (6 * (Km + 2 * Gm) / (5 * (3 * Km + 4 * Gm))))
      = fin ((Gm - Gi) * Q / Gm) := by
    have : Gm / (Gm - Gi) - 6 * (Km + 2 * Gm) / (5 * (3 * Km + 4 * Gm)) ≠ 0 := by
      rw [e2]
      exact div_ne_zero (by positivity) (mul_ne_zero d2 (by positivity))
    fl_eval []
    rw [e2, inv_div, c2, fin_inj]
    field
  obtain ⟨s1, s2⟩ := SC_dilute_S hK hG
  constructor
  · unfold SC_dilute
    dsimp only
    rw [s1, s2, k1, k2, if_neg (by decide), if_pos rfl]
    fl_eval []
    refine congrArg Except.ok (Prod.ext (congrArg fin ?_) (congrArg fin ?_)) <;> field
  · intro z1 z2
    have w1 : 1 + f * ((Km - Ki) * P / Km) = (1 / Km + f * (1 / Km - Ki / Km ^ 2) * P) * Km := by
      field
    have w2 : 1 + f * ((Gm - Gi) * Q / Gm) = (1 / Gm + f * (1 / Gm - Gi / Gm ^ 2) * Q) * Gm := by
      field
    have y1 : 1 + f * ((Km - Ki) * P / Km) ≠ 0 := by rw [w1]; exact mul_ne_zero z1 hK.ne'
    have y2 : 1 + f * ((Gm - Gi) * Q / Gm) ≠ 0 := by rw [w2]; exact mul_ne_zero z2 hG.ne'
    unfold SC_dilute
    dsimp only
    rw [s1, s2, k1, k2, if_pos rfl]
    fl_eval []
    rw [w1, w2]
    generalize 1 / Km + f * (1 / Km - Ki / Km ^ 2) * P = u at *
    generalize 1 / Gm + f * (1 / Gm - Gi / Gm ^ 2) * Q = v at *
    refine congrArg Except.ok (Prod.ext (congrArg fin ?_) (congrArg fin ?_)) <;> field

/-- One step of `SC_flex` from the current estimate `(K, G)`: spheres embedded in the estimate,
added to the stiffness of the matrix. -/
theorem C81_SC_flex_step (f Km Ki Gm Gi K G P Q : ℝ) (hKm : 0 < Km) (hGm : 0 < Gm) (hK : 0 < K)
    (hG : 0 < G) (hKi : 0 ≤ Ki) (hGi : 0 ≤ Gi) (h1 : K ≠ Ki) (h2 : G ≠ Gi)
    (h : IsConcentration K G Ki Gi (spheroid 1) P Q) :
    SC_flex_step (fin f) (fin Km) (fin Ki) (fin Gm) (fin Gi) (fin K, fin G)
      = (fin (Km + f * (Ki - Km) * P), fin (Gm + f * (Gi - Gm) * Q)) := by
  obtain ⟨c1, c2⟩ := sphere_concentration hK hG hKi hGi h
  rw [SC_flex_step_eval hKm hGm hK hG hKi hGi h1 h2, c1, c2]
  have p1 : 0 < 3 * Ki + 4 * G := by positivity
  have p2 : 0 < 6 * Gi * (K + 2 * G) + G * (9 * K + 8 * G) := by positivity
  have q1 : 4 * K * G + 3 * K * Ki = K * (3 * Ki + 4 * G) := by ring
  have q2 : G * (9 * K + 8 * G) + Gi * (6 * (K + 2 * G))
      = 6 * Gi * (K + 2 * G) + G * (9 * K + 8 * G) := by ring
  rw [q1, q2]
  generalize 6 * Gi * (K + 2 * G) + G * (9 * K + 8 * G) = D at *
  refine Prod.ext (congrArg fin ?_) (congrArg fin ?_)
  · field
  · field

/-- `MT_average`: the mean stress over the mean strain of spheres of both phases embedded in the
matrix. -/
theorem C81_MT_average (f Kmat Gmat K1 G1 K2 G2 P1 Q1 P2 Q2 : ℝ) (hK : 0 < Kmat) (hG : 0 < Gmat)
    (hK1 : 0 ≤ K1) (hG1 : 0 ≤ G1) (hK2 : 0 ≤ K2) (hG2 : 0 ≤ G2) (h0 : 0 ≤ f) (h1 : f ≤ 1)
    (c1 : IsConcentration Kmat Gmat K1 G1 (spheroid 1) P1 Q1)
    (c2 : IsConcentration Kmat Gmat K2 G2 (spheroid 1) P2 Q2) :
    MT_average (fin f) (fin Kmat) (fin Gmat) (fin K1) (fin G1) (fin K2) (fin G2)
      = (fin ((f * (K1 * P1) + (1 - f) * (K2 * P2)) / (f * P1 + (1 - f) * P2)),
         fin ((f * (G1 * Q1) + (1 - f) * (G2 * Q2)) / (f * Q1 + (1 - f) * Q2))) := by
  obtain ⟨a1, a2⟩ := sphere_concentration hK hG hK1 hG1 c1
  obtain ⟨b1, b2⟩ := sphere_concentration hK hG hK2 hG2 c2
  have hz := hsBulk_pos hG
  have hs := hsShear_pos hK hG
  have a1' : P1 = (Kmat + hsBulk Gmat) / (K1 + hsBulk Gmat) := by rw [a1]; unfold hsBulk; field
  have b1' : P2 = (Kmat + hsBulk Gmat) / (K2 + hsBulk Gmat) := by rw [b1]; unfold hsBulk; field
  have a2' : Q1 = (Gmat + hsShear Kmat Gmat) / (G1 + hsShear Kmat Gmat) := by
    rw [a2]; unfold hsShear; field
  have b2' : Q2 = (Gmat + hsShear Kmat Gmat) / (G2 + hsShear Kmat Gmat) := by
    rw [b2]; unfold hsShear; field
  rw [MT_average_eval h0 h1 hK hG hK1 hK2 hG1 hG2, a1', b1', a2', b2']
  have key : ∀ {M z a b : ℝ}, 0 < M → 0 < z → 0 ≤ a → 0 ≤ b → hsMean f a b z
      = (f * (a * ((M + z) / (a + z))) + (1 - f) * (b * ((M + z) / (b + z))))
        / (f * ((M + z) / (a + z)) + (1 - f) * ((M + z) / (b + z))) := by
    intro M z a b hM hz ha hb
    have d := hsMean_den (z := z) h0 h1 (by linarith : 0 < a + z) (by linarith : 0 < b + z)
    rw [hsMean_closed h0 h1 (by linarith) (by linarith)]
    have e : f * ((M + z) / (a + z)) + (1 - f) * ((M + z) / (b + z))
        = (M + z) * ((z + (f * b + (1 - f) * a)) / ((a + z) * (b + z))) := by field
    rw [e]
    field
  exact Prod.ext (congrArg fin (key hK hz hK1 hK2)) (congrArg fin (key hG hs hG1 hG2))

end RockPhy.Props
