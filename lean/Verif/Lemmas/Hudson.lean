import Verif.Model.EM
import Verif.Lemmas.Utils

/-! Closed forms of the Hudson crack models on finite inputs. -/

namespace RockPhy.EM

open Fl Spec

/-- Admissible background, crack fill and aspect ratio. -/
structure CrackOK (K G Ki Gi alpha : ℝ) : Prop where
  K : 0 < K
  G : 0 < G
  Ki : 0 ≤ Ki
  Gi : 0 ≤ Gi
  alpha : 0 < alpha

/-- Lamé's parameter. -/
noncomputable def lam (K G : ℝ) : ℝ := K - 2 * G / 3

/-- Real value of `U1`. -/
noncomputable def rU1 (K G Gi alpha : ℝ) : ℝ :=
  16 * (lam K G + 2 * G) / (3 * (3 * lam K G + 4 * G)
    * (1 + 4 * Gi * (lam K G + G) / (Real.pi * alpha * G * (3 * lam K G + 4 * G))))

/-- Real value of `U3`. -/
noncomputable def rU3 (K G Ki Gi alpha : ℝ) : ℝ :=
  4 * (lam K G + 2 * G) / (3 * (lam K G + G)
    * (1 + (Ki + 4 * Gi / 3) * (lam K G + 2 * G) / (Real.pi * alpha * G * (lam K G + G))))

variable {K G Ki Gi alpha crd : ℝ}

theorem lam_pos2 (hK : 0 < K) (hG : 0 < G) : 0 < lam K G + 2 * G := by unfold lam; linarith
theorem lam_pos1 (hK : 0 < K) (hG : 0 < G) : 0 < lam K G + G := by unfold lam; linarith
theorem lam_pos34 (hK : 0 < K) (hG : 0 < G) : 0 < 3 * lam K G + 4 * G := by unfold lam; linarith
theorem lam_pos32 (hK : 0 < K) : 0 < 3 * lam K G + 2 * G := by unfold lam; linarith

theorem hudson_U1_eval (h : CrackOK K G Ki Gi alpha) :
    hudson_U1 (fin K) (fin G) (fin Gi) (fin alpha) = fin (rU1 K G Gi alpha) := by
  obtain ⟨hK, hG, hKi, hGi, ha⟩ := h
  have p1 := lam_pos1 hK hG
  have p2 := lam_pos2 hK hG
  have p3 := lam_pos34 hK hG
  have pp := Real.pi_pos
  have e : K - 2 * G / 3 = lam K G := rfl
  have n1 : Real.pi * alpha * G * (3 * lam K G + 4 * G) ≠ 0 := by positivity
  have n2 : 3 * (3 * lam K G + 4 * G)
    * (1 + 4 * Gi * (lam K G + G) / (Real.pi * alpha * G * (3 * lam K G + 4 * G))) ≠ 0 := by
    positivity
  unfold hudson_U1 hudson_M
  fl_eval [e]
  rfl

theorem hudson_U3_eval (h : CrackOK K G Ki Gi alpha) :
    hudson_U3 (fin K) (fin G) (fin Ki) (fin Gi) (fin alpha) = fin (rU3 K G Ki Gi alpha) := by
  obtain ⟨hK, hG, hKi, hGi, ha⟩ := h
  have p1 := lam_pos1 hK hG
  have p2 := lam_pos2 hK hG
  have p3 := lam_pos34 hK hG
  have pp := Real.pi_pos
  have e : K - 2 * G / 3 = lam K G := rfl
  have n1 : Real.pi * alpha * G * (lam K G + G) ≠ 0 := by positivity
  have n2 : 3 * (lam K G + G)
    * (1 + (Ki + 4 * Gi / 3) * (lam K G + 2 * G) / (Real.pi * alpha * G * (lam K G + G))) ≠ 0 := by
    positivity
  unfold hudson_U3 hudson_kapa
  fl_eval [e]
  rfl

theorem rU1_pos (h : CrackOK K G Ki Gi alpha) : 0 < rU1 K G Gi alpha := by
  obtain ⟨hK, hG, hKi, hGi, ha⟩ := h
  have p1 := lam_pos1 hK hG
  have p2 := lam_pos2 hK hG
  have p3 := lam_pos34 hK hG
  have pp := Real.pi_pos
  unfold rU1; positivity

theorem rU3_pos (h : CrackOK K G Ki Gi alpha) : 0 < rU3 K G Ki Gi alpha := by
  obtain ⟨hK, hG, hKi, hGi, ha⟩ := h
  have p1 := lam_pos1 hK hG
  have p2 := lam_pos2 hK hG
  have p3 := lam_pos34 hK hG
  have pp := Real.pi_pos
  unfold rU3; positivity

/-- First-order corrections per unit of `crd`. -/
noncomputable def h11 (K G Ki Gi alpha : ℝ) : ℝ := -(lam K G) ^ 2 * rU3 K G Ki Gi alpha / G
noncomputable def h13 (K G Ki Gi alpha : ℝ) : ℝ :=
  -(lam K G * (lam K G + 2 * G)) * rU3 K G Ki Gi alpha / G
noncomputable def h33 (K G Ki Gi alpha : ℝ) : ℝ :=
  -(lam K G + 2 * G) ^ 2 * rU3 K G Ki Gi alpha / G
noncomputable def h44 (K G Gi alpha : ℝ) : ℝ := -G * rU1 K G Gi alpha

/-- Second-order corrections per unit of `crd ** 2`. -/
noncomputable def hq (K G : ℝ) : ℝ := 15 * lam K G ^ 2 / G ^ 2 + 28 * lam K G / G + 28
noncomputable def h11' (K G Ki Gi alpha : ℝ) : ℝ :=
  hq K G / 15 * lam K G ^ 2 / (lam K G + 2 * G) * rU3 K G Ki Gi alpha ^ 2
noncomputable def h13' (K G Ki Gi alpha : ℝ) : ℝ :=
  hq K G / 15 * lam K G * rU3 K G Ki Gi alpha ^ 2
noncomputable def h33' (K G Ki Gi alpha : ℝ) : ℝ :=
  hq K G / 15 * (lam K G + 2 * G) * rU3 K G Ki Gi alpha ^ 2
noncomputable def h44' (K G Gi alpha : ℝ) : ℝ :=
  2 / 15 * G * (3 * lam K G + 8 * G) / (lam K G + 2 * G) * rU1 K G Gi alpha ^ 2

/-- The five VTI constants of `hudson` as polynomials in the crack density; `o` is 0 for first
and 1 for second order. -/
theorem hudson_eval (h : CrackOK K G Ki Gi alpha) (crd : ℝ) {order : Int} {o : ℝ}
    (ho : (order = 1 ∧ o = 0) ∨ (order = 2 ∧ o = 1)) {axis : Int} :
    hudson (fin K) (fin G) (fin Ki) (fin Gi) (fin alpha) (fin crd) order axis =
      let c11 := K + 4 * G / 3 + crd * h11 K G Ki Gi alpha + o * (crd ^ 2 * h11' K G Ki Gi alpha)
      let c13 := K - 2 * G / 3 + crd * h13 K G Ki Gi alpha + o * (crd ^ 2 * h13' K G Ki Gi alpha)
      let c33 := K + 4 * G / 3 + crd * h33 K G Ki Gi alpha + o * (crd ^ 2 * h33' K G Ki Gi alpha)
      let c44 := G + crd * h44 K G Gi alpha + o * (crd ^ 2 * h44' K G Gi alpha)
      if axis = 3 then .ok ((vtiMatrix c11 c33 c13 c44 G).map fin)
      else if axis = 1 then .ok ((htiMatrix c33 c11 c13 G c44).map fin)
      else .error .UnboundLocalError := by
  have p2 := lam_pos2 h.K h.G
  have hG := h.G
  have e : K - 2 * G / 3 = lam K G := rfl
  have e' : lam K G + 2 * G = K + 4 * G / 3 := by unfold lam; ring
  have a1 : lam K G + 2 * G + -lam K G ^ 2 * crd * rU3 K G Ki Gi alpha / G
      = K + 4 * G / 3 + crd * h11 K G Ki Gi alpha := by rw [e']; unfold h11; ring
  have a2 : lam K G + -lam K G * (lam K G + 2 * G) * crd * rU3 K G Ki Gi alpha / G
      = K - 2 * G / 3 + crd * h13 K G Ki Gi alpha := by unfold h13; rw [e]; ring
  have a3 : lam K G + 2 * G + -(lam K G + 2 * G) ^ 2 * crd * rU3 K G Ki Gi alpha / G
      = K + 4 * G / 3 + crd * h33 K G Ki Gi alpha := by unfold h33; rw [e']; ring
  have a4 : G + -G * crd * rU1 K G Gi alpha = G + crd * h44 K G Gi alpha := by unfold h44; ring
  have b1 : (15 * lam K G ^ 2 / G ^ 2 + 28 * lam K G / G + 28) / 15 * lam K G ^ 2
      / (lam K G + 2 * G) * (crd * rU3 K G Ki Gi alpha) ^ 2 = crd ^ 2 * h11' K G Ki Gi alpha := by
    unfold h11' hq; ring
  have b2 : (15 * lam K G ^ 2 / G ^ 2 + 28 * lam K G / G + 28) / 15 * lam K G
      * (crd * rU3 K G Ki Gi alpha) ^ 2 = crd ^ 2 * h13' K G Ki Gi alpha := by
    unfold h13' hq; ring
  have b3 : (15 * lam K G ^ 2 / G ^ 2 + 28 * lam K G / G + 28) / 15 * (lam K G + 2 * G)
      * (crd * rU3 K G Ki Gi alpha) ^ 2 = crd ^ 2 * h33' K G Ki Gi alpha := by
    unfold h33' hq; ring
  have b4 : 2 / 15 * G * (3 * lam K G + 8 * G) / (lam K G + 2 * G) * (crd * rU1 K G Gi alpha) ^ 2
      = crd ^ 2 * h44' K G Gi alpha := by
    unfold h44'; ring
  unfold hudson hudson_consts
  rw [hudson_U1_eval h, hudson_U3_eval h]
  rcases ho with ⟨rfl, rfl⟩ | ⟨rfl, rfl⟩
  · rw [if_pos rfl]
    fl_eval [e, a1, a2, a3, a4, hudson_matrix, utils.write_VTI_matrix_eval,
      utils.write_HTI_matrix_eval, zero_mul, add_zero]
  · rw [if_neg (by decide), if_pos rfl]
    fl_eval [e, a1, a2, a3, a4, b1, b2, b3, b4, hudson_matrix, utils.write_VTI_matrix_eval,
      utils.write_HTI_matrix_eval, one_mul]

theorem hudson_rand_eval (h : CrackOK K G Ki Gi alpha) (crd : ℝ) :
    hudson_rand (fin K) (fin G) (fin Ki) (fin Gi) (fin alpha) (fin crd)
      = (fin (K - crd * (9 * K ^ 2 * rU3 K G Ki Gi alpha / (9 * G))),
         fin (G - crd * (2 * G * (3 * rU1 K G Gi alpha + 2 * rU3 K G Ki Gi alpha)))) := by
  have hG := h.G
  have e : K - 2 * G / 3 = lam K G := rfl
  have e3 : 3 * lam K G + 2 * G = 3 * K := by unfold lam; ring
  unfold hudson_rand
  rw [hudson_U1_eval h, hudson_U3_eval h]
  fl_eval [e, e3]
  refine Prod.ext (fin_inj.mpr ?_) (fin_inj.mpr ?_)
  · unfold lam; ring
  · ring

theorem hudson_ortho_eval (al cr : Fin 3 → ℝ) (h : ∀ i, CrackOK K G Ki Gi (al i)) :
    hudson_ortho (fin K) (fin G) (fin Ki) (fin Gi) (fun i => fin (al i)) (fun i => fin (cr i)) =
      (orthoMatrix
        (K + 4 * G / 3 + cr 0 * h33 K G Ki Gi (al 0) + cr 1 * h11 K G Ki Gi (al 1)
          + cr 2 * h11 K G Ki Gi (al 2))
        (K + 4 * G / 3 + cr 0 * h11 K G Ki Gi (al 0) + cr 1 * h33 K G Ki Gi (al 1)
          + cr 2 * h11 K G Ki Gi (al 2))
        (K + 4 * G / 3 + cr 0 * h11 K G Ki Gi (al 0) + cr 1 * h11 K G Ki Gi (al 1)
          + cr 2 * h33 K G Ki Gi (al 2))
        (K - 2 * G / 3 + cr 0 * h13 K G Ki Gi (al 0) + cr 1 * h13 K G Ki Gi (al 1)
          + cr 2 * h11 K G Ki Gi (al 2))
        (K - 2 * G / 3 + cr 0 * h13 K G Ki Gi (al 0) + cr 1 * h11 K G Ki Gi (al 1)
          + cr 2 * h13 K G Ki Gi (al 2))
        (K - 2 * G / 3 + cr 0 * h11 K G Ki Gi (al 0) + cr 1 * h13 K G Ki Gi (al 1)
          + cr 2 * h13 K G Ki Gi (al 2))
        (G + cr 1 * h44 K G Gi (al 1) + cr 2 * h44 K G Gi (al 2))
        (G + cr 0 * h44 K G Gi (al 0) + cr 2 * h44 K G Gi (al 2))
        (G + cr 0 * h44 K G Gi (al 0) + cr 1 * h44 K G Gi (al 1))).map fin := by
  have hG := (h 0).G
  have e : K - 2 * G / 3 = lam K G := rfl
  have e' : lam K G + 2 * G = K + 4 * G / 3 := by unfold lam; ring
  have a1 : ∀ i, -lam K G ^ 2 * cr i * rU3 K G Ki Gi (al i) / G = cr i * h11 K G Ki Gi (al i) := by
    intro i; unfold h11; ring
  have a2 : ∀ i, -lam K G * (lam K G + 2 * G) * cr i * rU3 K G Ki Gi (al i) / G
      = cr i * h13 K G Ki Gi (al i) := by
    intro i; unfold h13; ring
  have a3 : ∀ i, -(lam K G + 2 * G) ^ 2 * cr i * rU3 K G Ki Gi (al i) / G
      = cr i * h33 K G Ki Gi (al i) := by
    intro i; unfold h33; ring
  have a4 : ∀ i, -G * cr i * rU1 K G Gi (al i) = cr i * h44 K G Gi (al i) := by
    intro i; unfold h44; ring
  unfold hudson_ortho
  simp only [hudson_U1_eval (h _), hudson_U3_eval (h _)]
  fl_eval [e, a1, a2, a3, a4, utils.write_matrix_eval]
  simp only [e']

theorem hudson_cone_eval (h : CrackOK K G Ki Gi alpha) (crd th : ℝ) {s : ℝ}
    (hs : s = Real.sin (th * (Real.pi / 180)) ^ 2) :
    hudson_cone (fin K) (fin G) (fin Ki) (fin Gi) (fin alpha) (fin crd) (fin th) =
      let l := lam K G
      let u1 := rU1 K G Gi alpha
      let u3 := rU3 K G Ki Gi alpha
      let c11 := l + 2 * G - crd / (2 * G) * (u3 * (2 * l ^ 2 + 4 * l * G * s + 3 * G ^ 2 * s ^ 2)
        + u1 * G ^ 2 * s * (4 - 3 * s))
      let c33 := l + 2 * G - crd / G * (u3 * (l + 2 * G * (1 - s)) ^ 2
        + u1 * G ^ 2 * 4 * (1 - s) * s)
      let c12 := l - crd / (2 * G) * (u3 * (2 * l ^ 2 + 4 * l * G * s + G ^ 2 * s ^ 2)
        - u1 * G ^ 2 * s ^ 2)
      let c13 := l - crd / G * (u3 * (l + G * s) * (l + 2 * G * (1 - s))
        - u1 * G ^ 2 * 2 * s * (1 - s))
      let c44 := G - crd / 2 * G * (u3 * 4 * s * (1 - s) + u1 * (s + 2 * (1 - s)
        - 4 * s * (1 - s)))
      let c66 := G - crd / 2 * G * (u3 * 4 * s ^ 2 + u1 * s * (2 - s))
      (orthoMatrix c11 c11 c33 c12 c13 c13 c44 c44 c66).map fin := by
  have hG := h.G
  have e : K - 2 * G / 3 = lam K G := rfl
  have c2 : Real.cos (th * (Real.pi / 180)) ^ 2 = 1 - s := by
    rw [hs]; have := Real.sin_sq_add_cos_sq (th * (Real.pi / 180)); linarith
  have s4 : Real.sin (th * (Real.pi / 180)) ^ 4 = s ^ 2 := by rw [hs]; ring
  unfold hudson_cone
  rw [hudson_U1_eval h, hudson_U3_eval h]
  fl_eval [e, c2, s4, ← hs, utils.write_matrix_eval]
  congr 2 <;> ring

end RockPhy.EM
