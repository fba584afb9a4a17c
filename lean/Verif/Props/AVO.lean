import Verif.Model.AVO
import Verif.Model.Utils
import Verif.Spec.Avo
import Mathlib.Analysis.Real.Pi.Bounds

/-! # Properties C48, C49, C51 and C52 (approximate reflectivity and elastic impedance) -/

namespace RockPhy.AVO

open Fl Spec

/-- `cos` of an angle in degrees. -/
theorem cos_deg_pos {θ : ℝ} (h0 : -90 < θ) (h1 : θ < 90) : 0 < Real.cos (θ * (Real.pi / 180)) := by
  have := Real.pi_pos
  apply Real.cos_pos_of_mem_Ioo
  constructor <;> nlinarith

theorem ar_eval {θ a1 a2 b1 b2 r1 r2 : ℝ} (ha : a1 + a2 ≠ 0) (hb : b1 + b2 ≠ 0) (hr : r1 + r2 ≠ 0)
    (hθ : Real.cos (θ * (Real.pi / 180)) ≠ 0) :
    (Aki_Richards (fin θ) (fin a1) (fin a2) (fin b1) (fin b2) (fin r1) (fin r2)).1
        = fin (akiRichards ((a1 + a2) / 2) ((b1 + b2) / 2) ((r1 + r2) / 2) (a2 - a1) (b2 - b1)
          (r2 - r1) (θ * (Real.pi / 180))) ∧
    (Aki_Richards (fin θ) (fin a1) (fin a2) (fin b1) (fin b2) (fin r1) (fin r2)).2.2.1
        = fin ((r2 - r1) / (r1 + r2) + (a2 - a1) / (a1 + a2)) ∧
    (Aki_Richards (fin θ) (fin a1) (fin a2) (fin b1) (fin b2) (fin r1) (fin r2)).2.2.2
        = fin ((a2 - a1) / (a1 + a2) - 2 * ((b1 + b2) / (a1 + a2)) ^ 2
          * (4 * (b2 - b1) / (b1 + b2) + 2 * (r2 - r1) / (r1 + r2))) := by
  unfold Aki_Richards
  dsimp only
  rw [fl_deg2rad]
  generalize θ * (Real.pi / 180) = t at *
  fl_eval [fl_tan hθ]
  refine ⟨congrArg fin ?_, congrArg fin (by field), congrArg fin (by field)⟩
  have e : Real.tan t ^ 2 = 1 / Real.cos t ^ 2 - 1 := by
    rw [Real.tan_eq_sin_div_cos, div_pow, Real.sin_sq]; field
  unfold akiRichards
  rw [e]
  field

theorem ar_ps_eval {θ a1 a2 b1 b2 r1 r2 : ℝ} (ha1 : a1 ≠ 0) (ha : a1 + a2 ≠ 0) (hb : b1 + b2 ≠ 0)
    (hr : r1 + r2 ≠ 0) (hs : |Real.sin (θ * (Real.pi / 180)) / a1 * b1| < 1) :
    (Aki_Richards (fin θ) (fin a1) (fin a2) (fin b1) (fin b2) (fin r1) (fin r2)).2.1
        = fin (akiRichardsPS ((a1 + a2) / 2) ((b1 + b2) / 2) ((r1 + r2) / 2) (b2 - b1)
          (r2 - r1) (Real.sin (θ * (Real.pi / 180)) / a1) (Real.cos (θ * (Real.pi / 180)))
          (Real.cos (Real.arcsin (Real.sin (θ * (Real.pi / 180)) / a1 * b1)))) := by
  unfold Aki_Richards
  dsimp only
  rw [fl_deg2rad]
  generalize θ * (Real.pi / 180) = t at *
  have e : 1 - Real.sin t ^ 2 * (b1 ^ 2 / a1 ^ 2) = 1 - (Real.sin t / a1 * b1) ^ 2 := by field
  have pos : 0 < 1 - (Real.sin t / a1 * b1) ^ 2 := by
    have := (sq_lt_one_iff_abs_lt_one _).mpr hs; linarith
  have e1 : PyNum.sqrt (1 - PyNum.sin (fin t) ** 2 * (fin b1 ** 2 / fin a1 ** 2))
      = fin (Real.cos (Real.arcsin (Real.sin t / a1 * b1))) := by
    have a2 : a1 ^ 2 ≠ 0 := pow_ne_zero 2 ha1
    have p' : 0 ≤ 1 - Real.sin t ^ 2 * (b1 ^ 2 / a1 ^ 2) := by rw [e]; exact pos.le
    fl_eval []
    rw [Real.cos_arcsin, e]
  have cpos : 0 < Real.cos (Real.arcsin (Real.sin t / a1 * b1)) := by
    rw [Real.cos_arcsin]; exact Real.sqrt_pos.mpr pos
  rw [e1]
  generalize Real.cos (Real.arcsin (Real.sin t / a1 * b1)) = cj at *
  fl_eval []
  unfold akiRichardsPS
  exact congrArg fin (by field)

theorem abe_eval {a1 a2 b1 b2 r1 r2 : ℝ} (ha : a1 + a2 ≠ 0) (hb : b1 + b2 ≠ 0) (hr : r1 + r2 ≠ 0)
    (ha1 : a1 ≠ 0) :
    (AVO_abe (fin a1) (fin b1) (fin r1) (fin a2) (fin b2) (fin r2)).1
        = fin ((r2 - r1) / (r1 + r2) + (a2 - a1) / (a1 + a2)) ∧
    (AVO_abe (fin a1) (fin b1) (fin r1) (fin a2) (fin b2) (fin r2)).2.2.1
        = fin ((a2 - a1) / (a1 + a2) - 2 * ((b1 + b2) / (a1 + a2)) ^ 2
          * (4 * (b2 - b1) / (b1 + b2) + 2 * (r2 - r1) / (r1 + r2))) ∧
    (AVO_abe (fin a1) (fin b1) (fin r1) (fin a2) (fin b2) (fin r2)).2.2.2.1
        = fin (-(r2 - r1) / (r1 + r2) - (b1 + b2) / (a1 + a2)
            * (2 * (r2 - r1) / (r1 + r2) + 4 * (b2 - b1) / (b1 + b2))
          + ((b1 + b2) / (a1 + a2)) ^ 3 * ((r2 - r1) / (r1 + r2) + 2 * (b2 - b1) / (b1 + b2))) ∧
    (AVO_abe (fin a1) (fin b1) (fin r1) (fin a2) (fin b2) (fin r2)).2.2.2.2
        = fin (-2 * (b1 / a1) * (2 * (r2 - r1) / (r1 + r2)
            * (1 / 2 + (a1 + a2) / (4 * (b1 + b2))) + 2 * (b2 - b1) / (b1 + b2))) := by
  unfold AVO_abe
  fl_eval []
  refine ⟨congrArg fin (by field), congrArg fin (by field), congrArg fin (by field),
    congrArg fin (by field)⟩

theorem ortho_eval {a1 b1 e11 d11 e12 d12 g1 r1 a2 b2 e21 d21 e22 d22 g2 r2 θ : ℝ}
    (ha : a1 + a2 ≠ 0) (hZ : r1 * a1 + r2 * a2 ≠ 0) (hG : r1 * b1 ^ 2 + r2 * b2 ^ 2 ≠ 0)
    (hθ : Real.cos (θ * (Real.pi / 180)) ≠ 0) :
    AVO_ortho (fin a1) (fin b1) (fin e11) (fin d11) (fin e12) (fin d12) (fin g1) (fin r1) (fin a2)
        (fin b2) (fin e21) (fin d21) (fin e22) (fin d22) (fin g2) (fin r2) (fin θ)
      = (fin (threeTerm ((r2 * a2 - r1 * a1) / (r1 * a1 + r2 * a2))
          ((a2 - a1) / (a1 + a2) - 4 * ((b1 + b2) / (a1 + a2)) ^ 2
            * ((r2 * b2 ^ 2 - r1 * b1 ^ 2) / (r1 * b1 ^ 2 + r2 * b2 ^ 2) - (g2 - g1))
            + (d22 - d12) / 2)
          ((a2 - a1) / (a1 + a2) + (e22 - e12) / 2) (θ * (Real.pi / 180))),
        fin (threeTerm ((r2 * a2 - r1 * a1) / (r1 * a1 + r2 * a2))
          ((a2 - a1) / (a1 + a2) - 4 * ((b1 + b2) / (a1 + a2)) ^ 2
            * ((r2 * b2 ^ 2 - r1 * b1 ^ 2) / (r1 * b1 ^ 2 + r2 * b2 ^ 2))
            + (d21 - d11) / 2)
          ((a2 - a1) / (a1 + a2) + (e21 - e11) / 2) (θ * (Real.pi / 180)))) := by
  have hG' : r1 * b1 * b1 + r2 * b2 * b2 ≠ 0 := by
    rw [show r1 * b1 * b1 + r2 * b2 * b2 = r1 * b1 ^ 2 + r2 * b2 ^ 2 by ring]; exact hG
  have hZ' : r2 * a2 + r1 * a1 ≠ 0 := by rw [add_comm]; exact hZ
  have et : fin θ * (PyNum.pi : Fl) / 180 = fin (θ * (Real.pi / 180)) := by
    fl_eval []; exact congrArg fin (by ring)
  unfold AVO_ortho
  rw [et]
  generalize θ * (Real.pi / 180) = t at *
  fl_eval [fl_tan hθ]
  unfold threeTerm
  generalize Real.sin t = s at *
  generalize Real.tan t = u at *
  refine Prod.ext (congrArg fin ?_) (congrArg fin ?_)
  · rw [show r1 * b1 * b1 + r2 * b2 * b2 = r1 * b1 ^ 2 + r2 * b2 ^ 2 by ring, add_comm (r2 * a2)]
    field
  · rw [show r1 * b1 * b1 + r2 * b2 * b2 = r1 * b1 ^ 2 + r2 * b2 ^ 2 by ring, add_comm (r2 * a2)]
    field

/-- Vertical velocities and Tsvankin's parameters of a layer with density `D` and stiffness `C`. -/
noncomputable def vα (D : ℝ) (C : Mat6 ℝ) : ℝ := Real.sqrt (C 2 2 / D)
noncomputable def vβ (D : ℝ) (C : Mat6 ℝ) : ℝ := Real.sqrt (C 3 3 / D)
noncomputable def pγ (C : Mat6 ℝ) : ℝ := (C 3 3 - C 5 5) / (2 * C 5 5)
noncomputable def pε (C : Mat6 ℝ) : ℝ := (C 0 0 - C 2 2) / (2 * C 2 2)
noncomputable def pδ (C : Mat6 ℝ) : ℝ :=
  ((C 0 2 + C 4 4) ^ 2 - (C 2 2 - C 4 4) ^ 2) / (2 * C 2 2 * (C 2 2 - C 4 4))

/-- What is needed of a layer for the HTI reflectivity. -/
structure HtiLayer (D : ℝ) (C : Mat6 ℝ) : Prop where
  D : 0 < D
  c33 : 0 < C 2 2
  c44 : 0 < C 3 3
  c66 : C 5 5 ≠ 0
  c55 : C 4 4 ≠ C 2 2

theorem HtiLayer.vα_pos {D : ℝ} {C : Mat6 ℝ} (h : HtiLayer D C) : 0 < vα D C :=
  Real.sqrt_pos.mpr (div_pos h.c33 h.D)
theorem HtiLayer.vβ_pos {D : ℝ} {C : Mat6 ℝ} (h : HtiLayer D C) : 0 < vβ D C :=
  Real.sqrt_pos.mpr (div_pos h.c44 h.D)

/-- The real stiffness matrix as program values. -/
def finMat (C : Mat6 ℝ) : Mat6 Fl := fun i j => fin (C i j)

theorem hti_eval {D1 D2 θ φ : ℝ} {C1 C2 : Mat6 ℝ} (h1 : HtiLayer D1 C1) (h2 : HtiLayer D2 C2)
    (hθ : Real.cos (θ * (Real.pi / 180)) ≠ 0) :
    AVO_HTI_entry (fin D1) (fin D2) (finMat C1) (finMat C2) (fin θ) (fin φ)
      = fin (threeTerm ((D2 * vα D2 C2 - D1 * vα D1 C1) / (D1 * vα D1 C1 + D2 * vα D2 C2))
          ((vα D2 C2 - vα D1 C1) / (vα D1 C1 + vα D2 C2)
            - 4 * ((vβ D1 C1 + vβ D2 C2) / (vα D1 C1 + vα D2 C2)) ^ 2
              * ((D2 * vβ D2 C2 ^ 2 - D1 * vβ D1 C1 ^ 2) / (D1 * vβ D1 C1 ^ 2 + D2 * vβ D2 C2 ^ 2))
            + ((pδ C2 - pδ C1) / 2 + 4 * ((vβ D1 C1 + vβ D2 C2) / (vα D1 C1 + vα D2 C2)) ^ 2
              * (pγ C2 - pγ C1)) * Real.cos (φ * (Real.pi / 180)) ^ 2)
          ((vα D2 C2 - vα D1 C1) / (vα D1 C1 + vα D2 C2)
            + (pε C2 - pε C1) / 2 * Real.cos (φ * (Real.pi / 180)) ^ 4
            + (pδ C2 - pδ C1) / 2 * Real.sin (φ * (Real.pi / 180)) ^ 2
              * Real.cos (φ * (Real.pi / 180)) ^ 2) (θ * (Real.pi / 180))) := by
  have q : ∀ {D : ℝ} {C : Mat6 ℝ}, HtiLayer D C →
      PyNum.sqrt (fin (C 2 2) / fin D) = fin (vα D C) ∧
      PyNum.sqrt (fin (C 3 3) / fin D) = fin (vβ D C) ∧
      (fin (C 3 3) - fin (C 5 5)) / (2 * fin (C 5 5)) = fin (pγ C) ∧
      (fin (C 0 0) - fin (C 2 2)) / (2 * fin (C 2 2)) = fin (pε C) ∧
      ((fin (C 0 2) + fin (C 4 4)) ** 2 - (fin (C 2 2) - fin (C 4 4)) ** 2)
        / (2 * fin (C 2 2) * (fin (C 2 2) - fin (C 4 4))) = fin (pδ C) := by
    intro D C h
    obtain ⟨hD, c33, c44, c66, c55⟩ := h
    have n := sub_ne_zero.mpr c55.symm
    have p1 := (div_pos c33 hD).le
    have p2 := (div_pos c44 hD).le
    refine ⟨?_, ?_, ?_, ?_, ?_⟩
    · fl_eval []; rfl
    · fl_eval []; rfl
    · fl_eval []; rfl
    · fl_eval []; rfl
    · fl_eval []; rfl
  obtain ⟨q1, q2, q3, q4, q5⟩ := q h1
  obtain ⟨r1, r2, r3, r4, r5⟩ := q h2
  unfold AVO_HTI_entry finMat
  dsimp only
  rw [fl_deg2rad, fl_deg2rad, q1, q2, q3, q4, q5, r1, r2, r3, r4, r5]
  have a1 := h1.vα_pos
  have a2 := h2.vα_pos
  have b1 := h1.vβ_pos
  have b2 := h2.vβ_pos
  have d1 := h1.D
  have d2 := h2.D
  generalize vα D1 C1 = α1 at *
  generalize vα D2 C2 = α2 at *
  generalize vβ D1 C1 = β1 at *
  generalize vβ D2 C2 = β2 at *
  generalize pγ C1 = γ1 at *
  generalize pγ C2 = γ2 at *
  generalize pδ C1 = δ1 at *
  generalize pδ C2 = δ2 at *
  generalize pε C1 = ε1 at *
  generalize pε C2 = ε2 at *
  generalize θ * (Real.pi / 180) = t at *
  generalize φ * (Real.pi / 180) = f at *
  have n1 : 0 < α1 + α2 := by positivity
  have n2 : 0 < β1 + β2 := by positivity
  have n3 : 0 < D1 * α1 + D2 * α2 := by positivity
  have n4 : 0 < D1 * β1 ^ 2 + D2 * β2 ^ 2 := by positivity
  have n5 : (D1 * α1 + D2 * α2) / 2 ≠ 0 := by positivity
  have n6 : (D1 * β1 ^ 2 + D2 * β2 ^ 2) / 2 ≠ 0 := by positivity
  have n7 : (α1 + α2) / 2 ≠ 0 := by positivity
  fl_eval [fl_tan hθ]
  unfold threeTerm
  exact congrArg fin (by field)

end RockPhy.AVO

namespace RockPhy.Props

open Fl Spec AVO

/-- C48: `Aki_Richards` returns the textbook first-order P reflectivity (as first result), the
textbook converted reflectivity (second), and the intercept (third). -/
theorem C48_aki_richards {θ a1 a2 b1 b2 r1 r2 : ℝ} (ha1 : 0 < a1) (ha2 : 0 < a2) (hb1 : 0 < b1)
    (hb2 : 0 < b2) (hba : b1 < a1) (hr1 : 0 < r1) (hr2 : 0 < r2) (hθ0 : -90 < θ) (hθ1 : θ < 90) :
    ∃ g, Aki_Richards (fin θ) (fin a1) (fin a2) (fin b1) (fin b2) (fin r1) (fin r2)
      = (fin (akiRichards ((a1 + a2) / 2) ((b1 + b2) / 2) ((r1 + r2) / 2) (a2 - a1) (b2 - b1)
          (r2 - r1) (θ * (Real.pi / 180))),
        fin (akiRichardsPS ((a1 + a2) / 2) ((b1 + b2) / 2) ((r1 + r2) / 2) (b2 - b1)
          (r2 - r1) (Real.sin (θ * (Real.pi / 180)) / a1) (Real.cos (θ * (Real.pi / 180)))
          (Real.cos (Real.arcsin (Real.sin (θ * (Real.pi / 180)) / a1 * b1)))),
        fin (akiRichards ((a1 + a2) / 2) ((b1 + b2) / 2) ((r1 + r2) / 2) (a2 - a1) (b2 - b1)
          (r2 - r1) 0),
        fin g) := by
  have n1 : a1 + a2 ≠ 0 := by positivity
  have n2 : b1 + b2 ≠ 0 := by positivity
  have n3 : r1 + r2 ≠ 0 := by positivity
  obtain ⟨e1, e2, e3⟩ := ar_eval n1 n2 n3 (cos_deg_pos hθ0 hθ1).ne'
  have hs : |Real.sin (θ * (Real.pi / 180)) / a1 * b1| < 1 := by
    have := Real.abs_sin_le_one (θ * (Real.pi / 180))
    rw [abs_mul, abs_div, abs_of_pos ha1, abs_of_pos hb1, div_mul_eq_mul_div, div_lt_one ha1]
    nlinarith
  have e4 := ar_ps_eval ha1.ne' n1 n2 n3 hs
  refine ⟨_, Prod.ext e1 (Prod.ext e4 (Prod.ext (e2.trans (congrArg fin ?_)) e3))⟩
  unfold akiRichards
  rw [Real.sin_zero, Real.cos_zero]
  field

example : ∃ g x y z, Aki_Richards (fin 30) (fin 3) (fin 4) (fin 1.5) (fin 2) (fin 2.2) (fin 2.4)
    = (fin x, fin y, fin z, fin g) :=
  have ⟨g, h⟩ := C48_aki_richards (θ := 30) (a1 := 3) (a2 := 4) (b1 := 1.5) (b2 := 2) (r1 := 2.2)
    (r2 := 2.4) (by norm_num) (by norm_num) (by norm_num) (by norm_num) (by norm_num) (by norm_num)
    (by norm_num) (by norm_num) (by norm_num)
  ⟨g, _, _, _, h⟩

/-- C48: nothing is reflected at an interface between equal media. -/
theorem C48_aki_richards_zero {θ a b r : ℝ} (ha : 0 < a) (hb : 0 < b) (hba : b < a) (hr : 0 < r)
    (hθ0 : -90 < θ) (hθ1 : θ < 90) :
    Aki_Richards (fin θ) (fin a) (fin a) (fin b) (fin b) (fin r) (fin r)
      = (fin 0, fin 0, fin 0, fin 0) := by
  obtain ⟨g, h⟩ := C48_aki_richards ha ha hb hb hba hr hr hθ0 hθ1
  have n1 : a + a ≠ 0 := by positivity
  have n2 : b + b ≠ 0 := by positivity
  have n3 : r + r ≠ 0 := by positivity
  obtain ⟨-, -, e3⟩ := ar_eval n1 n2 n3 (cos_deg_pos hθ0 hθ1).ne'
  rw [h] at e3 ⊢
  dsimp only at e3
  rw [e3]
  unfold akiRichards akiRichardsPS
  simp only [sub_self, zero_div, mul_zero, add_zero]

example : Aki_Richards (fin 30) (fin 4) (fin 4) (fin 2) (fin 2) (fin 2.5) (fin 2.5)
    = (fin 0, fin 0, fin 0, fin 0) :=
  C48_aki_richards_zero (by norm_num) (by norm_num) (by norm_num) (by norm_num) (by norm_num)
    (by norm_num)

/-- C48: seen from the other side, the P reflectivity, the intercept and the gradient change
sign. -/
theorem C48_aki_richards_antisymm {θ a1 a2 b1 b2 r1 r2 : ℝ} (ha : a1 + a2 ≠ 0) (hb : b1 + b2 ≠ 0)
    (hr : r1 + r2 ≠ 0) (hθ0 : -90 < θ) (hθ1 : θ < 90) :
    let down := Aki_Richards (fin θ) (fin a1) (fin a2) (fin b1) (fin b2) (fin r1) (fin r2)
    let up := Aki_Richards (fin θ) (fin a2) (fin a1) (fin b2) (fin b1) (fin r2) (fin r1)
    IsFin down.1 ∧ up.1 = -down.1 ∧ up.2.2.1 = -down.2.2.1 ∧ up.2.2.2 = -down.2.2.2 := by
  dsimp only
  obtain ⟨e1, e2, e3⟩ := ar_eval ha hb hr (cos_deg_pos hθ0 hθ1).ne'
  obtain ⟨f1, f2, f3⟩ := ar_eval (a1 := a2) (a2 := a1) (b1 := b2) (b2 := b1) (r1 := r2) (r2 := r1)
    (by rwa [add_comm]) (by rwa [add_comm]) (by rwa [add_comm]) (cos_deg_pos hθ0 hθ1).ne'
  rw [e1, e2, e3, f1, f2, f3, fl_neg, fl_neg, fl_neg]
  refine ⟨⟨_, rfl⟩, congrArg fin ?_, congrArg fin ?_, congrArg fin ?_⟩
  · unfold akiRichards
    rw [add_comm a2, add_comm b2, add_comm r2]
    ring
  · rw [add_comm a2, add_comm r2]; ring
  · rw [add_comm a2, add_comm b2, add_comm r2]; ring

example : (Aki_Richards (fin 30) (fin 4) (fin 3) (fin 2) (fin 1.5) (fin 2.4) (fin 2.2)).1
    = -(Aki_Richards (fin 30) (fin 3) (fin 4) (fin 1.5) (fin 2) (fin 2.2) (fin 2.4)).1 :=
  (C48_aki_richards_antisymm (by norm_num) (by norm_num) (by norm_num) (by norm_num)
    (by norm_num)).2.1

/-- C48: `AVO_abe` without contrast: intercept, second gradient and both converted coefficients
are zero. -/
theorem C48_abe_zero {a b r : ℝ} (ha : a ≠ 0) (hb : b ≠ 0) (hr : r ≠ 0) :
    (AVO_abe (fin a) (fin b) (fin r) (fin a) (fin b) (fin r)).1 = fin 0 ∧
      (AVO_abe (fin a) (fin b) (fin r) (fin a) (fin b) (fin r)).2.2 = (fin 0, fin 0, fin 0) := by
  have n1 : a + a ≠ 0 := by rw [← two_mul]; positivity
  have n2 : b + b ≠ 0 := by rw [← two_mul]; positivity
  have n3 : r + r ≠ 0 := by rw [← two_mul]; positivity
  obtain ⟨e1, e2, e3, e4⟩ := abe_eval n1 n2 n3 ha
  refine ⟨e1.trans (congrArg fin (by simp)), Prod.ext (e2.trans (congrArg fin (by simp)))
    (Prod.ext (e3.trans (congrArg fin (by simp))) (e4.trans (congrArg fin (by simp))))⟩

/-- C48 (violation): the first gradient of `AVO_abe` is not zero but undefined (0/0) without
contrast, and more generally whenever the intercept vanishes. -/
theorem C48_abe_first_gradient {a1 a2 b1 b2 r1 r2 : ℝ} (ha : a1 + a2 ≠ 0) (hr : r1 + r2 ≠ 0)
    (h0 : (r2 - r1) / (r1 + r2) + (a2 - a1) / (a1 + a2) = 0) :
    (AVO_abe (fin a1) (fin b1) (fin r1) (fin a2) (fin b2) (fin r2)).2.1 = bad := by
  have e : fin (a2 - a1) / fin ((a1 + a2) / 2) + fin (r2 - r1) / fin ((r1 + r2) / 2) = fin 0 := by
    fl_eval []
    have h2 : (a2 - a1) / ((a1 + a2) / 2) + (r2 - r1) / ((r1 + r2) / 2)
        = 2 * ((r2 - r1) / (r1 + r2) + (a2 - a1) / (a1 + a2)) := by field
    rw [h2, h0, mul_zero]
  have f1 : (fin a1 + fin a2) / 2 = fin ((a1 + a2) / 2) := by fl_eval []
  have f2 : (fin r1 + fin r2) / 2 = fin ((r1 + r2) / 2) := by fl_eval []
  unfold AVO_abe
  dsimp only
  rw [f1, f2, fl_sub, fl_sub, e, fl_div_zero]
  simp only [fl]

example : (AVO_abe (fin 4) (fin 2) (fin 2.5) (fin 4) (fin 2) (fin 2.5)).2.1 = bad :=
  C48_abe_first_gradient (by norm_num) (by norm_num) (by norm_num)

/-- C48: `AVO_ortho` without contrast returns zero in both planes. -/
theorem C48_ortho_zero {a b e1 d1 e2 d2 g r θ : ℝ} (ha : 0 < a) (hb : 0 < b) (hr : 0 < r)
    (hθ0 : -90 < θ) (hθ1 : θ < 90) :
    AVO_ortho (fin a) (fin b) (fin e1) (fin d1) (fin e2) (fin d2) (fin g) (fin r) (fin a)
      (fin b) (fin e1) (fin d1) (fin e2) (fin d2) (fin g) (fin r) (fin θ) = (fin 0, fin 0) := by
  rw [ortho_eval (by positivity) (by positivity) (by positivity) (cos_deg_pos hθ0 hθ1).ne']
  unfold threeTerm
  simp only [sub_self, zero_div, mul_zero, add_zero, zero_mul]

example : AVO_ortho (fin 4) (fin 2) (fin 0.1) (fin 0.05) (fin 0.1) (fin 0.2) (fin 0.1) (fin 2.5)
    (fin 4) (fin 2) (fin 0.1) (fin 0.05) (fin 0.1) (fin 0.2) (fin 0.1) (fin 2.5) (fin 30)
    = (fin 0, fin 0) :=
  C48_ortho_zero (by norm_num) (by norm_num) (by norm_num) (by norm_num) (by norm_num)

/-- C48: exchanging the layers changes the sign of both results of `AVO_ortho`. -/
theorem C48_ortho_antisymm {a1 b1 e11 d11 e12 d12 g1 r1 a2 b2 e21 d21 e22 d22 g2 r2 θ : ℝ}
    (ha1 : 0 < a1) (hb1 : 0 < b1) (hr1 : 0 < r1) (ha2 : 0 < a2) (hb2 : 0 < b2) (hr2 : 0 < r2)
    (hθ0 : -90 < θ) (hθ1 : θ < 90) :
    ∃ x y, AVO_ortho (fin a1) (fin b1) (fin e11) (fin d11) (fin e12) (fin d12) (fin g1) (fin r1)
        (fin a2) (fin b2) (fin e21) (fin d21) (fin e22) (fin d22) (fin g2) (fin r2) (fin θ)
        = (fin x, fin y) ∧
      AVO_ortho (fin a2) (fin b2) (fin e21) (fin d21) (fin e22) (fin d22) (fin g2) (fin r2)
        (fin a1) (fin b1) (fin e11) (fin d11) (fin e12) (fin d12) (fin g1) (fin r1) (fin θ)
        = (fin (-x), fin (-y)) := by
  have c := (cos_deg_pos hθ0 hθ1).ne'
  refine ⟨_, _, ortho_eval (by positivity) (by positivity) (by positivity) c, ?_⟩
  rw [ortho_eval (by positivity) (by positivity) (by positivity) c]
  unfold threeTerm
  rw [add_comm a2, add_comm b2, add_comm (r2 * a2), add_comm (r2 * b2 ^ 2)]
  refine Prod.ext (congrArg fin ?_) (congrArg fin ?_)
  · ring
  · ring

/-- C48: an HTI layer over the same layer does not reflect, at any angle and azimuth. -/
theorem C48_hti_zero {D θ φ : ℝ} {C : Mat6 ℝ} (h : HtiLayer D C) (hθ0 : -90 < θ) (hθ1 : θ < 90) :
    AVO_HTI_entry (fin D) (fin D) (finMat C) (finMat C) (fin θ) (fin φ) = fin 0 := by
  rw [hti_eval h h (cos_deg_pos hθ0 hθ1).ne']
  unfold threeTerm
  simp only [sub_self, zero_div, mul_zero, add_zero, zero_mul]

/-- C48: exchanging the layers changes the sign of the HTI reflectivity. -/
theorem C48_hti_antisymm {D1 D2 θ φ : ℝ} {C1 C2 : Mat6 ℝ} (h1 : HtiLayer D1 C1)
    (h2 : HtiLayer D2 C2) (hθ0 : -90 < θ) (hθ1 : θ < 90) :
    ∃ x, AVO_HTI_entry (fin D1) (fin D2) (finMat C1) (finMat C2) (fin θ) (fin φ) = fin x ∧
      AVO_HTI_entry (fin D2) (fin D1) (finMat C2) (finMat C1) (fin θ) (fin φ) = fin (-x) := by
  have c := (cos_deg_pos hθ0 hθ1).ne'
  refine ⟨_, hti_eval h1 h2 c, ?_⟩
  rw [hti_eval h2 h1 c]
  unfold threeTerm
  rw [add_comm (vα D2 C2), add_comm (vβ D2 C2), add_comm (D2 * vα D2 C2),
    add_comm (D2 * vβ D2 C2 ^ 2)]
  exact congrArg fin (by ring)

/-- A horizontally layered shale-like medium and an isotropic one, for the examples. -/
def htiEx1 : Mat6 ℝ := ![![20, 8, 8, 0, 0, 0], ![8, 24, 10, 0, 0, 0], ![8, 10, 24, 0, 0, 0],
  ![0, 0, 0, 7, 0, 0], ![0, 0, 0, 0, 6, 0], ![0, 0, 0, 0, 0, 6]]
def htiEx2 : Mat6 ℝ := ![![30, 10, 10, 0, 0, 0], ![10, 30, 10, 0, 0, 0], ![10, 10, 30, 0, 0, 0],
  ![0, 0, 0, 10, 0, 0], ![0, 0, 0, 0, 10, 0], ![0, 0, 0, 0, 0, 10]]

theorem htiEx1_layer : HtiLayer 2.3 htiEx1 := by
  have e0 : htiEx1 2 2 = 24 := rfl
  have e1 : htiEx1 3 3 = 7 := rfl
  have e2 : htiEx1 5 5 = 6 := rfl
  have e3 : htiEx1 4 4 = 6 := rfl
  refine ⟨by norm_num, ?_, ?_, ?_, ?_⟩ <;> simp only [e0, e1, e2, e3] <;> norm_num

theorem htiEx2_layer : HtiLayer 2.4 htiEx2 := by
  have e0 : htiEx2 2 2 = 30 := rfl
  have e1 : htiEx2 3 3 = 10 := rfl
  have e2 : htiEx2 5 5 = 10 := rfl
  have e3 : htiEx2 4 4 = 10 := rfl
  refine ⟨by norm_num, ?_, ?_, ?_, ?_⟩ <;> simp only [e0, e1, e2, e3] <;> norm_num

example : ∃ x, AVO_HTI_entry (fin 2.3) (fin 2.4) (finMat htiEx1) (finMat htiEx2) (fin 30) (fin 20)
      = fin x ∧
    AVO_HTI_entry (fin 2.4) (fin 2.3) (finMat htiEx2) (finMat htiEx1) (fin 30) (fin 20)
      = fin (-x) :=
  C48_hti_antisymm htiEx1_layer htiEx2_layer (by norm_num) (by norm_num)

example : AVO_HTI_entry (fin 2.3) (fin 2.3) (finMat htiEx1) (finMat htiEx1) (fin 30) (fin 20)
    = fin 0 := C48_hti_zero htiEx1_layer (by norm_num) (by norm_num)

/-- C49: intercept and gradient of `Aki_Richards` are the first and third result of `AVO_abe`. -/
theorem C49_agree {θ a1 a2 b1 b2 r1 r2 : ℝ} (ha1 : a1 ≠ 0) (ha : a1 + a2 ≠ 0) (hb : b1 + b2 ≠ 0)
    (hr : r1 + r2 ≠ 0) (hθ0 : -90 < θ) (hθ1 : θ < 90) :
    let ar := Aki_Richards (fin θ) (fin a1) (fin a2) (fin b1) (fin b2) (fin r1) (fin r2)
    let abe := AVO_abe (fin a1) (fin b1) (fin r1) (fin a2) (fin b2) (fin r2)
    IsFin abe.1 ∧ IsFin abe.2.2.1 ∧ ar.2.2.1 = abe.1 ∧ ar.2.2.2 = abe.2.2.1 := by
  dsimp only
  obtain ⟨-, e2, e3⟩ := ar_eval ha hb hr (cos_deg_pos hθ0 hθ1).ne'
  obtain ⟨f1, f2, -, -⟩ := abe_eval ha hb hr ha1
  rw [e2, e3, f1, f2]
  exact ⟨⟨_, rfl⟩, ⟨_, rfl⟩, rfl, rfl⟩

example : (Aki_Richards (fin 30) (fin 3) (fin 4) (fin 1.5) (fin 2) (fin 2.2) (fin 2.4)).2.2.2
    = (AVO_abe (fin 3) (fin 1.5) (fin 2.2) (fin 4) (fin 2) (fin 2.4)).2.2.1 :=
  (C49_agree (by norm_num) (by norm_num) (by norm_num) (by norm_num) (by norm_num)
    (by norm_num)).2.2.2

/-- C49: the P reflectivity is `intercept + gradient sin² θ + (Δα/2α) sin² θ tan² θ` with the
returned intercept and gradient. -/
theorem C49_three_terms {θ a1 a2 b1 b2 r1 r2 : ℝ} (ha : a1 + a2 ≠ 0) (hb : b1 + b2 ≠ 0)
    (hr : r1 + r2 ≠ 0) (hθ0 : -90 < θ) (hθ1 : θ < 90) :
    ∃ R A B, (Aki_Richards (fin θ) (fin a1) (fin a2) (fin b1) (fin b2) (fin r1) (fin r2)).1 = fin R ∧
      (Aki_Richards (fin θ) (fin a1) (fin a2) (fin b1) (fin b2) (fin r1) (fin r2)).2.2
        = (fin A, fin B) ∧
      R = threeTerm A B ((a2 - a1) / (a1 + a2)) (θ * (Real.pi / 180)) := by
  have c := (cos_deg_pos hθ0 hθ1).ne'
  obtain ⟨e1, e2, e3⟩ := ar_eval ha hb hr c
  refine ⟨_, _, _, e1, Prod.ext e2 e3, ?_⟩
  unfold akiRichards threeTerm
  rw [Real.tan_eq_sin_div_cos]
  generalize θ * (Real.pi / 180) = t at *
  have h : Real.sin t ^ 2 * (Real.sin t / Real.cos t) ^ 2
      = 1 / Real.cos t ^ 2 - 1 - Real.sin t ^ 2 := by
    have : Real.cos t ^ 2 = 1 - Real.sin t ^ 2 := Real.cos_sq' t
    have s : Real.sin t ^ 2 = 1 - Real.cos t ^ 2 := Real.sin_sq t
    rw [div_pow, s]; field
  rw [mul_assoc _ (Real.sin t ^ 2) ((Real.sin t / Real.cos t) ^ 2), h]
  field

example : ∃ R A B, (Aki_Richards (fin 30) (fin 3) (fin 4) (fin 1.5) (fin 2) (fin 2.2) (fin 2.4)).1
      = fin R ∧
    (Aki_Richards (fin 30) (fin 3) (fin 4) (fin 1.5) (fin 2) (fin 2.2) (fin 2.4)).2.2
      = (fin A, fin B) ∧ R = threeTerm A B ((4 - 3) / (3 + 4)) (30 * (Real.pi / 180)) :=
  C49_three_terms (by norm_num) (by norm_num) (by norm_num) (by norm_num) (by norm_num)

theorem ei_pp_eval {ip is mp ms mr a b r S θ : ℝ} (norm : Bool) (hmp : 0 < mp) (hms : 0 < ms)
    (hmr : 0 < mr) (ha : 0 < a) (hb : 0 < b) (hr : 0 < r)
    (hθ : Real.cos (θ * (Real.pi / 180)) ≠ 0) :
    (EI_ref_entry (fin ip) (fin is) (fin mp) (fin ms) (fin mr) norm (fin a) (fin b)
        (fin r) (fin θ) (fin S)).1
      = fin (ip * elasticImpedance S (θ * (Real.pi / 180)) (if norm then a / mp else a)
          (if norm then b / ms else b) (if norm then r / mr else r)) := by
  unfold EI_ref_entry elasticImpedance
  dsimp only
  rw [fl_deg2rad]
  generalize θ * (Real.pi / 180) = t at *
  have e : 1 + Real.tan t ^ 2 = 1 / Real.cos t ^ 2 := by
    rw [Real.tan_eq_sin_div_cos, div_pow, Real.sin_sq]; field
  have hbm : 0 < b / ms := by positivity
  have ham : 0 < a / mp := by positivity
  have hrm : 0 < r / mr := by positivity
  cases norm
  · simp only [Bool.false_eq_true, if_false]
    fl_eval [fl_tan hθ]
    rw [e]; exact congrArg fin (by ring)
  · simp only [if_true]
    fl_eval [fl_tan hθ]
    rw [e]; exact congrArg fin (by ring)

/-- What `EI_ref_entry` returns at normal incidence, with `a`, `b`, `r` the possibly normalised
sample. -/
theorem ei_normal {ip is mp ms mr a b r S : ℝ} (norm : Bool) (hmp : 0 < mp) (hms : 0 < ms)
    (hmr : 0 < mr) (ha : 0 < a) (hb : 0 < b) (hr : 0 < r) (hS : S ≠ 0) :
    EI_ref_entry (fin ip) (fin is) (fin mp) (fin ms) (fin mr) norm (fin a) (fin b)
        (fin r) (fin 0) (fin S)
      = (fin (ip * (if norm then a / mp else a) * (if norm then r / mr else r)), fin ip, fin is,
        fin (is / ((if norm then b / ms else b) * (if norm then r / mr else r))),
        fin (is / ((if norm then b / ms else b) * (if norm then r / mr else r)))) := by
  have z : deg2rad (fin 0) = fin 0 := by rw [fl_deg2rad, zero_mul]
  have hbm : 0 < b / ms := by positivity
  have ham : 0 < a / mp := by positivity
  have hrm : 0 < r / mr := by positivity
  have s4 : S ^ 2 ≠ 0 := by positivity
  have as : PyNum.arcsin (fin 0) = fin 0 := by
    rw [fl_arcsin (by norm_num), Real.arcsin_zero]
  have tn : PyNum.tan (fin 0) = fin 0 := by rw [fl_tan (by simp), Real.tan_zero]
  have sn : PyNum.sin (fin 0) = fin 0 := by rw [fl_sin, Real.sin_zero]
  have cn : PyNum.cos (fin 0) = fin 1 := by rw [fl_cos, Real.cos_zero]
  have p0 : fin 0 / fin a = fin 0 := by rw [fl_div ha.ne', zero_div]
  have p1 : fin 0 * fin b = fin 0 := by rw [fl_mul, zero_mul]
  have q1 : PyNum.sqrt (1 - fin S ** 2 * fin 0 ** 2) = fin 1 := by
    have : (0 : ℝ) ≤ 1 - S ^ 2 * 0 ^ 2 := by norm_num
    fl_eval []; norm_num
  have q2 : PyNum.sqrt (1 - 1 / fin S ** 2 * fin 0 ** 2) = fin 1 := by
    have : (0 : ℝ) ≤ 1 - 1 / S ^ 2 * 0 ^ 2 := by norm_num
    fl_eval []; norm_num
  have key : ∀ {a b r : ℝ}, 0 < a → 0 < b → 0 < r →
      (fin ip * fin a **. (1 + fin 0 ** 2) * fin b **. (-8 * fin S ** 2 * fin 0 ** 2)
          * fin r **. (1 - 4 * fin S ** 2 * fin 0 ** 2),
        fin ip * fin b **. (fin 0 / fin 1 * (4 * fin 0 ** 2 * fin S ** 2 - 4 * fin S * fin 1 * fin 1))
          * fin r **. (-(fin 0) / fin 1
            * (1 - 2 * fin 0 ** 2 * fin S ** 2 + 2 * fin S * fin 1 * fin 1)),
        fin is * fin b **. (fin 0 / fin 1 * (4 * fin 0 ** 2 - 4 * fin S * fin 1 * fin 1))
          * fin r **. (-(fin 0) / fin 1 * (1 - 2 * fin 0 ** 2 + 2 * fin S * fin 1 * fin 1)),
        fin is * fin b **. (-1 / fin 1 ** 2 + 8 * fin 0 ** 2) * fin r **. (-1 + 4 * fin 0 ** 2),
        fin is * fin b **. (-1 + fin 0 ** 2) * PyNum.inv (fin r))
      = (fin (ip * a * r), fin ip, fin is, fin (is / (b * r)), fin (is / (b * r))) := by
    intro a b r ha hb hr
    have c1 : (1 : ℝ) ^ 2 ≠ 0 := by norm_num
    have c2 : (1 : ℝ) ≠ 0 := one_ne_zero
    fl_eval []
    refine Prod.ext (congrArg fin ?_) (Prod.ext (congrArg fin ?_) (Prod.ext (congrArg fin ?_)
      (Prod.ext (congrArg fin ?_) (congrArg fin ?_))))
    · norm_num
    · norm_num
    · norm_num
    · norm_num [Real.rpow_neg_one]; field
    · norm_num [Real.rpow_neg_one]; field
  unfold EI_ref_entry
  dsimp only
  rw [z, sn, p0, p1, as, tn, sn, cn, q1, q2]
  cases norm
  · simp only [Bool.false_eq_true, if_false]
    exact key ha hb hr
  · simp only [if_true]
    rw [fl_div hmp.ne', fl_div hms.ne', fl_div hmr.ne']
    exact key ham hbm hrm

theorem mean_eval {l : List ℝ} (h : l ≠ []) (hp : ∀ x ∈ l, 0 < x) :
    ∃ m, 0 < m ∧ mean (l.map fin) = fin m := by
  have hl : 0 < (l.length : ℝ) := by
    have := List.length_pos_iff.mpr h; exact_mod_cast this
  have hs : 0 < l.sum := List.sum_pos l hp h
  refine ⟨l.sum / l.length, by positivity, ?_⟩
  unfold mean
  rw [lsum_map_fin, List.length_map]
  exact fl_div hl.ne'

/-- The samples of three logs taken together. -/
def samples (Vp Vs rho : List ℝ) : List (ℝ × ℝ × ℝ) := Vp.zip (Vs.zip rho)

theorem samples_pos {Vp Vs rho : List ℝ} (h1 : ∀ x ∈ Vp, 0 < x) (h2 : ∀ x ∈ Vs, 0 < x)
    (h3 : ∀ x ∈ rho, 0 < x) : ∀ s ∈ samples Vp Vs rho, 0 < s.1 ∧ 0 < s.2.1 ∧ 0 < s.2.2 := by
  rintro ⟨a, b, r⟩ hs
  have q := List.of_mem_zip hs
  have q' := List.of_mem_zip q.2
  exact ⟨h1 _ q.1, h2 _ q'.1, h3 _ q'.2⟩

theorem ei_ref_map {Vp Vs rho : List ℝ} {θ S : ℝ} {norm : Bool} :
    EI_ref (Vp.map fin) (Vs.map fin) (rho.map fin) (fin θ) (fin S) norm
      = (samples Vp Vs rho).map fun s =>
        EI_ref_entry (if norm then mean (Vp.map fin) * mean (rho.map fin) else 1)
          (if norm then mean (Vs.map fin) * mean (rho.map fin) else 1) (mean (Vp.map fin))
          (mean (Vs.map fin)) (mean (rho.map fin)) norm (fin s.1) (fin s.2.1) (fin s.2.2) (fin θ)
          (fin S) := by
  unfold EI_ref samples
  rw [List.zip_map, List.zip_map, List.map_map]
  rfl

/-- C51: at normal incidence the PP elastic impedance of every log sample is its acoustic
impedance, whether or not the logs are normalised; the converted impedances are constant along the
log, and the shear ones fall with the shear impedance. -/
theorem C51_normal_incidence {Vp Vs rho : List ℝ} {S : ℝ} (n1 : Vp ≠ []) (n2 : Vs ≠ [])
    (n3 : rho ≠ []) (h1 : ∀ x ∈ Vp, 0 < x) (h2 : ∀ x ∈ Vs, 0 < x) (h3 : ∀ x ∈ rho, 0 < x)
    (hS : S ≠ 0) (norm : Bool) :
    ∃ cp cs k, 0 < cp ∧ 0 < cs ∧ 0 < k ∧
      EI_ref (Vp.map fin) (Vs.map fin) (rho.map fin) (fin 0) (fin S) norm
        = (samples Vp Vs rho).map fun s =>
          (fin (s.1 * s.2.2), fin cp, fin cs, fin (k / (s.2.1 * s.2.2)),
            fin (k / (s.2.1 * s.2.2))) := by
  obtain ⟨mp, hmp, ep⟩ := mean_eval n1 h1
  obtain ⟨ms, hms, es⟩ := mean_eval n2 h2
  obtain ⟨mr, hmr, er⟩ := mean_eval n3 h3
  rw [ei_ref_map, ep, es, er]
  cases norm
  · refine ⟨1, 1, 1, one_pos, one_pos, one_pos, List.map_congr_left ?_⟩
    intro s hs
    obtain ⟨p1, p2, p3⟩ := samples_pos h1 h2 h3 s hs
    simp only [Bool.false_eq_true, if_false, fl_one]
    rw [ei_normal false hmp hms hmr p1 p2 p3 hS]
    simp only [Bool.false_eq_true, if_false, one_mul]
  · refine ⟨mp * mr, ms * mr, (ms * mr) ^ 2, by positivity, by positivity, by positivity,
      List.map_congr_left ?_⟩
    intro s hs
    obtain ⟨p1, p2, p3⟩ := samples_pos h1 h2 h3 s hs
    simp only [if_true, fl_mul]
    rw [ei_normal true hmp hms hmr p1 p2 p3 hS]
    simp only [if_true]
    have e1 : mp * mr * (s.1 / mp) * (s.2.2 / mr) = s.1 * s.2.2 := by field
    have e2 : ms * mr / (s.2.1 / ms * (s.2.2 / mr)) = (ms * mr) ^ 2 / (s.2.1 * s.2.2) := by field
    rw [e1, e2]

example : ∃ cp cs k, 0 < cp ∧ 0 < cs ∧ 0 < k ∧
    EI_ref ([3, 4].map fin) ([1.5, 2].map fin) ([2.2, 2.4].map fin) (fin 0) (fin 0.5) true
      = [(fin (3 * 2.2), fin cp, fin cs, fin (k / (1.5 * 2.2)), fin (k / (1.5 * 2.2))),
        (fin (4 * 2.4), fin cp, fin cs, fin (k / (2 * 2.4)), fin (k / (2 * 2.4)))] :=
  C51_normal_incidence (Vp := [3, 4]) (Vs := [1.5, 2]) (rho := [2.2, 2.4]) (by simp) (by simp)
    (by simp) (by simp) (by simp; norm_num) (by simp; norm_num) (by norm_num) true

/-- C51: at every angle the PP elastic impedance of the log is Connolly's elastic impedance times
one constant that does not depend on the sample (and is one without normalisation). -/
theorem C51_impedance {Vp Vs rho : List ℝ} {S θ : ℝ} (n1 : Vp ≠ []) (n2 : Vs ≠ [])
    (n3 : rho ≠ []) (h1 : ∀ x ∈ Vp, 0 < x) (h2 : ∀ x ∈ Vs, 0 < x) (h3 : ∀ x ∈ rho, 0 < x)
    (hθ0 : -90 < θ) (hθ1 : θ < 90) (norm : Bool) :
    ∃ k, 0 < k ∧ (norm = false → k = 1) ∧
      (EI_ref (Vp.map fin) (Vs.map fin) (rho.map fin) (fin θ) (fin S) norm).map Prod.fst
        = (samples Vp Vs rho).map fun s =>
          fin (k * elasticImpedance S (θ * (Real.pi / 180)) s.1 s.2.1 s.2.2) := by
  have c := (cos_deg_pos hθ0 hθ1).ne'
  obtain ⟨mp, hmp, ep⟩ := mean_eval n1 h1
  obtain ⟨ms, hms, es⟩ := mean_eval n2 h2
  obtain ⟨mr, hmr, er⟩ := mean_eval n3 h3
  rw [ei_ref_map, ep, es, er, List.map_map]
  cases norm
  · refine ⟨1, one_pos, fun _ => rfl, List.map_congr_left ?_⟩
    intro s hs
    obtain ⟨p1, p2, p3⟩ := samples_pos h1 h2 h3 s hs
    rw [Function.comp]
    simp only [Bool.false_eq_true, if_false, fl_one]
    rw [ei_pp_eval false hmp hms hmr p1 p2 p3 c]
    simp only [Bool.false_eq_true, if_false]
  · have epos : 0 < elasticImpedance S (θ * (Real.pi / 180)) mp ms mr := by
      unfold elasticImpedance; positivity
    refine ⟨mp * mr / elasticImpedance S (θ * (Real.pi / 180)) mp ms mr, by positivity,
      fun h => absurd h (by simp), List.map_congr_left ?_⟩
    intro s hs
    obtain ⟨p1, p2, p3⟩ := samples_pos h1 h2 h3 s hs
    rw [Function.comp]
    simp only [if_true, fl_mul]
    rw [ei_pp_eval true hmp hms hmr p1 p2 p3 c]
    simp only [if_true]
    refine congrArg fin ?_
    unfold elasticImpedance at *
    rw [Real.div_rpow p1.le hmp.le, Real.div_rpow p2.le hms.le, Real.div_rpow p3.le hmr.le]
    have q1 : 0 < mp ^ (1 / Real.cos (θ * (Real.pi / 180)) ^ 2) := by positivity
    have q2 : 0 < ms ^ (-8 * S ^ 2 * Real.sin (θ * (Real.pi / 180)) ^ 2) := by positivity
    have q3 : 0 < mr ^ (1 - 4 * S ^ 2 * Real.sin (θ * (Real.pi / 180)) ^ 2) := by positivity
    field

/-- C51: elastic impedance plays the role of acoustic impedance: the logarithmic change of the
elastic impedance of a sample is twice the Aki-Richards reflectivity when relative changes are
logarithmic changes. -/
theorem C51_reflectivity {S θ a r b da db dr : ℝ} (ha : 0 < a) (hb : 0 < b) (hr : 0 < r)
    (hS : S = b / a) :
    HasDerivAt (fun t => 1 / 2 * Real.log (elasticImpedance S θ (a * Real.exp (t * (da / a)))
        (b * Real.exp (t * (db / b))) (r * Real.exp (t * (dr / r)))))
      (akiRichards a b r da db dr θ) 0 := by
  have e : (fun t => 1 / 2 * Real.log (elasticImpedance S θ (a * Real.exp (t * (da / a)))
        (b * Real.exp (t * (db / b))) (r * Real.exp (t * (dr / r)))))
      = fun t => 1 / 2 * Real.log (elasticImpedance S θ a b r) + akiRichards a b r da db dr θ * t := by
    funext t
    unfold elasticImpedance akiRichards
    have L : ∀ {x y : ℝ} (u : ℝ), 0 < x → Real.log ((x * Real.exp u) ^ y)
        = y * Real.log x + y * u := by
      intro x y u hx
      rw [Real.log_rpow (by positivity), Real.log_mul hx.ne' (Real.exp_ne_zero _), Real.log_exp]
      ring
    rw [Real.log_mul (by positivity) (by positivity), Real.log_mul (by positivity) (by positivity),
      Real.log_mul (by positivity) (by positivity), Real.log_mul (by positivity) (by positivity),
      L _ ha, L _ hb, L _ hr, Real.log_rpow ha, Real.log_rpow hb, Real.log_rpow hr, hS]
    rw [show 1 / (2 * Real.cos θ ^ 2) = 1 / 2 * (1 / Real.cos θ ^ 2) by ring]
    generalize 1 / Real.cos θ ^ 2 = c
    field
  rw [e]
  simpa using ((hasDerivAt_id (0 : ℝ)).const_mul (akiRichards a b r da db dr θ)).const_add
    (1 / 2 * Real.log (elasticImpedance S θ a b r))

/-- C52: the table returned by `AVO_HTI` has one row per azimuth and one column per incidence
angle, and each cell only depends on its two angles. -/
theorem C52_mesh {D1 D2 : Fl} {C1 C2 : Mat6 Fl} (theta azimuth : List Fl) :
    (AVO_HTI D1 D2 C1 C2 theta azimuth).length = azimuth.length ∧
      ∀ (j : ℕ) (az : Fl), azimuth[j]? = some az → ∃ row : List Fl,
        (AVO_HTI D1 D2 C1 C2 theta azimuth)[j]? = some row ∧
        row.length = theta.length ∧
        ∀ (i : ℕ) (th : Fl), theta[i]? = some th → row[i]? = some (AVO_HTI_entry D1 D2 C1 C2 th az) := by
  unfold AVO_HTI
  refine ⟨List.length_map _, fun j az hj => ⟨theta.map fun th => AVO_HTI_entry D1 D2 C1 C2 th az,
    by rw [List.getElem?_map, hj]; rfl, List.length_map _,
    fun i th hi => by rw [List.getElem?_map, hi]; rfl⟩⟩

/-- C52: each entry of `AVO_HTI` is Rüger's reflectivity of the two layers, with the vertical
velocities `√(C33/ρ)`, `√(C44/ρ)` and Tsvankin's parameters of their stiffnesses. -/
theorem C52_ruger {D1 D2 θ φ : ℝ} {C1 C2 : Mat6 ℝ} (h1 : HtiLayer D1 C1)
    (h2 : HtiLayer D2 C2) (hθ0 : -90 < θ) (hθ1 : θ < 90) :
    let α := fun (D : ℝ) (C : Mat6 ℝ) => Real.sqrt (C 2 2 / D)
    let β := fun (D : ℝ) (C : Mat6 ℝ) => Real.sqrt (C 3 3 / D)
    AVO_HTI_entry (fin D1) (fin D2) (fun i j => fin (C1 i j)) (fun i j => fin (C2 i j)) (fin θ) (fin φ)
      = fin (ruger (relContrast (D1 * α D1 C1) (D2 * α D2 C2)) (relContrast (α D1 C1) (α D2 C2))
          (relContrast (D1 * β D1 C1 ^ 2) (D2 * β D2 C2 ^ 2))
          (2 * ((β D1 C1 + β D2 C2) / 2) / ((α D1 C1 + α D2 C2) / 2))
          (((C2 0 2 + C2 4 4) ^ 2 - (C2 2 2 - C2 4 4) ^ 2) / (2 * C2 2 2 * (C2 2 2 - C2 4 4))
            - ((C1 0 2 + C1 4 4) ^ 2 - (C1 2 2 - C1 4 4) ^ 2) / (2 * C1 2 2 * (C1 2 2 - C1 4 4)))
          ((C2 0 0 - C2 2 2) / (2 * C2 2 2) - (C1 0 0 - C1 2 2) / (2 * C1 2 2))
          ((C2 3 3 - C2 5 5) / (2 * C2 5 5) - (C1 3 3 - C1 5 5) / (2 * C1 5 5))
          (θ * (Real.pi / 180)) (φ * (Real.pi / 180))) := by
  dsimp only
  have e := hti_eval (φ := φ) h1 h2 (cos_deg_pos hθ0 hθ1).ne'
  unfold finMat at e
  rw [e]
  have a1 := h1.vα_pos
  have a2 := h2.vα_pos
  have b1 := h1.vβ_pos
  have b2 := h2.vβ_pos
  have d1 := h1.D
  have d2 := h2.D
  unfold ruger relContrast threeTerm
  change fin (_ + _ * _ + _ * _ * _) = _
  unfold pδ pε pγ vα vβ at *
  generalize Real.sqrt (C1 2 2 / D1) = α1 at *
  generalize Real.sqrt (C2 2 2 / D2) = α2 at *
  generalize Real.sqrt (C1 3 3 / D1) = β1 at *
  generalize Real.sqrt (C2 3 3 / D2) = β2 at *
  generalize (C1 3 3 - C1 5 5) / (2 * C1 5 5) = γ1
  generalize (C2 3 3 - C2 5 5) / (2 * C2 5 5) = γ2
  generalize (C1 0 0 - C1 2 2) / (2 * C1 2 2) = ε1
  generalize (C2 0 0 - C2 2 2) / (2 * C2 2 2) = ε2
  generalize ((C1 0 2 + C1 4 4) ^ 2 - (C1 2 2 - C1 4 4) ^ 2) / (2 * C1 2 2 * (C1 2 2 - C1 4 4)) = δ1
  generalize ((C2 0 2 + C2 4 4) ^ 2 - (C2 2 2 - C2 4 4) ^ 2) / (2 * C2 2 2 * (C2 2 2 - C2 4 4)) = δ2
  generalize Real.sin (θ * (Real.pi / 180)) = s
  generalize Real.tan (θ * (Real.pi / 180)) = u
  generalize Real.sin (φ * (Real.pi / 180)) = s'
  generalize Real.cos (φ * (Real.pi / 180)) = c'
  refine congrArg fin ?_
  field

/-- C52: `AVO_ortho` returns Rüger's reflectivity in the two vertical symmetry planes of orthorhombic
layers: along the first horizontal axis with that plane's parameters and the shear splitting, across
it with the other plane's parameters. -/
theorem C52_ortho {a1 b1 e11 d11 e12 d12 g1 r1 a2 b2 e21 d21 e22 d22 g2 r2 θ : ℝ}
    (ha1 : 0 < a1) (hb1 : 0 < b1) (hr1 : 0 < r1) (ha2 : 0 < a2) (hb2 : 0 < b2) (hr2 : 0 < r2)
    (hθ0 : -90 < θ) (hθ1 : θ < 90) :
    let plane := fun δ ε γ => ruger (relContrast (r1 * a1) (r2 * a2)) (relContrast a1 a2)
      (relContrast (r1 * b1 ^ 2) (r2 * b2 ^ 2)) (2 * ((b1 + b2) / 2) / ((a1 + a2) / 2)) δ ε γ
      (θ * (Real.pi / 180)) 0
    AVO_ortho (fin a1) (fin b1) (fin e11) (fin d11) (fin e12) (fin d12) (fin g1) (fin r1)
        (fin a2) (fin b2) (fin e21) (fin d21) (fin e22) (fin d22) (fin g2) (fin r2) (fin θ)
      = (fin (plane (d22 - d12) (e22 - e12) (g2 - g1)), fin (plane (d21 - d11) (e21 - e11) 0)) := by
  dsimp only
  rw [ortho_eval (by positivity) (by positivity) (by positivity) (cos_deg_pos hθ0 hθ1).ne']
  unfold ruger relContrast threeTerm
  rw [Real.cos_zero, Real.sin_zero]
  generalize Real.sin (θ * (Real.pi / 180)) = s
  generalize Real.tan (θ * (Real.pi / 180)) = u
  refine Prod.ext (congrArg fin ?_) (congrArg fin ?_)
  · field
  · field

example : AVO_ortho (fin 3) (fin 1.5) (fin 0.1) (fin 0.05) (fin 0.1) (fin 0.2) (fin 0.1) (fin 2.2)
    (fin 4) (fin 2) (fin 0) (fin 0) (fin 0) (fin 0) (fin 0) (fin 2.4) (fin 30)
    = (fin (ruger (relContrast (2.2 * 3) (2.4 * 4)) (relContrast 3 4)
        (relContrast (2.2 * 1.5 ^ 2) (2.4 * 2 ^ 2)) (2 * ((1.5 + 2) / 2) / ((3 + 4) / 2)) (0 - 0.2)
        (0 - 0.1) (0 - 0.1) (30 * (Real.pi / 180)) 0),
      fin (ruger (relContrast (2.2 * 3) (2.4 * 4)) (relContrast 3 4)
        (relContrast (2.2 * 1.5 ^ 2) (2.4 * 2 ^ 2)) (2 * ((1.5 + 2) / 2) / ((3 + 4) / 2)) (0 - 0.05)
        (0 - 0.1) 0 (30 * (Real.pi / 180)) 0)) :=
  C52_ortho (by norm_num) (by norm_num) (by norm_num) (by norm_num) (by norm_num) (by norm_num)
    (by norm_num) (by norm_num)

/-- C52: along the symmetry axis (azimuth 0) the HTI reflectivity is the reflectivity of
`AVO_ortho` in its xz plane, with the vertical velocities and Tsvankin's parameters of the two
layers; across it (azimuth 90) it is the one in the yz plane without anisotropy. -/
theorem C52_planes {D1 D2 θ e11 d11 e21 d21 : ℝ} {C1 C2 : Mat6 ℝ} (h1 : HtiLayer D1 C1)
    (h2 : HtiLayer D2 C2) (hθ0 : -90 < θ) (hθ1 : θ < 90) :
    AVO_HTI_entry (fin D1) (fin D2) (finMat C1) (finMat C2) (fin θ) (fin 0)
        = (AVO_ortho (fin (vα D1 C1)) (fin (vβ D1 C1)) (fin e11) (fin d11) (fin (pε C1))
            (fin (pδ C1)) (fin (pγ C1)) (fin D1) (fin (vα D2 C2)) (fin (vβ D2 C2)) (fin e21)
            (fin d21) (fin (pε C2)) (fin (pδ C2)) (fin (pγ C2)) (fin D2) (fin θ)).1 ∧
      AVO_HTI_entry (fin D1) (fin D2) (finMat C1) (finMat C2) (fin θ) (fin 90)
        = (AVO_ortho (fin (vα D1 C1)) (fin (vβ D1 C1)) (fin 0) (fin 0) (fin (pε C1))
            (fin (pδ C1)) (fin (pγ C1)) (fin D1) (fin (vα D2 C2)) (fin (vβ D2 C2)) (fin 0)
            (fin 0) (fin (pε C2)) (fin (pδ C2)) (fin (pγ C2)) (fin D2) (fin θ)).2 := by
  have c := (cos_deg_pos hθ0 hθ1).ne'
  have a1 := h1.vα_pos
  have a2 := h2.vα_pos
  have b1 := h1.vβ_pos
  have b2 := h2.vβ_pos
  have d1 := h1.D
  have d2 := h2.D
  rw [hti_eval h1 h2 c, hti_eval h1 h2 c,
    ortho_eval (by positivity) (by positivity) (by positivity) c,
    ortho_eval (by positivity) (by positivity) (by positivity) c]
  have r90 : (90 : ℝ) * (Real.pi / 180) = Real.pi / 2 := by ring
  rw [zero_mul, Real.cos_zero, Real.sin_zero, r90, Real.cos_pi_div_two, Real.sin_pi_div_two]
  unfold threeTerm
  exact ⟨congrArg fin (by ring), congrArg fin (by ring)⟩

example : AVO_HTI_entry (fin 2.3) (fin 2.4) (finMat htiEx1) (finMat htiEx2) (fin 30) (fin 0)
    = (AVO_ortho (fin (vα 2.3 htiEx1)) (fin (vβ 2.3 htiEx1)) (fin 0) (fin 0) (fin (pε htiEx1))
      (fin (pδ htiEx1)) (fin (pγ htiEx1)) (fin 2.3) (fin (vα 2.4 htiEx2)) (fin (vβ 2.4 htiEx2))
      (fin 0) (fin 0) (fin (pε htiEx2)) (fin (pδ htiEx2)) (fin (pγ htiEx2)) (fin 2.4) (fin 30)).1 :=
  (C52_planes htiEx1_layer htiEx2_layer (by norm_num) (by norm_num)).1

/-- C52: the HTI reflectivity is the same for opposite azimuths and mirrored at the symmetry
axis. -/
theorem C52_azimuth {D1 D2 θ φ : ℝ} {C1 C2 : Mat6 ℝ} (h1 : HtiLayer D1 C1)
    (h2 : HtiLayer D2 C2) (hθ0 : -90 < θ) (hθ1 : θ < 90) :
    ∃ x, AVO_HTI_entry (fin D1) (fin D2) (finMat C1) (finMat C2) (fin θ) (fin φ) = fin x ∧
      AVO_HTI_entry (fin D1) (fin D2) (finMat C1) (finMat C2) (fin θ) (fin (-φ)) = fin x ∧
      AVO_HTI_entry (fin D1) (fin D2) (finMat C1) (finMat C2) (fin θ) (fin (φ + 180)) = fin x ∧
      AVO_HTI_entry (fin D1) (fin D2) (finMat C1) (finMat C2) (fin (-θ)) (fin φ) = fin x := by
  have c := (cos_deg_pos hθ0 hθ1).ne'
  have c' : Real.cos (-θ * (Real.pi / 180)) ≠ 0 := by rwa [neg_mul, Real.cos_neg]
  have e : (φ + 180) * (Real.pi / 180) = φ * (Real.pi / 180) + Real.pi := by ring
  refine ⟨_, hti_eval h1 h2 c, ?_, ?_, ?_⟩
  · rw [hti_eval h1 h2 c, neg_mul, Real.cos_neg, Real.sin_neg, neg_sq]
  · rw [hti_eval h1 h2 c, e, Real.cos_add_pi, Real.sin_add_pi, neg_sq, neg_sq, Even.neg_pow (by decide)]
  · rw [hti_eval h1 h2 c', neg_mul]
    unfold threeTerm
    rw [Real.sin_neg, Real.tan_neg, neg_sq, neg_sq]

/-- C52: between isotropic layers the azimuth does not matter, and the HTI reflectivity is the
one `AVO_ortho` returns in both planes for zero anisotropy. -/
theorem C52_isotropic {D1 K1 G1 D2 K2 G2 θ φ : ℝ} (hD1 : 0 < D1) (hK1 : 0 < K1) (hG1 : 0 < G1)
    (hD2 : 0 < D2) (hK2 : 0 < K2) (hG2 : 0 < G2) (hθ0 : -90 < θ) (hθ1 : θ < 90) :
    let vp1 := fin (Real.sqrt ((K1 + 4 * G1 / 3) / D1))
    let vs1 := fin (Real.sqrt (G1 / D1))
    let vp2 := fin (Real.sqrt ((K2 + 4 * G2 / 3) / D2))
    let vs2 := fin (Real.sqrt (G2 / D2))
    ∃ x, AVO_HTI_entry (fin D1) (fin D2) (utils.write_iso (fin K1) (fin G1))
        (utils.write_iso (fin K2) (fin G2)) (fin θ) (fin φ) = fin x ∧
      AVO_ortho vp1 vs1 0 0 0 0 0 (fin D1) vp2 vs2 0 0 0 0 0 (fin D2) (fin θ) = (fin x, fin x) := by
  dsimp only
  have c := (cos_deg_pos hθ0 hθ1).ne'
  let iso : ℝ → ℝ → Mat6 ℝ := fun K G => ![![K - 2 * G / 3 + 2 * G, K - 2 * G / 3, K - 2 * G / 3, 0, 0, 0],
    ![K - 2 * G / 3, K - 2 * G / 3 + 2 * G, K - 2 * G / 3, 0, 0, 0],
    ![K - 2 * G / 3, K - 2 * G / 3, K - 2 * G / 3 + 2 * G, 0, 0, 0],
    ![0, 0, 0, G, 0, 0], ![0, 0, 0, 0, G, 0], ![0, 0, 0, 0, 0, G]]
  have lift : ∀ K G : ℝ, utils.write_iso (fin K) (fin G) = finMat (iso K G) := by
    intro K G
    have n3 : (3 : ℝ) ≠ 0 := by norm_num
    funext i j
    unfold utils.write_iso finMat
    fl_eval []
    fin_cases i <;> fin_cases j <;> rfl
  have lay : ∀ {D K G : ℝ}, 0 < D → 0 < K → 0 < G → HtiLayer D (iso K G) := by
    intro D K G hD hK hG
    have e0 : iso K G 2 2 = K - 2 * G / 3 + 2 * G := rfl
    have e1 : iso K G 3 3 = G := rfl
    have e2 : iso K G 5 5 = G := rfl
    have e3 : iso K G 4 4 = G := rfl
    refine ⟨hD, ?_, ?_, ?_, ?_⟩
    · rw [e0]; linarith
    · rw [e1]; exact hG
    · rw [e2]; exact hG.ne'
    · rw [e0, e3]; intro h; linarith
  have pa : ∀ {K G : ℝ}, 0 < K → 0 < G → pγ (iso K G) = 0 ∧ pε (iso K G) = 0 ∧ pδ (iso K G) = 0 := by
    intro K G hK hG
    refine ⟨?_, ?_, ?_⟩
    · show (G - G) / (2 * G) = 0
      rw [sub_self, zero_div]
    · show (K - 2 * G / 3 + 2 * G - (K - 2 * G / 3 + 2 * G)) / _ = 0
      rw [sub_self, zero_div]
    · show ((K - 2 * G / 3 + G) ^ 2 - (K - 2 * G / 3 + 2 * G - G) ^ 2) / _ = 0
      rw [show (K - 2 * G / 3 + G) ^ 2 - (K - 2 * G / 3 + 2 * G - G) ^ 2 = 0 by ring, zero_div]
  have va : ∀ D K G : ℝ, Real.sqrt ((K + 4 * G / 3) / D) = vα D (iso K G) := by
    intro D K G
    show _ = Real.sqrt ((K - 2 * G / 3 + 2 * G) / D)
    congr 2; ring
  have vb : ∀ D K G : ℝ, Real.sqrt (G / D) = vβ D (iso K G) := fun D K G => rfl
  have l1 := lay hD1 hK1 hG1
  have l2 := lay hD2 hK2 hG2
  have a1 := l1.vα_pos
  have a2 := l2.vα_pos
  have b1 := l1.vβ_pos
  have b2 := l2.vβ_pos
  obtain ⟨g1, e1, q1⟩ := pa hK1 hG1
  obtain ⟨g2, e2, q2⟩ := pa hK2 hG2
  rw [lift, lift, va, va, vb D1 K1 G1, vb D2 K2 G2, fl_zero]
  refine ⟨_, hti_eval l1 l2 c, ?_⟩
  rw [ortho_eval (by positivity) (by positivity) (by positivity) c, g1, e1, q1, g2, e2, q2]
  unfold threeTerm
  exact Prod.ext (congrArg fin (by ring)) (congrArg fin (by ring))

example : ∃ x, AVO_HTI_entry (fin 2.3) (fin 2.5) (utils.write_iso (fin 12) (fin 8))
    (utils.write_iso (fin 20) (fin 15)) (fin 25) (fin 40) = fin x :=
  have ⟨x, h, _⟩ := C52_isotropic (D1 := 2.3) (K1 := 12) (G1 := 8) (D2 := 2.5) (K2 := 20)
    (G2 := 15) (θ := 25) (φ := 40) (by norm_num) (by norm_num) (by norm_num) (by norm_num)
    (by norm_num) (by norm_num) (by norm_num) (by norm_num)
  ⟨x, h⟩

end RockPhy.Props
