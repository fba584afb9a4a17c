import Verif.Props.Anisotropy
import Mathlib.Analysis.SpecialFunctions.Sqrt
import Mathlib.Analysis.SpecialFunctions.Trigonometric.Deriv
import Mathlib.Analysis.Calculus.Deriv.Slope

/-! C89: what Thomsen's parameters mean for the exact phase velocities. -/

namespace RockPhy.Props

open Fl Spec Anisotropy Matrix Filter Topology

/-- Derivative of a phase velocity written with a root inside a root. -/
theorem phase_deriv {S Q : ℝ → ℝ} {S' Q' x ρ g : ℝ} (hS : HasDerivAt S S' x)
    (hQ : HasDerivAt Q Q' x) (hq : 0 < Q x) (hρ : 0 < ρ) (hpos : 0 < S x + g * √(Q x)) :
    HasDerivAt (fun y => √(0.5 / ρ * (S y + g * √(Q y))))
      (0.5 / ρ * (S' + g * (Q' / (2 * √(Q x)))) / (2 * √(0.5 / ρ * (S x + g * √(Q x))))) x := by
  have h1 : HasDerivAt (fun y => √(Q y)) (Q' / (2 * √(Q x))) x := hQ.sqrt hq.ne'
  have h2 := (hS.add (h1.const_mul g)).const_mul (0.5 / ρ)
  exact h2.sqrt (by positivity : (0.5 / ρ * (S x + g * √(Q x))) ≠ 0)

theorem littleO_of_deriv {f g : ℝ → ℝ} {d : ℝ} (hf : HasDerivAt f d 0) (hg : HasDerivAt g d 0)
    (h0 : f 0 = g 0) : (fun t => f t - g t) =o[𝓝 0] (fun t => t) := by
  have h := hf.sub hg
  rw [sub_self, hasDerivAt_iff_isLittleO_nhds_zero] at h
  simpa [h0] using h

/-- The weakly anisotropic medium `C(t)`: an isotropic one of P modulus `M` and shear modulus
`m`, plus `t` times any VTI stiffness. -/
noncomputable def weakVTI (M m d11 d33 d13 d44 d66 t : ℝ) : Matrix (Fin 6) (Fin 6) ℝ :=
  vtiMatrix (M + t * d11) (M + t * d33) (M - 2 * m + t * d13) (m + t * d44) (m + t * d66)

/-- For weak anisotropy Thomsen's velocities agree with the exact phase velocities to first
order, for every direction. -/
theorem C89_Thomsen_first_order (M m d11 d33 d13 d44 d66 den th : ℝ) (hden : 0 < den)
    (hm : 0 < m) (hM : m < M) :
    ∃ vp vsv vsh P SV SH : ℝ → ℝ,
      (∀ᶠ t in 𝓝 (0 : ℝ), HasSpectrum (christoffel (weakVTI M m d11 d33 d13 d44 d66 t)
          ![Real.sin (th * (Real.pi / 180)), 0, Real.cos (th * (Real.pi / 180))])
        (den * vp t ^ 2) (den * vsh t ^ 2) (den * vsv t ^ 2)) ∧
      (∀ᶠ t in 𝓝 (0 : ℝ), ∃ e g d : ℝ, Thomsen (fin (M + t * d11)) (fin (M + t * d33))
          (fin (M - 2 * m + t * d13)) (fin (m + t * d44)) (fin (m + t * d66)) (fin den) (fin th)
        = (fin (P t), fin (SV t), fin (SH t), fin e, fin g, fin d)) ∧
      (∀ᶠ t in 𝓝 (0 : ℝ), vsv t < vp t ∧ 0 < vsv t ∧ 0 < vsh t) ∧
      (fun t => P t - 1000 * vp t) =o[𝓝 0] (fun t => t) ∧
      (fun t => SV t - 1000 * vsv t) =o[𝓝 0] (fun t => t) ∧
      (fun t => SH t - 1000 * vsh t) =o[𝓝 0] (fun t => t) := by
  set a := th * (Real.pi / 180) with ha
  set s := Real.sin a with hs
  set c := Real.cos a with hc
  have sc : s ^ 2 + c ^ 2 = 1 := Real.sin_sq_add_cos_sq a
  have s2 : Real.sin (2 * a) = 2 * s * c := Real.sin_two_mul a
  have hMm : 0 < M - m := by linarith
  have hM0 : 0 < M := by linarith
  -- the pieces of the exact velocities
  have dlin : ∀ x y : ℝ, HasDerivAt (fun t : ℝ => x + t * y) y 0 := fun x y => by
    simpa using ((hasDerivAt_id (0 : ℝ)).mul_const y).const_add x
  set S : ℝ → ℝ := fun t => vtiS (M + t * d11) (M + t * d33) (m + t * d44) a with hSdef
  set Q : ℝ → ℝ := fun t => ((M + t * d11 - (m + t * d44)) * s ^ 2
    - (M + t * d33 - (m + t * d44)) * c ^ 2) ^ 2
    + (M - 2 * m + t * d13 + (m + t * d44)) ^ 2 * (2 * s * c) ^ 2 with hQdef
  have Q0 : Q 0 = (M - m) ^ 2 := by
    simp only [hQdef]
    have : (M - m) ^ 2 = (M - m) ^ 2 * (s ^ 2 + c ^ 2) ^ 2 := by rw [sc]; ring
    rw [this]; ring
  have S0 : S 0 = M + m := by
    simp only [hSdef, vtiS]
    linear_combination M * sc
  have rQ0 : √(Q 0) = M - m := by rw [Q0, Real.sqrt_sq hMm.le]
  have dS : HasDerivAt S (d11 * s ^ 2 + d33 * c ^ 2 + d44) 0 :=
    (((dlin M d11).mul_const _).add ((dlin M d33).mul_const _)).add (dlin m d44)
  have dQ : HasDerivAt Q (2 * (M - m) * ((s ^ 2 - c ^ 2)
      * ((d11 - d44) * s ^ 2 - (d33 - d44) * c ^ 2) + (d13 + d44) * (2 * s * c) ^ 2)) 0 := by
    have h1 := ((((dlin M d11).sub (dlin m d44)).mul_const (s ^ 2)).sub
      (((dlin M d33).sub (dlin m d44)).mul_const (c ^ 2))).pow 2
    have h2 := (((dlin (M - 2 * m) d13).add (dlin m d44)).pow 2).mul_const ((2 * s * c) ^ 2)
    refine (h1.add h2).congr_deriv ?_
    simp
    ring
  have exP := phase_deriv (g := 1) dS dQ (by rw [Q0]; positivity) hden (by
    rw [rQ0, S0]; linarith)
  have exV := phase_deriv (g := -1) dS dQ (by rw [Q0]; positivity) hden (by
    rw [rQ0, S0]; linarith)
  rw [rQ0, S0] at exP exV
  have exH : HasDerivAt (fun t => √(1 / den * ((m + t * d66) * s ^ 2 + (m + t * d44) * c ^ 2)))
      (1 / den * (d66 * s ^ 2 + d44 * c ^ 2) / (2 * √(m / den))) 0 := by
    have h := ((((dlin m d66).mul_const (s ^ 2)).add
      ((dlin m d44).mul_const (c ^ 2))).const_mul (1 / den))
    have e0 : 1 / den * ((m + 0 * d66) * s ^ 2 + (m + 0 * d44) * c ^ 2) = m / den := by
      linear_combination (m / den) * sc
    have := h.sqrt (by
      show 1 / den * ((m + 0 * d66) * s ^ 2 + (m + 0 * d44) * c ^ 2) ≠ 0
      rw [e0]; positivity)
    refine this.congr_deriv ?_
    show _ / (2 * √(1 / den * ((m + 0 * d66) * s ^ 2 + (m + 0 * d44) * c ^ 2))) = _
    rw [e0]
  have eM : (0.5 : ℝ) / den * (M + m + 1 * (M - m)) = M / den := by ring
  have em : (0.5 : ℝ) / den * (M + m + -1 * (M - m)) = m / den := by ring
  rw [eM] at exP
  rw [em] at exV
  -- Thomsen's velocities
  have dal : ∀ x y : ℝ, 0 < x → HasDerivAt (fun t => √((x + t * y) / den) * 1e3)
      (y / den / (2 * √(x / den)) * 1e3) 0 := by
    intro x y hx
    have h := ((dlin x y).div_const den).sqrt (by
      show (x + 0 * y) / den ≠ 0
      rw [zero_mul, add_zero]; positivity)
    refine (h.mul_const 1e3).congr_deriv ?_
    show _ / (2 * √((x + 0 * y) / den)) * _ = _
    rw [zero_mul, add_zero]
  have deps : HasDerivAt (fun t => 0.5 * (M + t * d11 - (M + t * d33)) / (M + t * d33))
      ((d11 - d33) / (2 * M)) 0 := by
    have h := (((dlin M d11).sub (dlin M d33)).const_mul 0.5).div (dlin M d33) (by
      show M + 0 * d33 ≠ 0
      rw [zero_mul, add_zero]; positivity)
    refine h.congr_deriv ?_
    simp
    field
  have dgam : HasDerivAt (fun t => 0.5 * (m + t * d66 - (m + t * d44)) / (m + t * d44))
      ((d66 - d44) / (2 * m)) 0 := by
    have h := (((dlin m d66).sub (dlin m d44)).const_mul 0.5).div (dlin m d44) (by
      show m + 0 * d44 ≠ 0
      rw [zero_mul, add_zero]; positivity)
    refine h.congr_deriv ?_
    simp
    field
  have ddel : HasDerivAt (fun t => ((M - 2 * m + t * d13 + (m + t * d44)) ^ 2
      - (M + t * d33 - (m + t * d44)) ^ 2) / (2 * (M + t * d33) * (M + t * d33 - (m + t * d44))))
      ((d13 + 2 * d44 - d33) / M) 0 := by
    have h := ((((dlin (M - 2 * m) d13).add (dlin m d44)).pow 2).sub
      (((dlin M d33).sub (dlin m d44)).pow 2)).div
      (((dlin M d33).const_mul 2).mul ((dlin M d33).sub (dlin m d44))) (by
        show 2 * (M + 0 * d33) * (M + 0 * d33 - (m + 0 * d44)) ≠ 0
        simp only [zero_mul, add_zero]; positivity)
    refine h.congr_deriv ?_
    simp
    field
  have dA := dal M d33 hM0
  have dB := dal m d44 hm
  set A : ℝ → ℝ := fun t => √((M + t * d33) / den) * 1e3 with hA
  set B : ℝ → ℝ := fun t => √((m + t * d44) / den) * 1e3 with hB
  set E : ℝ → ℝ := fun t => 0.5 * (M + t * d11 - (M + t * d33)) / (M + t * d33) with hE
  set H : ℝ → ℝ := fun t => 0.5 * (m + t * d66 - (m + t * d44)) / (m + t * d44) with hH
  set D : ℝ → ℝ := fun t => ((M - 2 * m + t * d13 + (m + t * d44)) ^ 2
      - (M + t * d33 - (m + t * d44)) ^ 2) / (2 * (M + t * d33) * (M + t * d33 - (m + t * d44)))
    with hD
  have A0 : A 0 = √(M / den) * 1e3 := by simp [hA]
  have B0 : B 0 = √(m / den) * 1e3 := by simp [hB]
  have E0 : E 0 = 0 := by simp [hE]
  have H0 : H 0 = 0 := by simp [hH]
  have D0 : D 0 = 0 := by
    simp only [hD, zero_mul, add_zero]
    rw [div_eq_zero_iff]; left; ring
  have hrM : 0 < √(M / den) := Real.sqrt_pos.mpr (by positivity)
  have hrm : 0 < √(m / den) := Real.sqrt_pos.mpr (by positivity)
  have qM : √(M / den) ^ 2 = M / den := Real.sq_sqrt (by positivity)
  have qm : √(m / den) ^ 2 = m / den := Real.sq_sqrt (by positivity)
  have B0' : B 0 ^ 2 ≠ 0 := by rw [B0]; positivity
  have dP : HasDerivAt (fun t => A t * (1 + D t * s ^ 2 * c ^ 2 + E t * s ^ 4)) _ 0 :=
    dA.mul ((((ddel.mul_const (s ^ 2)).mul_const (c ^ 2)).const_add 1).add (deps.mul_const (s ^ 4)))
  have dSV : HasDerivAt (fun t => B t * (1 + A t ^ 2 / B t ^ 2 * (E t - D t) * s ^ 2 * c ^ 2)) _ 0 :=
    dB.mul ((((((dA.pow 2).div (dB.pow 2) B0').mul (deps.sub ddel)).mul_const
      (s ^ 2)).mul_const (c ^ 2)).const_add 1)
  have dSH : HasDerivAt (fun t => B t * (1 + H t * s ^ 2)) _ 0 :=
    dB.mul ((dgam.mul_const (s ^ 2)).const_add 1)
  have c4 : c ^ 4 = 1 - 2 * s ^ 2 * c ^ 2 - s ^ 4 := by
    have : (s ^ 2 + c ^ 2) ^ 2 = 1 := by rw [sc]; ring
    linear_combination this
  have ev : ∀ {f : ℝ → ℝ}, ContinuousAt f 0 → 0 < f 0 → ∀ᶠ t in 𝓝 (0 : ℝ), 0 < f t :=
    fun h h0 => h.eventually (lt_mem_nhds h0)
  have cS := dS.continuousAt
  have cQ := dQ.continuousAt
  have ev33 : ∀ᶠ t in 𝓝 (0 : ℝ), 0 < M + t * d33 := ev (dlin M d33).continuousAt (by simpa)
  have ev44 : ∀ᶠ t in 𝓝 (0 : ℝ), 0 < m + t * d44 := ev (dlin m d44).continuousAt (by simpa)
  have evd : ∀ᶠ t in 𝓝 (0 : ℝ), 0 < M + t * d33 - (m + t * d44) :=
    ev ((dlin M d33).sub (dlin m d44)).continuousAt (by simpa)
  have evQ : ∀ᶠ t in 𝓝 (0 : ℝ), 0 < Q t := ev cQ (by rw [Q0]; positivity)
  have evP : ∀ᶠ t in 𝓝 (0 : ℝ), 0 < 0.5 / den * (S t + 1 * √(Q t)) :=
    ev ((cS.add (cQ.sqrt.const_mul 1)).const_mul _) (by
      show 0 < 0.5 / den * (S 0 + 1 * √(Q 0))
      rw [rQ0, S0, eM]; positivity)
  have evV : ∀ᶠ t in 𝓝 (0 : ℝ), 0 < 0.5 / den * (S t + -1 * √(Q t)) :=
    ev ((cS.add (cQ.sqrt.const_mul (-1))).const_mul _) (by
      show 0 < 0.5 / den * (S 0 + -1 * √(Q 0))
      rw [rQ0, S0, em]; positivity)
  have evH : ∀ᶠ t in 𝓝 (0 : ℝ),
      0 < 1 / den * ((m + t * d66) * s ^ 2 + (m + t * d44) * c ^ 2) :=
    ev ((((dlin m d66).mul_const (s ^ 2)).add
      ((dlin m d44).mul_const (c ^ 2))).const_mul (1 / den)).continuousAt (by
        have e : 1 / den * ((m + 0 * d66) * s ^ 2 + (m + 0 * d44) * c ^ 2) = m / den := by
          linear_combination (m / den) * sc
        show 0 < 1 / den * ((m + 0 * d66) * s ^ 2 + (m + 0 * d44) * c ^ 2)
        rw [e]; positivity)
  refine ⟨fun t => √(0.5 / den * (S t + 1 * √(Q t))), fun t => √(0.5 / den * (S t + -1 * √(Q t))),
    fun t => √(1 / den * ((m + t * d66) * s ^ 2 + (m + t * d44) * c ^ 2)),
    fun t => A t * (1 + D t * s ^ 2 * c ^ 2 + E t * s ^ 4),
    fun t => B t * (1 + A t ^ 2 / B t ^ 2 * (E t - D t) * s ^ 2 * c ^ 2),
    fun t => B t * (1 + H t * s ^ 2), ?_, ?_, ?_, ?_, ?_, ?_⟩
  · filter_upwards [evP, evV, evH] with t hP hV hH
    have hq : 0 ≤ Q t := by simp only [hQdef]; positivity
    have r2 := Real.sq_sqrt hq
    rw [Real.sq_sqrt hP.le, Real.sq_sqrt hV.le, Real.sq_sqrt hH.le]
    have e : den * (1 / den * ((m + t * d66) * s ^ 2 + (m + t * d44) * c ^ 2))
        = (m + t * d66) * s ^ 2 + (m + t * d44) * c ^ 2 := by field
    rw [e]
    refine christoffel_VTI _ _ _ _ _ s c sc _ _ ?_ ?_
    · simp only [hSdef, vtiS]
      field
    · have : den * (0.5 / den * (S t + 1 * √(Q t))) * (den * (0.5 / den * (S t + -1 * √(Q t))))
          = (S t ^ 2 - √(Q t) ^ 2) / 4 := by field
      rw [this, r2]
      simp only [hSdef, hQdef, vtiS]
      generalize M + t * d11 = x11, M + t * d33 = x33, M - 2 * m + t * d13 = x13,
        m + t * d44 = x44
      linear_combination (-(x44 * (2 * (x11 * s ^ 2 + x33 * c ^ 2)
        + x44 * (1 + s ^ 2 + c ^ 2)) / 4)) * sc
  · filter_upwards [ev33, ev44, evd] with t h3 h4 hd
    exact ⟨_, _, _, Thomsen_eval ha.symm hden h3 h4 hd.ne'⟩
  · filter_upwards [evV, evH, evQ] with t hV hH hQ
    refine ⟨Real.sqrt_lt_sqrt hV.le ?_, Real.sqrt_pos.mpr hV, Real.sqrt_pos.mpr hH⟩
    have := Real.sqrt_pos.mpr hQ
    have : 0 < 0.5 / den := by positivity
    exact mul_lt_mul_of_pos_left (by linarith) this
  · refine littleO_of_deriv dP ((exP.const_mul 1000).congr_deriv ?_) ?_
    · simp [A0, D0, E0]
      have poly : ∀ u v : ℝ, u + v = 1 → d11 * u + d33 * v + d44
          + ((u - v) * ((d11 - d44) * u - (d33 - d44) * v) + (d13 + d44) * (4 * (u * v)))
          = 2 * d33 + 4 * (d13 + 2 * d44 - d33) * (u * v) + 2 * (d11 - d33) * u ^ 2 := by
        intro u v huv
        obtain rfl : v = 1 - u := by linarith
        ring
      have hp := poly _ _ sc
      have rr : √(M / den) = M / den / √(M / den) := by rw [eq_div_iff hrM.ne', ← sq]; exact qM
      rw [mul_div_cancel_left₀ _ (by positivity : (2 * (M - m)) ≠ 0),
        show (2 * s * c) ^ 2 = 4 * (s ^ 2 * c ^ 2) by ring, hp]
      conv_rhs => rw [show ∀ W : ℝ, √(M / den) * 1e3 * W = M / den / √(M / den) * 1e3 * W from
        fun W => by rw [← rr]]
      generalize √(M / den) = r at hrM ⊢
      field
    · simp only [A0, D0, E0, rQ0, S0]
      rw [eM]; ring
  · refine littleO_of_deriv dSV ((exV.const_mul 1000).congr_deriv ?_) ?_
    · simp [A0, B0, D0, E0]
      have poly : ∀ u v : ℝ, u + v = 1 → d11 * u + d33 * v + d44
          + -((u - v) * ((d11 - d44) * u - (d33 - d44) * v) + (d13 + d44) * (4 * (u * v)))
          = 2 * d44 + 2 * (d11 + d33 - 2 * d13 - 4 * d44) * (u * v) := by
        intro u v huv
        obtain rfl : v = 1 - u := by linarith
        ring
      have hp := poly _ _ sc
      have rr : √(m / den) = m / den / √(m / den) := by rw [eq_div_iff hrm.ne', ← sq]; exact qm
      rw [mul_div_cancel_left₀ _ (by positivity : (2 * (M - m)) ≠ 0),
        show (2 * s * c) ^ 2 = 4 * (s ^ 2 * c ^ 2) by ring, hp]
      have hr : (√(M / den) * 1e3) ^ 2 / (√(m / den) * 1e3) ^ 2 = M / m := by
        rw [mul_pow, mul_pow, qM, qm]; field
      rw [hr]
      conv_rhs => rw [show ∀ W : ℝ, √(m / den) * 1e3 * W = m / den / √(m / den) * 1e3 * W from
        fun W => by rw [← rr]]
      generalize √(m / den) = r at hrm ⊢
      field
    · simp only [B0, D0, E0, rQ0, S0]
      rw [em]; ring
  · refine littleO_of_deriv dSH ((exH.const_mul 1000).congr_deriv ?_) ?_
    · simp [B0, H0]
      have hp : d66 * s ^ 2 + d44 * c ^ 2 = d44 + (d66 - d44) * s ^ 2 := by
        linear_combination d44 * sc
      have rr : √(m / den) = m / den / √(m / den) := by rw [eq_div_iff hrm.ne', ← sq]; exact qm
      rw [hp]
      conv_rhs => rw [show ∀ W : ℝ, √(m / den) * 1e3 * W = m / den / √(m / den) * 1e3 * W from
        fun W => by rw [← rr]]
      generalize √(m / den) = r at hrm ⊢
      field
    · simp only [B0, H0]
      have : 1 / den * ((m + 0 * d66) * s ^ 2 + (m + 0 * d44) * c ^ 2) = m / den := by
        linear_combination (m / den) * sc
      rw [this]; ring

/-- Non-vacuity: a shale with 20% anisotropy around an isotropic medium. -/
example : ∃ vp P : ℝ → ℝ, (fun t => P t - 1000 * vp t) =o[𝓝 0] (fun t : ℝ => t) :=
  let ⟨vp, _, _, P, _, _, _, _, _, h, _⟩ :=
    C89_Thomsen_first_order 22 6 3 (-2) 1 (-1) 1.5 2.4 40 (by norm_num) (by norm_num) (by norm_num)
  ⟨vp, P, h⟩

theorem littleO_sin_sq {f g : ℝ → ℝ} {d : ℝ} (hf : HasDerivAt f d 0) (hg : HasDerivAt g d 0)
    (h0 : f 0 = g 0) : (fun th : ℝ => f (Real.sin (th * (Real.pi / 180)) ^ 2)
      - g (Real.sin (th * (Real.pi / 180)) ^ 2))
      =o[𝓝 0] (fun th => Real.sin (th * (Real.pi / 180)) ^ 2) := by
  have h := littleO_of_deriv hf hg h0
  have c : Tendsto (fun th : ℝ => Real.sin (th * (Real.pi / 180)) ^ 2) (𝓝 0) (𝓝 0) := by
    have : ContinuousAt (fun th : ℝ => Real.sin (th * (Real.pi / 180)) ^ 2) 0 := by fun_prop
    simpa [ContinuousAt] using this
  exact h.comp_tendsto c

/-- However strong the anisotropy, near the vertical Thomsen's velocities differ from the exact
ones by less than any multiple of the squared sine of the angle. -/
theorem C89_Thomsen_near_vertical (C11 C33 C13 C44 C66 den : ℝ) (hden : 0 < den)
    (hC : IsStable (vtiMatrix C11 C33 C13 C44 C66)) (h : C44 < C33) :
    ∃ vp vsh vsv P SV SH : ℝ → ℝ,
      (∀ th, vel_azi_VTI (utils.write_VTI_matrix (fin C11) (fin C33) (fin C13) (fin C44)
        (fin C66)) (fin den) (fin th) = (fin (vp th), fin (vsh th), fin (vsv th))) ∧
      (∀ th, ∃ e g d : ℝ, Thomsen (fin C11) (fin C33) (fin C13) (fin C44) (fin C66) (fin den)
        (fin th) = (fin (P th), fin (SV th), fin (SH th), fin e, fin g, fin d)) ∧
      (fun th => P th - 1000 * vp th)
        =o[𝓝 0] (fun th => Real.sin (th * (Real.pi / 180)) ^ 2) ∧
      (fun th => SV th - 1000 * vsv th)
        =o[𝓝 0] (fun th => Real.sin (th * (Real.pi / 180)) ^ 2) ∧
      (fun th => SH th - 1000 * vsh th)
        =o[𝓝 0] (fun th => Real.sin (th * (Real.pi / 180)) ^ 2) := by
  obtain ⟨h44, h66, h33, h13⟩ := (isStable_vtiMatrix_iff _ _ _ _ _).mp hC
  have hd : 0 < C33 - C44 := sub_pos.mpr h
  choose vp vsh vsv hv hpos using fun th => C35_VTI_real C11 C33 C13 C44 C66 den th hden hC
  set S : ℝ → ℝ := fun u => C11 * u + C33 * (1 - u) + C44 with hS
  set Q : ℝ → ℝ := fun u => ((C11 - C44) * u - (C33 - C44) * (1 - u)) ^ 2
    + (C13 + C44) ^ 2 * (4 * u * (1 - u)) with hQ
  have sq : ∀ th : ℝ, Real.cos (th * (Real.pi / 180)) ^ 2
      = 1 - Real.sin (th * (Real.pi / 180)) ^ 2 := fun th => by
    linarith [Real.sin_sq_add_cos_sq (th * (Real.pi / 180))]
  have ex : ∀ th : ℝ, let u := Real.sin (th * (Real.pi / 180)) ^ 2
      vp th = √(0.5 / den * (S u + 1 * √(Q u))) ∧ vsh th = √(1 / den * (C66 * u + C44 * (1 - u))) ∧
        vsv th = √(0.5 / den * (S u + -1 * √(Q u))) := by
    intro th
    set a := th * (Real.pi / 180) with ha
    have hR : 0 ≤ ((C11 - C44) * Real.sin a ^ 2 - (C33 - C44) * Real.cos a ^ 2) ^ 2
      + (C13 + C44) ^ 2 * Real.sin (2 * a) ^ 2 := by positivity
    have hv := hv th
    rw [utils.write_VTI_matrix_eval] at hv
    simp (disch := first | assumption | positivity) only [vel_azi_VTI, Matrix.map_apply, fl,
      Prod.mk.injEq, vtiMatrix, orthoMatrix, Matrix.of_apply, Matrix.cons_val] at hv
    obtain ⟨h1, h2, h3⟩ := hv
    obtain ⟨p1, e1⟩ := fl_sqrt_eq_fin h1
    have e2 := (Fl.fin.inj h2).symm
    obtain ⟨p3, e3⟩ := fl_sqrt_eq_fin h3
    rw [← ha, Real.sin_two_mul] at e1 e3
    rw [← ha] at e2
    intro u
    have hc : Real.cos a ^ 2 = 1 - u := sq th
    have hw : (2 * Real.sin a * Real.cos a) ^ 2 = 4 * u * (1 - u) := by rw [← hc]; ring
    rw [hw, hc] at e1 e3
    rw [hc] at e2
    refine ⟨?_, ?_, ?_⟩
    · rw [e1, one_mul]
    · rw [e2]
    · rw [e3, neg_one_mul, ← sub_eq_add_neg]
  have Q0 : Q 0 = (C33 - C44) ^ 2 := by simp only [hQ]; ring
  have S0 : S 0 = C33 + C44 := by simp only [hS]; ring
  have rQ0 : √(Q 0) = C33 - C44 := by rw [Q0, Real.sqrt_sq hd.le]
  have d1 : HasDerivAt (fun u : ℝ => 1 - u) (-1) 0 := by
    simpa using (hasDerivAt_id (0 : ℝ)).const_sub 1
  have d0 : ∀ x : ℝ, HasDerivAt (fun u : ℝ => x * u) x 0 := fun x => by
    simpa using (hasDerivAt_id (0 : ℝ)).const_mul x
  have dS : HasDerivAt S (C11 - C33) 0 := by
    refine (((d0 C11).add (d1.const_mul C33)).add_const C44).congr_deriv ?_
    ring
  have dQ : HasDerivAt Q (-2 * (C33 - C44) * (C11 + C33 - 2 * C44) + 4 * (C13 + C44) ^ 2) 0 := by
    refine ((((d0 (C11 - C44)).sub (d1.const_mul (C33 - C44))).pow 2).add
      (((d0 4).mul d1).const_mul ((C13 + C44) ^ 2))).congr_deriv ?_
    simp
    ring
  have exP := phase_deriv (g := 1) dS dQ (by rw [Q0]; positivity) hden (by
    rw [rQ0, S0]; linarith)
  have exV := phase_deriv (g := -1) dS dQ (by rw [Q0]; positivity) hden (by
    rw [rQ0, S0]; linarith)
  have eM : (0.5 : ℝ) / den * (C33 + C44 + 1 * (C33 - C44)) = C33 / den := by ring
  have em : (0.5 : ℝ) / den * (C33 + C44 + -1 * (C33 - C44)) = C44 / den := by ring
  rw [rQ0, S0, eM] at exP
  rw [rQ0, S0, em] at exV
  have exH : HasDerivAt (fun u => √(1 / den * (C66 * u + C44 * (1 - u))))
      (1 / den * (C66 - C44) / (2 * √(C44 / den))) 0 := by
    have e0 : 1 / den * (C66 * 0 + C44 * (1 - 0)) = C44 / den := by ring
    have := (((d0 C66).add (d1.const_mul C44)).const_mul (1 / den)).sqrt (by
      show 1 / den * (C66 * 0 + C44 * (1 - 0)) ≠ 0
      rw [e0]; positivity)
    refine this.congr_deriv ?_
    show _ / (2 * √(1 / den * (C66 * 0 + C44 * (1 - 0)))) = _
    rw [e0]; ring
  have hrM : 0 < √(C33 / den) := Real.sqrt_pos.mpr (by positivity)
  have hrm : 0 < √(C44 / den) := Real.sqrt_pos.mpr (by positivity)
  have qM : √(C33 / den) ^ 2 = C33 / den := Real.sq_sqrt (by positivity)
  have qm : √(C44 / den) ^ 2 = C44 / den := Real.sq_sqrt (by positivity)
  have rM : √(C33 / den) = C33 / den / √(C33 / den) := by rw [eq_div_iff hrM.ne', ← pow_two]; exact qM
  have rm : √(C44 / den) = C44 / den / √(C44 / den) := by rw [eq_div_iff hrm.ne', ← pow_two]; exact qm
  have hr : (√(C33 / den) * 1e3) ^ 2 / (√(C44 / den) * 1e3) ^ 2 = C33 / C44 := by
    rw [mul_pow, mul_pow, qM, qm]; field
  set e := 0.5 * (C11 - C33) / C33 with he
  set g := 0.5 * (C66 - C44) / C44 with hg
  set d := ((C13 + C44) ^ 2 - (C33 - C44) ^ 2) / (2 * C33 * (C33 - C44)) with hdel
  set U : ℝ → ℝ := fun th => Real.sin (th * (Real.pi / 180)) ^ 2 with hU
  set fP : ℝ → ℝ := fun u => √(C33 / den) * 1e3 * (1 + d * u * (1 - u) + e * u ^ 2) with hfP
  set fV : ℝ → ℝ := fun u => √(C44 / den) * 1e3 * (1 + (√(C33 / den) * 1e3) ^ 2
    / (√(C44 / den) * 1e3) ^ 2 * (e - d) * u * (1 - u)) with hfV
  set fH : ℝ → ℝ := fun u => √(C44 / den) * 1e3 * (1 + g * u) with hfH
  refine ⟨vp, vsh, vsv, fun th => fP (U th), fun th => fV (U th), fun th => fH (U th), hv, ?_,
    ?_, ?_, ?_⟩
  · intro th
    refine ⟨e, g, d, ?_⟩
    rw [Thomsen_eval rfl hden h33 h44 hd.ne']
    simp only [sq, hfP, hfV, hfH, hU, ← he, ← hg, ← hdel, ← pow_mul]
  · have dP : HasDerivAt fP (√(C33 / den) * 1e3 * d) 0 := by
      refine (((((d0 d).mul d1).const_add 1).add
        (((hasDerivAt_id (0 : ℝ)).pow 2).const_mul e)).const_mul (√(C33 / den) * 1e3)).congr_deriv ?_
      simp
    have key := littleO_sin_sq dP ((exP.const_mul 1000).congr_deriv ?_) ?_
    · refine key.congr_left fun th => ?_
      rw [(ex th).1]
    · conv_rhs => rw [rM, hdel]
      generalize √(C33 / den) = r at hrM ⊢
      field
    · simp only [hfP, rQ0, S0, eM]
      ring
  · have dP : HasDerivAt fV (√(C44 / den) * 1e3 * (C33 / C44 * (e - d))) 0 := by
      simp only [hfV, hr]
      refine ((((d0 (C33 / C44 * (e - d))).mul d1).const_add 1).const_mul
        (√(C44 / den) * 1e3)).congr_deriv ?_
      simp
    have key := littleO_sin_sq dP ((exV.const_mul 1000).congr_deriv ?_) ?_
    · refine key.congr_left fun th => ?_
      rw [(ex th).2.2]
    · conv_rhs => rw [rm, hdel, he]
      generalize √(C44 / den) = r at hrm ⊢
      field
    · simp only [hfV, rQ0, S0, em]
      ring
  · have dP : HasDerivAt fH (√(C44 / den) * 1e3 * g) 0 :=
      ((d0 g).const_add 1).const_mul (√(C44 / den) * 1e3)
    have key := littleO_sin_sq dP ((exH.const_mul 1000).congr_deriv ?_) ?_
    · refine key.congr_left fun th => ?_
      rw [(ex th).2.1]
    · conv_rhs => rw [rm, hg]
      generalize √(C44 / den) = r at hrm ⊢
      field
    · simp only [hfH]
      rw [show 1 / den * (C66 * 0 + C44 * (1 - 0)) = C44 / den by ring]
      ring

/-- Non-vacuity: the repository's VTI test medium. -/
example : IsStable (vtiMatrix 45 37.5 14.5 14 17) ∧ (14 : ℝ) < 37.5 := by
  refine ⟨(isStable_vtiMatrix_iff _ _ _ _ _).mpr ⟨?_, ?_, ?_, ?_⟩, ?_⟩ <;> norm_num

/-- `epsilon` and `gamma` are fixed by the exact horizontal velocities: `vp(90)/vp(0)` is
`sqrt(1 + 2 epsilon)`, `vsh(90)/vsh(0)` is `sqrt(1 + 2 gamma)`. -/
theorem C89_Thomsen_horizontal (C11 C33 C13 C44 C66 den th : ℝ) (hden : 0 < den)
    (h44 : 0 < C44) (h66 : 0 ≤ C66) (h33 : C44 < C33) (h11 : C44 ≤ C11) :
    ∃ vp vs ph sh sv P SV SH e g d : ℝ,
      vel_azi_VTI (utils.write_VTI_matrix (fin C11) (fin C33) (fin C13) (fin C44) (fin C66))
        (fin den) (fin 0) = (fin vp, fin vs, fin vs) ∧
      vel_azi_VTI (utils.write_VTI_matrix (fin C11) (fin C33) (fin C13) (fin C44) (fin C66))
        (fin den) (fin 90) = (fin ph, fin sh, fin sv) ∧
      Thomsen (fin C11) (fin C33) (fin C13) (fin C44) (fin C66) (fin den) (fin th)
        = (fin P, fin SV, fin SH, fin e, fin g, fin d) ∧
      ph = vp * √(1 + 2 * e) ∧ sh = vs * √(1 + 2 * g) ∧ sv = vs := by
  have a0 : (0 : ℝ) * (Real.pi / 180) = 0 := by ring
  have a90 : (90 : ℝ) * (Real.pi / 180) = Real.pi / 2 := by ring
  have R0 : vtiR C11 C33 C13 C44 0 = C33 - C44 := by
    unfold vtiR
    rw [show ((C11 - C44) * Real.sin 0 ^ 2 - (C33 - C44) * Real.cos 0 ^ 2) ^ 2
      + (C13 + C44) ^ 2 * Real.sin (2 * 0) ^ 2 = (C33 - C44) ^ 2 by simp; ring,
      Real.sqrt_sq (by linarith)]
  have S0 : vtiS C11 C33 C44 0 = C33 + C44 := by simp [vtiS]
  have R9 : vtiR C11 C33 C13 C44 (Real.pi / 2) = C11 - C44 := by
    unfold vtiR
    rw [show ((C11 - C44) * Real.sin (Real.pi / 2) ^ 2 - (C33 - C44) * Real.cos (Real.pi / 2) ^ 2) ^ 2
      + (C13 + C44) ^ 2 * Real.sin (2 * (Real.pi / 2)) ^ 2 = (C11 - C44) ^ 2 by
        rw [show 2 * (Real.pi / 2) = Real.pi by ring]; simp,
      Real.sqrt_sq (by linarith)]
  have S9 : vtiS C11 C33 C44 (Real.pi / 2) = C11 + C44 := by simp [vtiS]
  have hM : 0 < C33 := by linarith
  rw [utils.write_VTI_matrix_eval, vel_azi_VTI_eval a0 hden, vel_azi_VTI_eval a90 hden,
    Thomsen_eval rfl hden hM h44 (sub_pos.mpr h33).ne']
  · simp only [vtiMatrix, orthoMatrix, Matrix.of_apply, Matrix.cons_val, R0, S0, R9, S9,
      Real.sin_zero, Real.cos_zero, Real.sin_pi_div_two, Real.cos_pi_div_two]
    refine ⟨√(C33 / den), √(C44 / den), √(C11 / den), √(C66 / den), √(C44 / den), _, _, _, _, _, _,
      ?_, ?_, rfl, ?_, ?_, rfl⟩
    · simp only [Prod.mk.injEq, Fl.fin.injEq]
      refine ⟨?_, ?_, ?_⟩ <;> congr 1 <;> ring
    · simp only [Prod.mk.injEq, Fl.fin.injEq]
      refine ⟨?_, ?_, ?_⟩ <;> congr 1 <;> ring
    · rw [← Real.sqrt_mul (by positivity)]
      congr 1
      field
    · rw [← Real.sqrt_mul (by positivity)]
      congr 1
      field
  · simp only [vtiMatrix, orthoMatrix, Matrix.of_apply, Matrix.cons_val, R9, S9]
    linarith
  · simp only [vtiMatrix, orthoMatrix, Matrix.of_apply, Matrix.cons_val]
    positivity
  · simp only [vtiMatrix, orthoMatrix, Matrix.of_apply, Matrix.cons_val, R0, S0]
    linarith
  · simp only [vtiMatrix, orthoMatrix, Matrix.of_apply, Matrix.cons_val]
    positivity

/-- The Christoffel matrix `M` for a direction in a symmetry plane: `A` gives its in-plane part,
`B` the one component across the plane; axes renamed by `f`. -/
def InPlane (M A B : Matrix (Fin 3) (Fin 3) ℝ) (f : Fin 3 → Fin 3) : Prop :=
  M.submatrix f f = !![A 0 0, 0, A 0 2; 0, B 1 1, 0; A 2 0, 0, A 2 2]

/-- In each symmetry plane an orthorhombic medium carries waves like a VTI medium does (one for
the in-plane waves, one for the wave polarised across), and the parameters of
`Thomsen_Tsvankin` are Thomsen's parameters of these media. -/
theorem C89_Tsvankin_planes (C11 C22 C33 C12 C13 C23 C44 C55 C66 den th : ℝ) (hden : 0 < den)
    (h44 : 0 < C44) (h55 : 0 < C55) (h66 : 0 < C66) (h4 : C44 < C33) (h5 : C55 < C33)
    (h6 : C66 < C11) :
    let O := orthoMatrix C11 C22 C33 C12 C13 C23 C44 C55 C66
    let T := fun a b c d e : ℝ => (Thomsen (fin a) (fin b) (fin c) (fin d) (fin e) (fin den)
      (fin th)).2.2.2
    (∀ s c : ℝ,
      InPlane (christoffel O ![0, s, c]) (christoffel (vtiMatrix C22 C33 C23 C44 C44) ![s, 0, c])
        (christoffel (vtiMatrix C33 C33 C13 C55 C66) ![s, 0, c]) ![1, 0, 2] ∧
      InPlane (christoffel O ![s, 0, c]) (christoffel (vtiMatrix C11 C33 C13 C55 C55) ![s, 0, c])
        (christoffel (vtiMatrix C33 C33 C13 C44 C66) ![s, 0, c]) ![0, 1, 2] ∧
      InPlane (christoffel O ![c, s, 0]) (christoffel (vtiMatrix C22 C11 C12 C66 C66) ![s, 0, c])
        (christoffel (vtiMatrix C33 C33 C13 C55 C44) ![s, 0, c]) ![1, 2, 0]) ∧
    Thomsen_Tsvankin (fin C11) (fin C22) (fin C33) (fin C12) (fin C13) (fin C23) (fin C44)
      (fin C55) (fin C66)
      = ((T C22 C33 C23 C44 C44).1, (T C22 C33 C23 C44 C44).2.2, (T C33 C33 C13 C55 C66).2.1,
         (T C11 C33 C13 C55 C55).1, (T C11 C33 C13 C55 C55).2.2, (T C33 C33 C13 C44 C66).2.1,
         (T C22 C11 C12 C66 C66).2.2) := by
  intro O T
  constructor
  · intro s c
    refine ⟨?_, ?_, ?_⟩ <;> unfold InPlane christoffel <;> ext i j <;>
      simp only [Matrix.submatrix_apply, Matrix.mul_apply, Fin.sum_univ_succ, Fin.sum_univ_zero,
        Matrix.transpose_apply] <;>
      fin_cases i <;> fin_cases j <;> simp [O, dirMatrix, vtiMatrix, orthoMatrix] <;> ring
  · have n4 := (sub_pos.mpr h4).ne'
    have n5 := (sub_pos.mpr h5).ne'
    have n6 := (sub_pos.mpr h6).ne'
    have p3 : 0 < C33 := by linarith
    have p1 : 0 < C11 := by linarith
    rw [Thomsen_Tsvankin_eval p3 h44 h55 p1 n4 n5 n6]
    simp only [T, Thomsen_eval rfl hden p3 h44 n4, Thomsen_eval rfl hden p3 h55 n5,
      Thomsen_eval rfl hden p1 h66 n6, Prod.mk.injEq, Fl.fin.injEq]
    refine ⟨?_, trivial, ?_, ?_, trivial, ?_, ?_⟩ <;> field

/-- Non-vacuity: an orthorhombic rock. -/
example : (0 : ℝ) < 8 ∧ (9 : ℝ) < 25 ∧ (10 : ℝ) < 30 := by norm_num

end RockPhy.Props
