import Verif.Props.AVO
import Verif.Lemmas.ReflectionFirst
import Verif.Lemmas.ModesUnique
import Mathlib.Analysis.Asymptotics.Defs
import Mathlib.Tactic.FieldSimp

/-! # Property C95: Rüger's reflectivities are the first order of the exact ones -/

namespace RockPhy.Spec

/-- A stiffness matrix of the HTI pattern. -/
def HtiPattern (C : Matrix (Fin 6) (Fin 6) ℝ) : Prop :=
  ∃ C11 C33 C13 C44 C55, C = htiMatrix C11 C33 C13 C44 C55

/-- A stiffness matrix of the orthorhombic pattern. -/
def OrthoPattern (C : Matrix (Fin 6) (Fin 6) ℝ) : Prop :=
  ∃ C11 C22 C33 C12 C13 C23 C44 C55 C66, C = orthoMatrix C11 C22 C33 C12 C13 C23 C44 C55 C66

/-- Media depending smoothly on a parameter `t`, isotropic with velocities `α`, `β` and density
`ρ` at `t = 0`. -/
structure Departs (α β ρ : ℝ) (C : ℝ → Matrix (Fin 6) (Fin 6) ℝ) (r : ℝ → ℝ) : Prop where
  stiffness : C 0 = isoMatrix (ρ * (α ^ 2 - 4 / 3 * β ^ 2)) (ρ * β ^ 2)
  density : r 0 = ρ
  smooth : ∀ i j, DifferentiableAt ℝ (fun t => C t i j) 0
  smooth' : DifferentiableAt ℝ r 0

end RockPhy.Spec

namespace RockPhy.Props

open Fl Spec AVO Filter Topology Asymptotics Scat

/-- Rates of change of the entries of the stiffness at the background. -/
noncomputable def rate (C : ℝ → Matrix (Fin 6) (Fin 6) ℝ) : Matrix (Fin 6) (Fin 6) ℝ :=
  fun i j => deriv (fun t => C t i j) 0

section

variable {α β ρ : ℝ} {C : ℝ → Matrix (Fin 6) (Fin 6) ℝ} {r : ℝ → ℝ}

theorem iso_entry (α β ρ : ℝ) :
    isoMatrix (ρ * (α ^ 2 - 4 / 3 * β ^ 2)) (ρ * β ^ 2) = isoStiff (ρ * α ^ 2) (ρ * β ^ 2) := by
  unfold isoMatrix isoStiff
  congr 1 <;> ring

theorem _root_.RockPhy.Spec.HtiPattern.ortho {C : Matrix (Fin 6) (Fin 6) ℝ} (h : HtiPattern C) : OrthoPattern C := by
  obtain ⟨a, b, c, d, e, h⟩ := h
  exact ⟨_, _, _, _, _, _, _, _, _, h⟩

theorem _root_.RockPhy.Spec.OrthoPattern.eq {C : Matrix (Fin 6) (Fin 6) ℝ} (h : OrthoPattern C) :
    C = orthoMatrix (C 0 0) (C 1 1) (C 2 2) (C 0 1) (C 0 2) (C 1 2) (C 3 3) (C 4 4) (C 5 5) := by
  obtain ⟨a, b, c, d, e, f, g, i, j, rfl⟩ := h
  rfl

theorem rate_ortho (h : ∀ t, OrthoPattern (C t)) :
    rate C = orthoMatrix (rate C 0 0) (rate C 1 1) (rate C 2 2) (rate C 0 1) (rate C 0 2)
      (rate C 1 2) (rate C 3 3) (rate C 4 4) (rate C 5 5) := by
  have e : ∀ i j, (fun t => C t i j) = fun t => orthoMatrix (C t 0 0) (C t 1 1) (C t 2 2) (C t 0 1)
      (C t 0 2) (C t 1 2) (C t 3 3) (C t 4 4) (C t 5 5) i j := fun i j => by
    funext t; exact congrFun (congrFun (h t).eq i) j
  ext i j
  have e' : rate C i j = deriv (fun t => C t i j) 0 := rfl
  rw [e', e i j]
  fin_cases i <;> fin_cases j <;> first | rfl | exact deriv_const _ _

theorem rate_hti (h : ∀ t, HtiPattern (C t)) :
    rate C 1 1 = rate C 2 2 ∧ rate C 0 1 = rate C 0 2 ∧ rate C 5 5 = rate C 4 4 ∧
      ∀ t, C t 5 5 = C t 4 4 := by
  have e : ∀ t, C t 1 1 = C t 2 2 ∧ C t 0 1 = C t 0 2 ∧ C t 5 5 = C t 4 4 := by
    intro t
    obtain ⟨a, b, c, d, e, h⟩ := h t
    rw [h]
    exact ⟨rfl, rfl, rfl⟩
  refine ⟨?_, ?_, ?_, fun t => (e t).2.2⟩ <;> unfold rate <;> congr 1 <;> funext t
  · exact (e t).1
  · exact (e t).2.1
  · exact (e t).2.2

theorem rate_hti' (h : ∀ t, HtiPattern (C t)) (hd : Departs α β ρ C r) :
    rate C 1 2 = rate C 2 2 - 2 * rate C 3 3 := by
  have e : (fun t => C t 1 2) = fun t => C t 2 2 - 2 * C t 3 3 := by
    funext t
    obtain ⟨a, b, c, d, e, h⟩ := h t
    rw [h]
    rfl
  unfold rate
  rw [e]
  exact ((hd.smooth 2 2).hasDerivAt.sub ((hd.smooth 3 3).hasDerivAt.const_mul 2)).deriv

theorem _root_.RockPhy.Spec.Departs.path (hd : Departs α β ρ C r) (ho : ∀ t, OrthoPattern (C t)) {P1 P2 : ℝ → ℝ} {p1 p2 : ℝ}
    (t1 : Tendsto P1 (𝓝 0) (𝓝 p1)) (t2 : Tendsto P2 (𝓝 0) (𝓝 p2)) :
    Path (ρ * α ^ 2) (ρ * β ^ 2) ρ p1 p2 C r P1 P2 (rate C) (deriv r 0) where
  C0 := by rw [hd.stiffness, iso_entry]
  r0 := hd.density
  dC i j := (hd.smooth i j).hasDerivAt
  dr := hd.smooth'.hasDerivAt
  tP1 := t1
  tP2 := t2
  symm := Eventually.of_forall fun t => by
    rw [(ho t).eq]
    ext i j
    fin_cases i <;> fin_cases j <;> rfl

/-- The Born term of an orthorhombic change of medium. -/
theorem born_ortho {M ρ α p1 p2 q : ℝ} (hα : √(M / ρ) = α) (a b c d e f g h i r' : ℝ) :
    born M ρ p1 p2 q (orthoMatrix a b c d e f g h i) r'
      = α ^ 2 * (r' * (p1 ^ 2 + p2 ^ 2 - q ^ 2)
        - (a * p1 ^ 4 + b * p2 ^ 4 + c * q ^ 4 + 2 * d * p1 ^ 2 * p2 ^ 2 + 2 * e * p1 ^ 2 * q ^ 2
          + 2 * f * p2 ^ 2 * q ^ 2 - 4 * g * p2 ^ 2 * q ^ 2 - 4 * h * p1 ^ 2 * q ^ 2
          + 4 * i * p1 ^ 2 * p2 ^ 2)) := by
  unfold born
  rw [hα]
  simp only [strain_eq]
  simp [orthoMatrix, dotProduct, Matrix.mulVec, Fin.sum_univ_succ]
  ring

theorem background (hβ : 0 < β) (hαβ : β < α) (hρ : 0 < ρ) {t c s : ℝ} (hc : 0 < Real.cos t)
    (hs : c ^ 2 + s ^ 2 = 1) :
    Background (ρ * α ^ 2) (ρ * β ^ 2) ρ (Real.sin t / α * c) (Real.sin t / α * s) (Real.cos t / α)
      (√(1 / β ^ 2 - (Real.sin t / α) ^ 2)) := by
  have hα := hβ.trans hαβ
  have lt : (Real.sin t / α) ^ 2 < 1 / β ^ 2 := by
    have h1 : Real.sin t ^ 2 < 1 := by nlinarith [Real.sin_sq_add_cos_sq t]
    rw [div_pow, div_lt_div_iff₀ (by positivity) (by positivity)]
    nlinarith [sq_pos_of_pos hβ, sq_nonneg (Real.sin t)]
  have e : (Real.sin t / α * c) ^ 2 + (Real.sin t / α * s) ^ 2 = (Real.sin t / α) ^ 2 := by
    linear_combination (Real.sin t / α) ^ 2 * hs
  refine ⟨by positivity, ?_, hρ, by positivity, ?_, ?_, ?_⟩
  · have : β ^ 2 < α ^ 2 := by nlinarith
    exact mul_lt_mul_of_pos_left this hρ
  · rw [Real.sqrt_pos]; linarith
  · rw [e]
    field_simp
    exact Real.sin_sq_add_cos_sq t
  · rw [e, Real.sq_sqrt (by linarith)]
    field

/-- Second parameter of Tsvankin's notation for the plane of the other two axes. -/
noncomputable def pδ' (C : Mat6 ℝ) : ℝ :=
  ((C 1 2 + C 3 3) ^ 2 - (C 2 2 - C 3 3) ^ 2) / (2 * C 2 2 * (C 2 2 - C 3 3))
noncomputable def pε' (C : Mat6 ℝ) : ℝ := (C 1 1 - C 2 2) / (2 * C 2 2)

theorem quot {f g : ℝ → ℝ} {f' g0 : ℝ} (hf : HasDerivAt f f' 0) (h0 : f 0 = 0)
    (hg : ContinuousAt g 0) (e : g 0 = g0) (hne : g0 ≠ 0) :
    HasDerivAt (fun t => f t / g t) (f' / g0) 0 := by
  have k : Tendsto (fun t => (g t)⁻¹) (𝓝 0) (𝓝 g0⁻¹) := by
    rw [← e] at hne ⊢
    exact hg.inv₀ hne
  simpa only [div_eq_mul_inv] using deriv_mul_zero hf h0 k

/-- What a layer is near the background. -/
structure Near (α β ρ : ℝ) (C : ℝ → Mat6 ℝ) (r : ℝ → ℝ) : Prop where
  layer : ∀ᶠ t in 𝓝 0, HtiLayer (r t) (C t)
  a0 : vα (r 0) (C 0) = α
  b0 : vβ (r 0) (C 0) = β
  r0 : r 0 = ρ
  a : HasDerivAt (fun t => vα (r t) (C t)) (α / 2 * (rate C 2 2 / (ρ * α ^ 2) - deriv r 0 / ρ)) 0
  b : ContinuousAt (fun t => vβ (r t) (C t)) 0
  dr : HasDerivAt r (deriv r 0) 0
  z : HasDerivAt (fun t => r t * vβ (r t) (C t) ^ 2) (rate C 3 3) 0
  γ : HasDerivAt (fun t => (C t 3 3 - C t 4 4) / (2 * C t 4 4))
    ((rate C 3 3 - rate C 4 4) / (2 * (ρ * β ^ 2))) 0
  ε : HasDerivAt (fun t => pε (C t)) ((rate C 0 0 - rate C 2 2) / (2 * (ρ * α ^ 2))) 0
  ε' : HasDerivAt (fun t => pε' (C t)) ((rate C 1 1 - rate C 2 2) / (2 * (ρ * α ^ 2))) 0
  δ : HasDerivAt (fun t => pδ (C t)) ((rate C 0 2 + 2 * rate C 4 4 - rate C 2 2) / (ρ * α ^ 2)) 0
  δ' : HasDerivAt (fun t => pδ' (C t)) ((rate C 1 2 + 2 * rate C 3 3 - rate C 2 2) / (ρ * α ^ 2)) 0

theorem _root_.RockPhy.Spec.Departs.near (hd : Departs α β ρ C r) (hβ : 0 < β) (hαβ : β < α) (hρ : 0 < ρ) :
    Near α β ρ C r := by
  have hα := hβ.trans hαβ
  have d : ∀ i j, HasDerivAt (fun t => C t i j) (rate C i j) 0 := fun i j => (hd.smooth i j).hasDerivAt
  have c : ∀ i j, ContinuousAt (fun t => C t i j) 0 := fun i j => (d i j).continuousAt
  have dr := hd.smooth'.hasDerivAt
  have r0 := hd.density
  have e0 : C 0 = isoStiff (ρ * α ^ 2) (ρ * β ^ 2) := by rw [hd.stiffness, iso_entry]
  have e00 : C 0 0 0 = ρ * α ^ 2 := by rw [e0]; rfl
  have e11 : C 0 1 1 = ρ * α ^ 2 := by rw [e0]; rfl
  have e22 : C 0 2 2 = ρ * α ^ 2 := by rw [e0]; rfl
  have e02 : C 0 0 2 = ρ * α ^ 2 - 2 * (ρ * β ^ 2) := by rw [e0]; rfl
  have e12 : C 0 1 2 = ρ * α ^ 2 - 2 * (ρ * β ^ 2) := by rw [e0]; rfl
  have e33 : C 0 3 3 = ρ * β ^ 2 := by rw [e0]; rfl
  have e44 : C 0 4 4 = ρ * β ^ 2 := by rw [e0]; rfl
  have e55 : C 0 5 5 = ρ * β ^ 2 := by rw [e0]; rfl
  have sq : β ^ 2 < α ^ 2 := by nlinarith
  have gap : ρ * α ^ 2 - ρ * β ^ 2 ≠ 0 := by
    have := mul_lt_mul_of_pos_left sq hρ
    linarith
  have ev : ∀ {f : ℝ → ℝ}, ContinuousAt f 0 → 0 < f 0 → ∀ᶠ t in 𝓝 0, 0 < f t :=
    fun hf h => hf.eventually (lt_mem_nhds h)
  have pr := ev dr.continuousAt (by rw [r0]; exact hρ)
  have p2 := ev (c 2 2) (by rw [e22]; positivity)
  have p3 := ev (c 3 3) (by rw [e33]; positivity)
  have p5 := ev (c 5 5) (by rw [e55]; positivity)
  have p4 := ev ((c 2 2).sub (c 4 4)) (by
    have := mul_lt_mul_of_pos_left sq hρ
    simp only [Pi.sub_apply, e22, e44]; linarith)
  have sa : √(ρ * α ^ 2 / ρ) = α := by rw [mul_div_cancel_left₀ _ hρ.ne', Real.sqrt_sq hα.le]
  have sb : √(ρ * β ^ 2 / ρ) = β := by rw [mul_div_cancel_left₀ _ hρ.ne', Real.sqrt_sq hβ.le]
  have dd : ∀ (X S X' S' : ℝ) (f g h : ℝ → ℝ), HasDerivAt f X' 0 → HasDerivAt g S' 0 →
      HasDerivAt h X 0 → f 0 = ρ * α ^ 2 - 2 * (ρ * β ^ 2) → g 0 = ρ * β ^ 2 → h 0 = ρ * α ^ 2 →
      HasDerivAt (fun t => ((f t + g t) ^ 2 - (h t - g t) ^ 2) / (2 * h t * (h t - g t)))
        ((X' + 2 * S' - X) / (ρ * α ^ 2)) 0 := by
    intro X S X' S' f g h df dg dh ef eg eh
    have n := ((df.add dg).pow 2).sub ((dh.sub dg).pow 2)
    have m : ContinuousAt (fun t => 2 * h t * (h t - g t)) 0 :=
      (continuousAt_const.mul dh.continuousAt).mul (dh.continuousAt.sub dg.continuousAt)
    have q := quot (g0 := 2 * (ρ * α ^ 2) * (ρ * α ^ 2 - ρ * β ^ 2)) n
      (by simp only [Pi.sub_apply, Pi.pow_apply, Pi.add_apply, ef, eg, eh]; ring) m
      (by rw [eh, eg]) (mul_ne_zero (by positivity) gap)
    refine (q.congr_deriv ?_).congr_of_eventuallyEq (Eventually.of_forall fun t => rfl)
    simp only [Pi.sub_apply, Pi.add_apply, ef, eg, eh]
    have hM : ρ * α ^ 2 ≠ 0 := by positivity
    generalize ρ * α ^ 2 = M at hM gap ⊢
    generalize ρ * β ^ 2 = N at gap ⊢
    field
  refine ⟨?_, ?_, ?_, r0, ?_, ?_, dr, ?_, ?_, ?_, ?_, ?_, ?_⟩
  · filter_upwards [pr, p2, p3, p5, p4] with t pr p2 p3 p5 p4
    exact ⟨pr, p2, p3, p5.ne', by simp only [Pi.sub_apply] at p4; intro h; rw [h] at p4; simp at p4⟩
  · rw [vα, r0, e22, sa]
  · rw [vβ, r0, e33, sb]
  · have q := (((d 2 2).div dr (by rw [r0]; exact hρ.ne')).sqrt (by
      simp only [Pi.div_apply, e22, r0]; positivity))
    refine (q.congr_deriv ?_)
    simp only [Pi.div_apply, e22, r0, sa]
    field
  · exact ((c 3 3).div dr.continuousAt (by rw [r0]; exact hρ.ne')).sqrt
  · refine (d 3 3).congr_of_eventuallyEq ?_
    filter_upwards [pr, p3] with t pr p3
    rw [vβ, Real.sq_sqrt (by positivity)]
    field
  · exact quot ((d 3 3).sub (d 4 4)) (by simp [e33, e44]) ((continuousAt_const.mul (c 4 4)))
      (by rw [e44]) (by positivity)
  · exact quot ((d 0 0).sub (d 2 2)) (by simp [e00, e22]) ((continuousAt_const.mul (c 2 2)))
      (by rw [e22]) (by positivity)
  · exact quot ((d 1 1).sub (d 2 2)) (by simp [e11, e22]) ((continuousAt_const.mul (c 2 2)))
      (by rw [e22]) (by positivity)
  · exact dd _ 0 _ _ _ _ _ (d 0 2) (d 4 4) (d 2 2) e02 e44 e22
  · exact dd _ 0 _ _ _ _ _ (d 1 2) (d 3 3) (d 2 2) e12 e33 e22

/-- The parts common to all reflectivities. -/
theorem contrasts {C₁ C₂ : ℝ → Mat6 ℝ} {r₁ r₂ : ℝ → ℝ} (hα : 0 < α) (hβ : 0 < β) (hρ : 0 < ρ)
    (n1 : Near α β ρ C₁ r₁) (n2 : Near α β ρ C₂ r₂) :
    HasDerivAt (fun t => (r₂ t * vα (r₂ t) (C₂ t) - r₁ t * vα (r₁ t) (C₁ t))
        / (r₁ t * vα (r₁ t) (C₁ t) + r₂ t * vα (r₂ t) (C₂ t)))
      ((deriv r₂ 0 - deriv r₁ 0) / (4 * ρ) + (rate C₂ 2 2 - rate C₁ 2 2) / (4 * (ρ * α ^ 2))) 0 ∧
    HasDerivAt (fun t => (vα (r₂ t) (C₂ t) - vα (r₁ t) (C₁ t))
        / (vα (r₁ t) (C₁ t) + vα (r₂ t) (C₂ t)))
      ((rate C₂ 2 2 - rate C₁ 2 2) / (4 * (ρ * α ^ 2)) - (deriv r₂ 0 - deriv r₁ 0) / (4 * ρ)) 0 ∧
    HasDerivAt (fun t => (r₂ t * vβ (r₂ t) (C₂ t) ^ 2 - r₁ t * vβ (r₁ t) (C₁ t) ^ 2)
        / (r₁ t * vβ (r₁ t) (C₁ t) ^ 2 + r₂ t * vβ (r₂ t) (C₂ t) ^ 2))
      ((rate C₂ 3 3 - rate C₁ 3 3) / (2 * (ρ * β ^ 2))) 0 ∧
    Tendsto (fun t => 4 * ((vβ (r₁ t) (C₁ t) + vβ (r₂ t) (C₂ t))
        / (vα (r₁ t) (C₁ t) + vα (r₂ t) (C₂ t))) ^ 2) (𝓝 0) (𝓝 (4 * (β / α) ^ 2)) := by
  have a1 := n1.a
  have a2 := n2.a
  refine ⟨?_, ?_, ?_, ?_⟩
  · have q := quot (g0 := 2 * (ρ * α)) ((n2.dr.mul a2).sub (n1.dr.mul a1))
      (by simp only [Pi.sub_apply, Pi.mul_apply]; rw [n1.a0, n2.a0, n1.r0, n2.r0]; ring)
      ((n1.dr.mul a1).add (n2.dr.mul a2)).continuousAt
      (by simp only [Pi.add_apply, Pi.mul_apply]; rw [n1.a0, n2.a0, n1.r0, n2.r0]; ring) (by positivity)
    refine q.congr_deriv ?_
    rw [n1.a0, n2.a0, n1.r0, n2.r0]
    field
  · have q := quot (g0 := 2 * α) (a2.sub a1)
      (by simp only [Pi.sub_apply, n1.a0, n2.a0, sub_self]) (a1.add a2).continuousAt
      (by simp only [Pi.add_apply, n1.a0, n2.a0]; ring) (by positivity)
    refine q.congr_deriv ?_
    field
  · have q := quot (g0 := 2 * (ρ * β ^ 2)) (n2.z.sub n1.z)
      (by simp only [Pi.sub_apply]; rw [n1.b0, n2.b0, n1.r0, n2.r0]; ring)
      (n1.z.add n2.z).continuousAt
      (by simp only [Pi.add_apply]; rw [n1.b0, n2.b0, n1.r0, n2.r0]; ring) (by positivity)
    exact q
  · have q : ContinuousAt (fun t => 4 * ((vβ (r₁ t) (C₁ t) + vβ (r₂ t) (C₂ t))
        / (vα (r₁ t) (C₁ t) + vα (r₂ t) (C₂ t))) ^ 2) 0 :=
      continuousAt_const.mul (((n1.b.add n2.b).div (a1.continuousAt.add a2.continuousAt) (by
        simp only [Pi.add_apply]; rw [n1.a0, n2.a0]; positivity)).pow 2)
    have e : 4 * (β / α) ^ 2 = 4 * ((vβ (r₁ 0) (C₁ 0) + vβ (r₂ 0) (C₂ 0))
        / (vα (r₁ 0) (C₁ 0) + vα (r₂ 0) (C₂ 0))) ^ 2 := by
      rw [n1.a0, n2.a0, n1.b0, n2.b0]
      field
    rw [e]
    exact q

theorem deriv_zero_mul {f g : ℝ → ℝ} {f' g0 : ℝ} (hf : HasDerivAt f f' 0) (h0 : f 0 = 0)
    (hg : Tendsto g (𝓝 0) (𝓝 g0)) : HasDerivAt (fun t => g t * f t) (g0 * f') 0 := by
  simpa only [mul_comm] using deriv_mul_zero hf h0 hg

theorem littleO {R y : ℝ → ℝ} {d : ℝ} (hR : HasDerivAt R d 0) (hy : HasDerivAt y d 0)
    (h0 : R 0 = y 0) : (fun t => R t - y t) =o[𝓝 0] fun t => t := by
  have h := (hR.sub hy)
  rw [sub_self] at h
  have := hasDerivAt_iff_isLittleO.mp h
  simpa [h0] using this

/-- The exact coefficient in terms of angles. -/
theorem exact_deriv {C₁ C₂ : ℝ → Mat6 ℝ} {r₁ r₂ p R : ℝ → ℝ} (hβ : 0 < β) (hαβ : β < α)
    (hρ : 0 < ρ) (h1 : Departs α β ρ C₁ r₁) (h2 : Departs α β ρ C₂ r₂)
    (o1 : ∀ t, OrthoPattern (C₁ t)) (o2 : ∀ t, OrthoPattern (C₂ t)) {θ c s : ℝ} (hc : 0 < Real.cos θ)
    (hs : c ^ 2 + s ^ 2 = 1) (hp : Tendsto p (𝓝 0) (𝓝 (Real.sin θ / α)))
    (hR : ∀ᶠ t in 𝓝 0, ReflectsPP (C₁ t) (r₁ t) (C₂ t) (r₂ t) (p t * c) (p t * s) (R t)) :
    R 0 = 0 ∧ ∃ d, HasDerivAt R d 0 ∧ 4 * ρ * α ^ 2 * Real.cos θ ^ 2 * d
      = -(deriv r₂ 0 - deriv r₁ 0) * α ^ 2 * (Real.sin θ ^ 2 - Real.cos θ ^ 2)
        + ((rate C₂ 0 0 - rate C₁ 0 0) * (Real.sin θ * c) ^ 4
          + (rate C₂ 1 1 - rate C₁ 1 1) * (Real.sin θ * s) ^ 4
          + (rate C₂ 2 2 - rate C₁ 2 2) * Real.cos θ ^ 4
          + 2 * (rate C₂ 0 1 - rate C₁ 0 1) * (Real.sin θ * c) ^ 2 * (Real.sin θ * s) ^ 2
          + 2 * (rate C₂ 0 2 - rate C₁ 0 2) * (Real.sin θ * c) ^ 2 * Real.cos θ ^ 2
          + 2 * (rate C₂ 1 2 - rate C₁ 1 2) * (Real.sin θ * s) ^ 2 * Real.cos θ ^ 2
          - 4 * (rate C₂ 3 3 - rate C₁ 3 3) * (Real.sin θ * s) ^ 2 * Real.cos θ ^ 2
          - 4 * (rate C₂ 4 4 - rate C₁ 4 4) * (Real.sin θ * c) ^ 2 * Real.cos θ ^ 2
          + 4 * (rate C₂ 5 5 - rate C₁ 5 5) * (Real.sin θ * c) ^ 2 * (Real.sin θ * s) ^ 2) := by
  have hα := hβ.trans hαβ
  have sa : √(ρ * α ^ 2 / ρ) = α := by rw [mul_div_cancel_left₀ _ hρ.ne', Real.sqrt_sq hα.le]
  obtain ⟨e, d⟩ := reflection_deriv (background hβ hαβ hρ hc hs)
    (h1.path o1 (hp.mul_const c) (hp.mul_const s)) (h2.path o2 (hp.mul_const c) (hp.mul_const s)) hR
  refine ⟨e, _, d, ?_⟩
  have b1 := (congrArg (fun X => born (ρ * α ^ 2) ρ (Real.sin θ / α * c) (Real.sin θ / α * s)
    (Real.cos θ / α) X (deriv r₁ 0)) (rate_ortho o1)).trans (born_ortho sa _ _ _ _ _ _ _ _ _ _)
  have b2 := (congrArg (fun X => born (ρ * α ^ 2) ρ (Real.sin θ / α * c) (Real.sin θ / α * s)
    (Real.cos θ / α) X (deriv r₂ 0)) (rate_ortho o2)).trans (born_ortho sa _ _ _ _ _ _ _ _ _ _)
  beta_reduce at b1 b2
  rw [b1, b2]
  clear b1 b2 d
  have cs : Real.sin θ ^ 2 + Real.cos θ ^ 2 = 1 := Real.sin_sq_add_cos_sq θ
  have hq : Real.cos θ ≠ 0 := hc.ne'
  generalize Real.cos θ = q at *
  have key : (Real.sin θ / α * c) ^ 2 + (Real.sin θ / α * s) ^ 2 - (q / α) ^ 2
      = (Real.sin θ ^ 2 - q ^ 2) / α ^ 2 := by
    field_simp
    linear_combination Real.sin θ ^ 2 * hs
  rw [key]
  generalize Real.sin θ = z at *
  generalize deriv r₁ 0 = x1
  generalize deriv r₂ 0 = x2
  field_simp
  ring

/-- The value of `AVO_HTI` for two layers. -/
noncomputable def htiValue (D1 D2 : ℝ) (C1 C2 : Mat6 ℝ) (θ c s : ℝ) : ℝ :=
  threeTerm ((D2 * vα D2 C2 - D1 * vα D1 C1) / (D1 * vα D1 C1 + D2 * vα D2 C2))
    ((vα D2 C2 - vα D1 C1) / (vα D1 C1 + vα D2 C2)
      - 4 * ((vβ D1 C1 + vβ D2 C2) / (vα D1 C1 + vα D2 C2)) ^ 2
        * ((D2 * vβ D2 C2 ^ 2 - D1 * vβ D1 C1 ^ 2) / (D1 * vβ D1 C1 ^ 2 + D2 * vβ D2 C2 ^ 2))
      + ((pδ C2 - pδ C1) / 2 + 4 * ((vβ D1 C1 + vβ D2 C2) / (vα D1 C1 + vα D2 C2)) ^ 2
        * (pγ C2 - pγ C1)) * c ^ 2)
    ((vα D2 C2 - vα D1 C1) / (vα D1 C1 + vα D2 C2)
      + (pε C2 - pε C1) / 2 * c ^ 4 + (pδ C2 - pδ C1) / 2 * s ^ 2 * c ^ 2) θ

theorem htiValue_self (D : ℝ) (C : Mat6 ℝ) (θ c s : ℝ) : htiValue D D C C θ c s = 0 := by
  unfold htiValue threeTerm
  simp only [sub_self, zero_div, mul_zero, add_zero, zero_mul]

/-- C95: at every azimuth and angle below 90 degrees, each entry of `AVO_HTI` is the exact P-wave
reflection coefficient of the two half-spaces up to an error of higher order in the contrasts and
anisotropies. -/
theorem C95_hti {θ φ : ℝ} {C₁ C₂ : ℝ → Mat6 ℝ} {r₁ r₂ p R : ℝ → ℝ} (hβ : 0 < β) (hαβ : β < α)
    (hρ : 0 < ρ) (hθ0 : -90 < θ) (hθ1 : θ < 90) (h1 : Departs α β ρ C₁ r₁)
    (h2 : Departs α β ρ C₂ r₂) (t1 : ∀ t, HtiPattern (C₁ t)) (t2 : ∀ t, HtiPattern (C₂ t))
    (hp : Tendsto p (𝓝 0) (𝓝 (Real.sin (θ * (Real.pi / 180)) / α)))
    (hR : ∀ᶠ t in 𝓝 0, ReflectsPP (C₁ t) (r₁ t) (C₂ t) (r₂ t)
      (p t * Real.cos (φ * (Real.pi / 180))) (p t * Real.sin (φ * (Real.pi / 180))) (R t)) :
    ∃ y : ℝ → ℝ, (∀ᶠ t in 𝓝 0, AVO_HTI_entry (fin (r₁ t)) (fin (r₂ t)) (finMat (C₁ t))
        (finMat (C₂ t)) (fin θ) (fin φ) = fin (y t)) ∧
      (fun t => R t - y t) =o[𝓝 0] fun t => t := by
  have hα := hβ.trans hαβ
  have hc := cos_deg_pos hθ0 hθ1
  have n1 := h1.near hβ hαβ hρ
  have n2 := h2.near hβ hαβ hρ
  obtain ⟨e, d, hd, ed⟩ := exact_deriv hβ hαβ hρ h1 h2 (fun t => (t1 t).ortho)
    (fun t => (t2 t).ortho) hc (Real.cos_sq_add_sin_sq _) hp hR
  refine ⟨fun t => htiValue (r₁ t) (r₂ t) (C₁ t) (C₂ t) (θ * (Real.pi / 180))
    (Real.cos (φ * (Real.pi / 180))) (Real.sin (φ * (Real.pi / 180))), ?_, ?_⟩
  · filter_upwards [n1.layer, n2.layer] with t l1 l2
    exact hti_eval l1 l2 hc.ne'
  obtain ⟨k1, k2, k3, k4⟩ := contrasts hα hβ hρ n1 n2
  obtain ⟨x1, x2, x3, x4⟩ := rate_hti t1
  obtain ⟨y1, y2, y3, y4⟩ := rate_hti t2
  have x5 := rate_hti' t1 h1
  have y5 := rate_hti' t2 h2
  have g1 : HasDerivAt (fun t => pγ (C₁ t)) _ 0 := n1.γ.congr_of_eventuallyEq
    (Eventually.of_forall fun t => by simp only [pγ, x4 t])
  have g2 : HasDerivAt (fun t => pγ (C₂ t)) _ 0 := n2.γ.congr_of_eventuallyEq
    (Eventually.of_forall fun t => by simp only [pγ, y4 t])
  have eC : C₁ 0 = C₂ 0 := h1.stiffness.trans h2.stiffness.symm
  have er : r₁ 0 = r₂ 0 := h1.density.trans h2.density.symm
  have sG := deriv_zero_mul k3 (by rw [eC, er, sub_self, zero_div]) k4
  have sγ := deriv_zero_mul (g2.sub g1) (by simp only [Pi.sub_apply, eC, sub_self]) k4
  have dδ := (n2.δ.sub n1.δ).div_const 2
  have dε := (n2.ε.sub n1.ε).div_const 2
  have cs := Real.cos_sq_add_sin_sq (φ * (Real.pi / 180))
  have cs' := Real.sin_sq_add_cos_sq (θ * (Real.pi / 180))
  generalize Real.cos (φ * (Real.pi / 180)) = cφ at *
  generalize Real.sin (φ * (Real.pi / 180)) = sφ at *
  generalize θ * (Real.pi / 180) = θ' at *
  have Y := (k1.add (((k2.sub sG).add ((dδ.add sγ).mul_const (cφ ^ 2))).mul_const
    (Real.sin θ' ^ 2))).add ((((k2.add (dε.mul_const (cφ ^ 4))).add
      ((dδ.mul_const (sφ ^ 2)).mul_const (cφ ^ 2))).mul_const
        (Real.sin θ' ^ 2)).mul_const (Real.tan θ' ^ 2))
  refine littleO hd (Y.congr_deriv ?_) ?_
  · refine mul_left_cancel₀ (show 4 * ρ * α ^ 2 * Real.cos θ' ^ 2 ≠ 0 by positivity) ?_
    rw [ed, x1, x2, x3, x5, y1, y2, y3, y5, Real.tan_eq_sin_div_cos]
    clear ed Y hd
    have hc' := hc.ne'
    generalize Real.cos θ' = q at *
    generalize Real.sin θ' = z at *
    generalize rate C₁ 0 0 = u1
    generalize rate C₂ 0 0 = v1
    generalize rate C₁ 2 2 = u2
    generalize rate C₂ 2 2 = v2
    generalize rate C₁ 0 2 = u3
    generalize rate C₂ 0 2 = v3
    generalize rate C₁ 3 3 = u4
    generalize rate C₂ 3 3 = v4
    generalize rate C₁ 4 4 = u5
    generalize rate C₂ 4 4 = v5
    generalize deriv r₁ 0 = u6
    generalize deriv r₂ 0 = v6
    have es : sφ ^ 2 = 1 - cφ ^ 2 := by linarith
    have ez : q ^ 2 = 1 - z ^ 2 := by linarith
    field_simp
    rw [show q ^ 4 = (1 - z ^ 2) ^ 2 by rw [← ez]; ring, show sφ ^ 4 = (1 - cφ ^ 2) ^ 2 by rw [← es]; ring,
      es, ez]
    ring
  · rw [e, eC, er, htiValue_self]

/-- The part of both orthorhombic reflectivities. -/
noncomputable def orthoValue (D1 D2 : ℝ) (C1 C2 : Mat6 ℝ) (θ e1 e2 d1 d2 g1 g2 : ℝ) : ℝ :=
  threeTerm ((D2 * vα D2 C2 - D1 * vα D1 C1) / (D1 * vα D1 C1 + D2 * vα D2 C2))
    ((vα D2 C2 - vα D1 C1) / (vα D1 C1 + vα D2 C2)
      - 4 * ((vβ D1 C1 + vβ D2 C2) / (vα D1 C1 + vα D2 C2)) ^ 2
        * ((D2 * vβ D2 C2 ^ 2 - D1 * vβ D1 C1 ^ 2) / (D1 * vβ D1 C1 ^ 2 + D2 * vβ D2 C2 ^ 2) - (g2 - g1))
      + (d2 - d1) / 2)
    ((vα D2 C2 - vα D1 C1) / (vα D1 C1 + vα D2 C2) + (e2 - e1) / 2) θ

/-- C95: both results of `AVO_ortho`, for the vertical velocities and Tsvankin's parameters of two
orthorhombic half-spaces, are the exact P-wave reflection coefficients in the two vertical symmetry
planes up to an error of higher order in the contrasts and anisotropies. -/
theorem C95_ortho {θ : ℝ} {C₁ C₂ : ℝ → Mat6 ℝ} {r₁ r₂ p Rx Ry : ℝ → ℝ} (hβ : 0 < β) (hαβ : β < α)
    (hρ : 0 < ρ) (hθ0 : -90 < θ) (hθ1 : θ < 90) (h1 : Departs α β ρ C₁ r₁)
    (h2 : Departs α β ρ C₂ r₂) (t1 : ∀ t, OrthoPattern (C₁ t)) (t2 : ∀ t, OrthoPattern (C₂ t))
    (hp : Tendsto p (𝓝 0) (𝓝 (Real.sin (θ * (Real.pi / 180)) / α)))
    (hx : ∀ᶠ t in 𝓝 0, ReflectsPP (C₁ t) (r₁ t) (C₂ t) (r₂ t) (p t) 0 (Rx t))
    (hy : ∀ᶠ t in 𝓝 0, ReflectsPP (C₁ t) (r₁ t) (C₂ t) (r₂ t) 0 (p t) (Ry t)) :
    let a := fun (r : ℝ) (C : Mat6 ℝ) => fin √(C 2 2 / r)
    let b := fun (r : ℝ) (C : Mat6 ℝ) => fin √(C 3 3 / r)
    let ε₂ := fun C : Mat6 ℝ => fin ((C 0 0 - C 2 2) / (2 * C 2 2))
    let ε₁ := fun C : Mat6 ℝ => fin ((C 1 1 - C 2 2) / (2 * C 2 2))
    let δ₂ := fun C : Mat6 ℝ =>
      fin (((C 0 2 + C 4 4) ^ 2 - (C 2 2 - C 4 4) ^ 2) / (2 * C 2 2 * (C 2 2 - C 4 4)))
    let δ₁ := fun C : Mat6 ℝ =>
      fin (((C 1 2 + C 3 3) ^ 2 - (C 2 2 - C 3 3) ^ 2) / (2 * C 2 2 * (C 2 2 - C 3 3)))
    let γ := fun C : Mat6 ℝ => fin ((C 3 3 - C 4 4) / (2 * C 4 4))
    ∃ x y : ℝ → ℝ, (∀ᶠ t in 𝓝 0,
        AVO_ortho (a (r₁ t) (C₁ t)) (b (r₁ t) (C₁ t)) (ε₁ (C₁ t)) (δ₁ (C₁ t)) (ε₂ (C₁ t)) (δ₂ (C₁ t))
          (γ (C₁ t)) (fin (r₁ t)) (a (r₂ t) (C₂ t)) (b (r₂ t) (C₂ t)) (ε₁ (C₂ t)) (δ₁ (C₂ t))
          (ε₂ (C₂ t)) (δ₂ (C₂ t)) (γ (C₂ t)) (fin (r₂ t)) (fin θ) = (fin (x t), fin (y t))) ∧
      ((fun t => Rx t - x t) =o[𝓝 0] fun t => t) ∧ ((fun t => Ry t - y t) =o[𝓝 0] fun t => t) := by
  intro a b ε₂ ε₁ δ₂ δ₁ γ
  have hα := hβ.trans hαβ
  have hc := cos_deg_pos hθ0 hθ1
  have n1 := h1.near hβ hαβ hρ
  have n2 := h2.near hβ hαβ hρ
  obtain ⟨e, d, hd, ed⟩ := exact_deriv (c := 1) (s := 0) hβ hαβ hρ h1 h2 t1 t2 hc (by norm_num) hp
    (by simpa only [mul_one, mul_zero] using hx)
  obtain ⟨e', d', hd', ed'⟩ := exact_deriv (c := 0) (s := 1) hβ hαβ hρ h1 h2 t1 t2 hc (by norm_num) hp
    (by simpa only [mul_one, mul_zero] using hy)
  let g := fun C : Mat6 ℝ => (C 3 3 - C 4 4) / (2 * C 4 4)
  have eC : C₁ 0 = C₂ 0 := h1.stiffness.trans h2.stiffness.symm
  have er : r₁ 0 = r₂ 0 := h1.density.trans h2.density.symm
  refine ⟨fun t => orthoValue (r₁ t) (r₂ t) (C₁ t) (C₂ t) (θ * (Real.pi / 180)) (pε (C₁ t))
      (pε (C₂ t)) (pδ (C₁ t)) (pδ (C₂ t)) (g (C₁ t)) (g (C₂ t)),
    fun t => orthoValue (r₁ t) (r₂ t) (C₁ t) (C₂ t) (θ * (Real.pi / 180)) (pε' (C₁ t))
      (pε' (C₂ t)) (pδ' (C₁ t)) (pδ' (C₂ t)) 0 0, ?_, ?_, ?_⟩
  · filter_upwards [n1.layer, n2.layer] with t l1 l2
    have q1 := l1.vα_pos
    have q2 := l2.vα_pos
    have q3 := l1.vβ_pos
    have q4 := l2.vβ_pos
    have q5 := l1.D
    have q6 := l2.D
    refine (ortho_eval (add_pos q1 q2).ne' (add_pos (mul_pos q5 q1) (mul_pos q6 q2)).ne'
      (add_pos (mul_pos q5 (pow_pos q3 2)) (mul_pos q6 (pow_pos q4 2))).ne' hc.ne').trans ?_
    unfold orthoValue
    rw [sub_self (0 : ℝ), sub_zero]
    rfl
  all_goals
    obtain ⟨k1, k2, k3, k4⟩ := contrasts hα hβ hρ n1 n2
    have cs' := Real.sin_sq_add_cos_sq (θ * (Real.pi / 180))
    generalize θ * (Real.pi / 180) = θ' at *
  · have sG := deriv_zero_mul (k3.sub (n2.γ.sub n1.γ))
      (by simp only [Pi.sub_apply]; rw [eC, er]; ring) k4
    have Y := (k1.add (((k2.sub sG).add ((n2.δ.sub n1.δ).div_const 2)).mul_const
      (Real.sin θ' ^ 2))).add (((k2.add ((n2.ε.sub n1.ε).div_const 2)).mul_const
        (Real.sin θ' ^ 2)).mul_const (Real.tan θ' ^ 2))
    refine littleO hd (Y.congr_deriv ?_) ?_
    · refine mul_left_cancel₀ (show 4 * ρ * α ^ 2 * Real.cos θ' ^ 2 ≠ 0 by positivity) ?_
      rw [ed, Real.tan_eq_sin_div_cos]
      clear ed Y hd
      have hc' := hc.ne'
      generalize Real.cos θ' = q at *
      generalize Real.sin θ' = z at *
      generalize rate C₁ = u
      generalize rate C₂ = v
      generalize deriv r₁ 0 = u6
      generalize deriv r₂ 0 = v6
      have ez : q ^ 2 = 1 - z ^ 2 := by linarith
      field_simp
      rw [show q ^ 4 = (1 - z ^ 2) ^ 2 by rw [← ez]; ring, ez]
      ring
    · rw [e, eC, er]
      simp [orthoValue, threeTerm]
  · have sG := deriv_zero_mul k3 (by rw [eC, er, sub_self, zero_div]) k4
    have Y := (k1.add (((k2.sub sG).add ((n2.δ'.sub n1.δ').div_const 2)).mul_const
      (Real.sin θ' ^ 2))).add (((k2.add ((n2.ε'.sub n1.ε').div_const 2)).mul_const
        (Real.sin θ' ^ 2)).mul_const (Real.tan θ' ^ 2))
    refine littleO hd' ((Y.congr_deriv ?_).congr_of_eventuallyEq (Eventually.of_forall fun t => ?_)) ?_
    · refine mul_left_cancel₀ (show 4 * ρ * α ^ 2 * Real.cos θ' ^ 2 ≠ 0 by positivity) ?_
      rw [ed', Real.tan_eq_sin_div_cos]
      clear ed' Y hd'
      have hc' := hc.ne'
      generalize Real.cos θ' = q at *
      generalize Real.sin θ' = z at *
      generalize rate C₁ = u
      generalize rate C₂ = v
      generalize deriv r₁ 0 = u6
      generalize deriv r₂ 0 = v6
      have ez : q ^ 2 = 1 - z ^ 2 := by linarith
      field_simp
      rw [show q ^ 4 = (1 - z ^ 2) ^ 2 by rw [← ez]; ring, ez]
      ring
    · simp only [orthoValue, threeTerm, sub_self, sub_zero]
      rfl
    · rw [e', eC, er]
      simp [orthoValue, threeTerm]

/-- C95: near the isotropic background there is exactly one exact P-wave reflection coefficient at
every azimuth and angle below 90 degrees, so `AVO_HTI` and `AVO_ortho` always have something to
approximate. -/
theorem C95_exists {θ φ : ℝ} {C₁ C₂ : ℝ → Mat6 ℝ} {r₁ r₂ p : ℝ → ℝ} (hβ : 0 < β) (hαβ : β < α)
    (hρ : 0 < ρ) (hθ0 : -90 < θ) (hθ1 : θ < 90) (h1 : Departs α β ρ C₁ r₁)
    (h2 : Departs α β ρ C₂ r₂) (t1 : ∀ t, OrthoPattern (C₁ t)) (t2 : ∀ t, OrthoPattern (C₂ t))
    (hp : Tendsto p (𝓝 0) (𝓝 (Real.sin (θ * (Real.pi / 180)) / α))) :
    ∀ᶠ t in 𝓝 0, ∃! R, ReflectsPP (C₁ t) (r₁ t) (C₂ t) (r₂ t)
      (p t * Real.cos (φ * (Real.pi / 180))) (p t * Real.sin (φ * (Real.pi / 180))) R := by
  have b := background hβ hαβ hρ (cos_deg_pos hθ0 hθ1) (Real.cos_sq_add_sin_sq (φ * (Real.pi / 180)))
  have P1 := h1.path t1 (hp.mul_const (Real.cos (φ * (Real.pi / 180))))
    (hp.mul_const (Real.sin (φ * (Real.pi / 180))))
  have P2 := h2.path t2 (hp.mul_const (Real.cos (φ * (Real.pi / 180))))
    (hp.mul_const (Real.sin (φ * (Real.pi / 180))))
  filter_upwards [b.reflects P1.tendsto P2.tendsto P1.symm P2.symm,
    b.reflects_unique P1.tendsto P2.tendsto P1.symm P2.symm] with t ⟨R, hR⟩ hu
  exact ⟨R, hR, fun R' hR' => hu R' R hR' hR⟩

/-- At normal incidence two half-spaces of orthorhombic pattern reflect like columns of fluid. -/
theorem normal_incidence {a b c d e f g h i a' b' c' d' e' f' g' h' i' r r' : ℝ} (hc : 0 < c)
    (hc' : 0 < c') (hr : 0 < r) (hr' : 0 < r') :
    ReflectsPP (orthoMatrix a b c d e f g h i) r (orthoMatrix a' b' c' d' e' f' g' h' i') r' 0 0
      ((√(r' * c') - √(r * c)) / (√(r' * c') + √(r * c))) := by
  have w : ∀ {a b c d e f g h i r : ℝ} (τ : ℝ), τ = 1 ∨ τ = -1 → 0 < c → 0 < r →
      IsP (orthoMatrix a b c d e f g h i) r ![0, 0, τ * √(r / c)] ![0, 0, τ] ∧
      traction (orthoMatrix a b c d e f g h i) ![0, 0, τ * √(r / c)] ![0, 0, τ]
        = ![0, 0, √(r * c)] := by
    intro a b c d e f g h i r τ hτ hc hr
    have tt : τ * τ = 1 := by rcases hτ with rfl | rfl <;> norm_num
    have p := Real.sqrt_pos.mpr (div_pos hr hc)
    have sq := Real.mul_self_sqrt (div_pos hr hc).le
    have tr : traction (orthoMatrix a b c d e f g h i) ![0, 0, τ * √(r / c)] ![0, 0, τ]
        = ![0, 0, √(r * c)] := by
      have k : √(r * c) = c * √(r / c) := by
        rw [← Real.sqrt_sq hc.le, ← Real.sqrt_mul (sq_nonneg c), Real.sqrt_sq hc.le]
        congr 1
        field
      rw [traction_eq, k]
      funext j
      fin_cases j
      · simp [orthoMatrix, Matrix.mulVec, dotProduct, Fin.sum_univ_succ, strain_eq]
      · simp [orthoMatrix, Matrix.mulVec, dotProduct, Fin.sum_univ_succ, strain_eq]
      · simp [orthoMatrix, Matrix.mulVec, dotProduct, Fin.sum_univ_succ, strain_eq]
        left
        linear_combination √(r / c) * tt
    refine ⟨⟨?_, ?_, ?_, ?_⟩, tr⟩
    · rw [isWave_iff]
      funext j
      fin_cases j
      · simp [orthoMatrix, Matrix.mulVec, dotProduct, Fin.sum_univ_succ, strain_eq, dirMatrix]
      · simp [orthoMatrix, Matrix.mulVec, dotProduct, Fin.sum_univ_succ, strain_eq, dirMatrix]
      · simp [orthoMatrix, Matrix.mulVec, dotProduct, Fin.sum_univ_succ, strain_eq, dirMatrix]
        have k : c * (√(r / c) * √(r / c)) = r := by rw [sq]; field
        linear_combination τ * τ * τ * k + r * τ * tt
    · simpa [dotProduct, Fin.sum_univ_three] using tt
    · simp [dotProduct, Fin.sum_univ_three]
      nlinarith
    · simp [dotProduct, Fin.sum_univ_three]
      nlinarith [mul_pos p p]
  have z1 : 0 < √(r * c) := Real.sqrt_pos.mpr (mul_pos hr hc)
  have z2 : 0 < √(r' * c') := Real.sqrt_pos.mpr (mul_pos hr' hc')
  obtain ⟨i1, i2⟩ := w (a := a) (b := b) (d := d) (e := e) (f := f) (g := g) (h := h) (i := i) 1
    (Or.inl rfl) hc hr
  obtain ⟨j1, j2⟩ := w (a := a) (b := b) (d := d) (e := e) (f := f) (g := g) (h := h) (i := i) (-1)
    (Or.inr rfl) hc hr
  obtain ⟨k1, k2⟩ := w (a := a') (b := b') (d := d') (e := e') (f := f') (g := g') (h := h')
    (i := i') 1 (Or.inl rfl) hc' hr'
  have s0 : ∀ (C : Mat6 ℝ) (r q : ℝ), IsS C r ![0, 0, q] 0 ∧ traction C ![0, 0, q] 0 = 0 ∧
      downFlux C ![0, 0, q] 0 = 0 := by
    intro C r q
    refine ⟨⟨?_, ?_⟩, ?_, ?_⟩ <;> simp [IsWave, traction, waveStrain, downFlux]
  refine ⟨⟨2 * √(r * c) / (√(r' * c') + √(r * c)), 1 * √(r / c), -1 * √(r / c), 0, 1,
    1 * √(r' / c'), 0, 1, ![0, 0, 1], ![0, 0, -1], 0, 0, ![0, 0, 1], 0, 0⟩, ?_⟩
  refine ⟨i1, ?_, j1, ?_, (s0 _ _ _).1, (s0 _ r _).2.2.le, (s0 _ _ _).1, (s0 _ r _).2.2.le,
    zero_ne_one, k1, ?_, (s0 _ _ _).1, (s0 _ r _).2.2.ge, (s0 _ _ _).1, (s0 _ r _).2.2.ge,
    zero_ne_one, ?_, ?_⟩
  · simp only [downFlux, i2]
    simp [dotProduct, Fin.sum_univ_three]
  · simp only [downFlux, j2]
    simp [dotProduct, Fin.sum_univ_three]
  · simp only [downFlux, k2]
    simp [dotProduct, Fin.sum_univ_three]
  · funext j
    fin_cases j <;> simp
    field
  · simp only [i2, j2, k2, (s0 _ r _).2.1]
    funext j
    fin_cases j <;> simp
    field

end

/-- Two half-spaces that grow apart: the upper stays isotropic, the lower becomes HTI. -/
def growing : ℝ → Mat6 ℝ := fun t => htiMatrix (9 - t) (9 + 2 * t) (1 + t) (4 + t) (4 - t)

example : ∃ y : ℝ → ℝ, (∀ᶠ t in 𝓝 0, AVO_HTI_entry (fin 1) (fin (1 + t)) (finMat (growing 0))
      (finMat (growing t)) (fin 0) (fin 30) = fin (y t)) ∧
    (fun t => (√((1 + t) * (9 + 2 * t)) - √(1 * 9)) / (√((1 + t) * (9 + 2 * t)) + √(1 * 9)) - y t)
      =o[𝓝 0] fun t => t := by
  have e0 : growing 0 = isoMatrix (1 * ((3 : ℝ) ^ 2 - 4 / 3 * 2 ^ 2)) (1 * 2 ^ 2) := by
    unfold growing htiMatrix isoMatrix
    congr 1 <;> norm_num
  refine C95_hti (α := 3) (β := 2) (ρ := 1) (p := fun _ => 0) (by norm_num) (by norm_num)
    (by norm_num) (by norm_num) (by norm_num) ⟨e0, rfl, fun i j => by fun_prop, by fun_prop⟩
    ⟨e0, by norm_num, fun i j => ?_, by fun_prop⟩ (fun t => ⟨_, _, _, _, _, rfl⟩)
    (fun t => ⟨_, _, _, _, _, rfl⟩) (by simp) ?_
  · fin_cases i <;> fin_cases j <;> simp [growing, htiMatrix, orthoMatrix] <;> fun_prop
  · have h1 : ∀ᶠ t : ℝ in 𝓝 0, (-1 : ℝ) < t := lt_mem_nhds (by norm_num)
    filter_upwards [h1] with t ht
    simp only [zero_mul]
    have := normal_incidence (a := 9) (b := 9) (c := 9) (d := 1) (e := 1) (f := 1) (g := 4) (h := 4)
      (i := 4) (r := 1) (a' := 9 - t) (b' := 9 + 2 * t) (c' := 9 + 2 * t) (d' := 1 + t) (e' := 1 + t)
      (f' := 9 + 2 * t - 2 * (4 + t)) (g' := 4 + t) (h' := 4 - t) (i' := 4 - t) (r' := 1 + t)
      (by norm_num) (by linarith) (by norm_num) (by linarith)
    convert this using 1
    · unfold growing htiMatrix
      congr 1 <;> norm_num
    · rfl

theorem growing_departs : Departs 3 2 1 (fun _ => growing 0) (fun _ => 1) ∧
    Departs 3 2 1 growing (fun t => 1 + t) := by
  have e0 : growing 0 = isoMatrix (1 * ((3 : ℝ) ^ 2 - 4 / 3 * 2 ^ 2)) (1 * 2 ^ 2) := by
    unfold growing htiMatrix isoMatrix
    congr 1 <;> norm_num
  refine ⟨⟨e0, rfl, fun i j => by fun_prop, by fun_prop⟩, ⟨e0, by norm_num, fun i j => ?_, by fun_prop⟩⟩
  fin_cases i <;> fin_cases j <;> simp [growing, htiMatrix, orthoMatrix] <;> fun_prop

/-- An oblique incidence and azimuth. -/
example : ∃ R y : ℝ → ℝ, (∀ᶠ t in 𝓝 0, ReflectsPP (growing 0) 1 (growing t) (1 + t)
      (Real.sin (30 * (Real.pi / 180)) / 3 * Real.cos (40 * (Real.pi / 180)))
      (Real.sin (30 * (Real.pi / 180)) / 3 * Real.sin (40 * (Real.pi / 180))) (R t)) ∧
    (∀ᶠ t in 𝓝 0, AVO_HTI_entry (fin 1) (fin (1 + t)) (finMat (growing 0)) (finMat (growing t))
      (fin 30) (fin 40) = fin (y t)) ∧ (fun t => R t - y t) =o[𝓝 0] fun t => t := by
  have hti : ∀ t, HtiPattern (growing t) := fun t => ⟨_, _, _, _, _, rfl⟩
  have ex := C95_exists (θ := 30) (φ := 40) (p := fun _ => Real.sin (30 * (Real.pi / 180)) / 3)
    (by norm_num) (by norm_num) (by norm_num) (by norm_num) (by norm_num) growing_departs.1
    growing_departs.2 (fun t => (hti 0).ortho) (fun t => (hti t).ortho) tendsto_const_nhds
  classical
  let R : ℝ → ℝ := fun t => if h : ∃! R, ReflectsPP (growing 0) 1 (growing t) (1 + t)
      (Real.sin (30 * (Real.pi / 180)) / 3 * Real.cos (40 * (Real.pi / 180)))
      (Real.sin (30 * (Real.pi / 180)) / 3 * Real.sin (40 * (Real.pi / 180))) R
    then h.choose else 0
  have hR : ∀ᶠ t in 𝓝 0, ReflectsPP (growing 0) 1 (growing t) (1 + t)
      (Real.sin (30 * (Real.pi / 180)) / 3 * Real.cos (40 * (Real.pi / 180)))
      (Real.sin (30 * (Real.pi / 180)) / 3 * Real.sin (40 * (Real.pi / 180))) (R t) := by
    filter_upwards [ex] with t ht
    have : R t = ht.choose := dif_pos ht
    rw [this]
    exact ht.choose_spec.1
  obtain ⟨y, h1, h2⟩ := C95_hti (by norm_num) (by norm_num) (by norm_num) (by norm_num) (by norm_num)
    growing_departs.1 growing_departs.2 (fun t => hti 0) hti tendsto_const_nhds hR
  exact ⟨R, y, hR, h1, h2⟩

end RockPhy.Props
