import Verif.Props.PeriodicHS

/-! # Property C92: the shear modulus -/

namespace RockPhy.Props

open Fl Spec EM MeasureTheory UnitAddTorus

/-! ## Five deviators -/

theorem wt5_pos (a : Fin 5) : 0 < wt5 a := by
  have h : ∀ x : ℝ, x = 1 / 6 ∨ x = 1 / 2 → 0 < x := by rintro x (rfl | rfl) <;> norm_num
  apply h
  fin_cases a
  · exact .inr rfl
  · exact .inr rfl
  · exact .inr rfl
  · exact .inr rfl
  · exact .inl rfl

theorem dev5_symm (a : Fin 5) (i j : Fin 3) : dev5 a i j = dev5 a j i := by
  fin_cases a <;> fin_cases i <;> fin_cases j <;> rfl

theorem dev5_trace (a : Fin 5) : dev5 a 0 0 + dev5 a 1 1 + dev5 a 2 2 = 0 := by
  fin_cases a
  · change (0 : ℝ) + 0 + 0 = 0; norm_num
  · change (0 : ℝ) + 0 + 0 = 0; norm_num
  · change (0 : ℝ) + 0 + 0 = 0; norm_num
  · change (1 : ℝ) + -1 + 0 = 0; norm_num
  · change (1 : ℝ) + 1 + -2 = 0; norm_num

theorem dev5_norm (a : Fin 5) : wt5 a * contract (dev5 a) (dev5 a) = 1 := by
  simp only [contract, Fin.sum_univ_three]
  fin_cases a
  · change (1 / 2 : ℝ) * ((0 * 0 + 1 * 1 + 0 * 0) + (1 * 1 + 0 * 0 + 0 * 0) + (0 * 0 + 0 * 0 + 0 * 0)) = 1
    norm_num
  · change (1 / 2 : ℝ) * ((0 * 0 + 0 * 0 + 1 * 1) + (0 * 0 + 0 * 0 + 0 * 0) + (1 * 1 + 0 * 0 + 0 * 0)) = 1
    norm_num
  · change (1 / 2 : ℝ) * ((0 * 0 + 0 * 0 + 0 * 0) + (0 * 0 + 0 * 0 + 1 * 1) + (0 * 0 + 1 * 1 + 0 * 0)) = 1
    norm_num
  · change (1 / 2 : ℝ) * ((1 * 1 + 0 * 0 + 0 * 0) + (0 * 0 + -1 * -1 + 0 * 0) + (0 * 0 + 0 * 0 + 0 * 0)) = 1
    norm_num
  · change (1 / 6 : ℝ) * ((1 * 1 + 0 * 0 + 0 * 0) + (0 * 0 + 1 * 1 + 0 * 0) + (0 * 0 + 0 * 0 + -2 * -2)) = 1
    norm_num

/-- The traction of a tensor on a plane of normal `n`. -/
def tract (E : Tensor) (n : Fin 3 → ℝ) (i : Fin 3) : ℝ := ∑ j, E i j * n j

def dot3 (a b : Fin 3 → ℝ) : ℝ := a 0 * b 0 + a 1 * b 1 + a 2 * b 2

theorem dev5_normal {n : Fin 3 → ℝ} (h : dot3 n n = 1) :
    ∑ a, wt5 a * dot3 n (tract (dev5 a) n) ^ 2 = 2 / 3 := by
  unfold dot3 at *
  simp [Fin.sum_univ_five, wt5, dev5, tract, Fin.sum_univ_three]
  linear_combination 2 / 3 * (n 0 * n 0 + n 1 * n 1 + n 2 * n 2 + 1) * h

theorem dev5_tangent {n : Fin 3 → ℝ} (h : dot3 n n = 1) :
    ∑ a, wt5 a * dot3 (tract (dev5 a) n) (tract (dev5 a) n) = 5 / 3 := by
  unfold dot3 at *
  simp [Fin.sum_univ_five, wt5, dev5, tract, Fin.sum_univ_three]
  linear_combination 5 / 3 * h

theorem energy_symT (K0 G0 : ℝ) {n : Fin 3 → ℝ} (h : dot3 n n = 1) (v : Fin 3 → ℝ) :
    contract (isoStress K0 G0 (symT n v)) (symT n v)
      = G0 * dot3 v v + (K0 + G0 / 3) * dot3 n v ^ 2 := by
  unfold dot3 at *
  simp [contract, isoStress, symT, Matrix.trace, Fin.sum_univ_three, Matrix.one_apply]
  linear_combination G0 * (v 0 * v 0 + v 1 * v 1 + v 2 * v 2) * h

theorem contract_symT_tract {E : Tensor} (hE : ∀ i j, E i j = E j i) (n v : Fin 3 → ℝ) :
    contract E (symT n v) = dot3 (tract E n) v := by
  have s1 := hE 1 0; have s2 := hE 2 0; have s3 := hE 2 1
  simp only [contract, symT, tract, dot3, Fin.sum_univ_three]
  rw [s1, s2, s3]
  ring

theorem perp_nonneg {n : Fin 3 → ℝ} (h : dot3 n n = 1) (a b : Fin 3 → ℝ) (x y : ℝ) :
    0 ≤ x ^ 2 * (dot3 a a - dot3 n a ^ 2) + 2 * x * y * (dot3 b a - dot3 n a * dot3 n b)
      + y ^ 2 * (dot3 b b - dot3 n b ^ 2) := by
  have e : x ^ 2 * (dot3 a a - dot3 n a ^ 2) + 2 * x * y * (dot3 b a - dot3 n a * dot3 n b)
      + y ^ 2 * (dot3 b b - dot3 n b ^ 2)
      = (x * (a 0 - dot3 n a * n 0) + y * (b 0 - dot3 n b * n 0)) ^ 2
        + (x * (a 1 - dot3 n a * n 1) + y * (b 1 - dot3 n b * n 1)) ^ 2
        + (x * (a 2 - dot3 n a * n 2) + y * (b 2 - dot3 n b * n 2)) ^ 2 := by
    have ha : dot3 n a = n 0 * a 0 + n 1 * a 1 + n 2 * a 2 := rfl
    have hb : dot3 n b = n 0 * b 0 + n 1 * b 1 + n 2 * b 2 := rfl
    have h' : n 0 * n 0 + n 1 * n 1 + n 2 * n 2 = 1 := h
    generalize dot3 n a = p at *
    generalize dot3 n b = q at *
    unfold dot3
    linear_combination (-2 * x * (x * p + y * q)) * ha - 2 * y * (x * p + y * q) * hb
      - (x * p + y * q) ^ 2 * h'
  rw [e]
  positivity

/-- The least energy of a gradient of direction `n` under the polarisation `t E`. -/
theorem gradient_bound {K0 G0 : ℝ} (hG : 0 < G0) (hK : 0 ≤ K0) {E : Tensor}
    (hE : ∀ i j, E i j = E j i) {n : Fin 3 → ℝ} (h : dot3 n n = 1) (v : Fin 3 → ℝ) (t : ℝ) :
    0 ≤ contract (isoStress K0 G0 (symT n v)) (symT n v) + 2 * t * contract E (symT n v)
      + t ^ 2 * ((dot3 (tract E n) (tract E n) - dot3 n (tract E n) ^ 2) / G0
        + dot3 n (tract E n) ^ 2 / (K0 + 4 / 3 * G0)) := by
  have M : 0 < K0 + 4 / 3 * G0 := by positivity
  rw [energy_symT K0 G0 h, contract_symT_tract hE]
  have p := perp_nonneg h v (tract E n) G0 t
  have q := sq_nonneg ((K0 + 4 / 3 * G0) * dot3 n v + t * dot3 n (tract E n))
  have p' := div_nonneg p hG.le
  have q' := div_nonneg q M.le
  generalize dot3 (tract E n) v = w at *
  generalize dot3 (tract E n) (tract E n) = r at *
  generalize dot3 n (tract E n) = s at *
  generalize dot3 n v = u at *
  generalize dot3 v v = g at *
  have e : G0 * g + (K0 + G0 / 3) * u ^ 2 + 2 * t * w
      + t ^ 2 * ((r - s ^ 2) / G0 + s ^ 2 / (K0 + 4 / 3 * G0))
      = (G0 ^ 2 * (g - u ^ 2) + 2 * G0 * t * (w - u * s) + t ^ 2 * (r - s ^ 2)) / G0
        + ((K0 + 4 / 3 * G0) * u + t * s) ^ 2 / (K0 + 4 / 3 * G0) := by
    field
  rw [e]
  exact add_nonneg p' q'

/-- The least complementary energy of a plane tensor under the polarisation `t E`. -/
theorem plane_bound {K0 G0 : ℝ} (hG : 0 < G0) (hK : 0 < K0) {E S : Tensor}
    (hE : ∀ i j, E i j = E j i) (hT : E 0 0 + E 1 1 + E 2 2 = 0)
    (hS : ∀ i j, S i j = S j i) {n : Fin 3 → ℝ} (h : dot3 n n = 1)
    (hn : ∀ i, ∑ j, n j * S i j = 0) (t : ℝ) :
    0 ≤ contract (isoStress (1 / (9 * K0)) (1 / (4 * G0)) S) S + 2 * t * contract E S
      + t ^ 2 * (2 * G0 * contract E E
        - 4 * G0 * (dot3 (tract E n) (tract E n) - dot3 n (tract E n) ^ 2)
        - 4 * G0 ^ 2 * dot3 n (tract E n) ^ 2 / (K0 + 4 / 3 * G0)) := by
  set s := dot3 n (tract E n) with hs
  set p := 2 * G0 * t * s / (K0 + 4 / 3 * G0) - 2 * t * s with hp
  set v : Fin 3 → ℝ := fun i => 2 * t * tract E n i + p * n i with hv
  have o := contract_symT hS hn v
  have key : ∀ X : Tensor, 0 ≤ contract (isoStress (1 / (9 * K0)) (1 / (4 * G0)) S) S
      - 2 * contract S X + contract (isoStress K0 G0 X) X := by
    intro X
    have e : contract (isoStress (1 / (9 * K0)) (1 / (4 * G0)) S) S
        - 2 * contract S X + contract (isoStress K0 G0 X) X
        = contract (isoStress (1 / (9 * K0)) (1 / (4 * G0)) (S - isoStress K0 G0 X)) (S - isoStress K0 G0 X) := by
      simp [contract, isoStress, Matrix.trace, Fin.sum_univ_three, Matrix.one_apply]
      field
    rw [e, contract_hooke]
    have := contract_self_nonneg (S - isoStress K0 G0 X - ((S - isoStress K0 G0 X).trace / 3) • 1)
    positivity
  have k := key (symT n v - t • E)
  have e1 : contract S (symT n v - t • E) = - (t * contract E S) := by
    have : contract S (symT n v - t • E) = contract S (symT n v) - t * contract E S := by
      simp [contract, Fin.sum_univ_three]
      ring
    rw [this, o, zero_sub]
  have e2 : contract (isoStress K0 G0 (symT n v - t • E)) (symT n v - t • E)
      = contract (isoStress K0 G0 (symT n v)) (symT n v) - 4 * G0 * t * contract E (symT n v)
        + t ^ 2 * (2 * G0 * contract E E) := by
    have e22 : E 2 2 = - E 0 0 - E 1 1 := by linarith
    simp only [contract, hooke_apply, Fin.sum_univ_three, Matrix.sub_apply, Matrix.smul_apply,
      smul_eq_mul, Matrix.one_apply]
    simp only [Fin.isValue, if_true, Fin.reduceEq, if_false, e22]
    ring
  have d1 : dot3 n v = 2 * t * s + p := by
    rw [hs]
    unfold dot3 at *
    simp only [hv]
    linear_combination p * h
  have d2 : dot3 (tract E n) v = 2 * t * dot3 (tract E n) (tract E n) + p * s := by
    rw [hs]
    unfold dot3
    simp only [hv]
    ring
  have d3 : dot3 v v = 4 * t ^ 2 * dot3 (tract E n) (tract E n) + 4 * t * p * s + p ^ 2 := by
    rw [hs]
    unfold dot3 at *
    simp only [hv]
    linear_combination p ^ 2 * h
  rw [e1, e2, energy_symT K0 G0 h, contract_symT_tract hE, d1, d2, d3] at k
  refine k.trans (le_of_eq ?_)
  rw [hp]
  generalize dot3 (tract E n) (tract E n) = r
  generalize contract (isoStress (1 / (9 * K0)) (1 / (4 * G0)) S) S = c
  generalize contract E S = q
  generalize contract E E = u
  field_simp
  ring

/-! ## Polarised fields -/

theorem parseval_sq {f : Cell → ℝ} (hf : MemLp f 2 cellVolume) :
    HasSum (fun k => (coeff f k).re ^ 2 + (coeff f k).im ^ 2) (∫ x, f x ^ 2 ∂cellVolume) := by
  simpa only [sq] using parseval hf hf

section

variable {n : ℕ} {phase : Cell → Fin n} {K G : Fin n → ℝ}

theorem memLp_fun (hp : Measurable phase) (t : Fin n → ℝ) : MemLp (fun x => t (phase x)) 2 cellVolume := by
  have := memLp_phase (μ := cellVolume) hp t (memLp_const (1 : ℝ))
  simpa using this

theorem polarised_finite (hp : Measurable phase) (t : Fin n → ℝ) (D : Tensor) :
    FiniteEnergy fun x => t (phase x) • D := by
  intro i j
  have := (memLp_fun hp t).mul_const (D i j)
  simpa using this

theorem contract_smul_left (t : ℝ) (D e : Tensor) : contract (t • D) e = t * contract D e := by
  simp [contract, Finset.mul_sum, mul_assoc]

theorem contract_smul_right (t : ℝ) (D e : Tensor) : contract D (t • e) = t * contract D e := by
  rw [contract_comm, contract_smul_left, contract_comm]

theorem reT_polarised (t : Fin n → ℝ) (D : Tensor) (k : Fin 3 → ℤ) :
    reT (fun x => t (phase x) • D) k = (coeff (fun x => t (phase x)) k).re • D := by
  funext i j
  have : (fun x => (t (phase x) • D) i j) = fun x => D i j * t (phase x) := by
    funext x; simp [mul_comm]
  unfold reT
  rw [this, coeff_smul]
  simp [mul_comm]

theorem imT_polarised (t : Fin n → ℝ) (D : Tensor) (k : Fin 3 → ℤ) :
    imT (fun x => t (phase x) • D) k = (coeff (fun x => t (phase x)) k).im • D := by
  funext i j
  have : (fun x => (t (phase x) • D) i j) = fun x => D i j * t (phase x) := by
    funext x; simp [mul_comm]
  unfold imT
  rw [this, coeff_smul]
  simp [mul_comm]

/-- Five fields whose means are the five deviators. -/
theorem polarised_bound (hp : Measurable phase) (t : Fin n → ℝ) {F : Fin 5 → Cell → Tensor}
    (hF : ∀ a, FiniteEnergy (F a)) (hm : ∀ a, average cellVolume (F a) = dev5 a) {α β g : ℝ}
    (hre : ∀ k ≠ 0, ∀ τ : ℝ, 0 ≤ ∑ a, wt5 a * (contract (isoStress α β (reT (F a) k)) (reT (F a) k)
      + 2 * τ * contract (dev5 a) (reT (F a) k)) + g * τ ^ 2)
    (him : ∀ k ≠ 0, ∀ τ : ℝ, 0 ≤ ∑ a, wt5 a * (contract (isoStress α β (imT (F a) k)) (imT (F a) k)
      + 2 * τ * contract (dev5 a) (imT (F a) k)) + g * τ ^ 2) :
    10 * β + 10 * (∫ x, t (phase x) ∂cellVolume) + g * (∫ x, t (phase x) ∂cellVolume) ^ 2
      ≤ ∑ a, wt5 a * ((∫ x, contract (isoStress α β (F a x)) (F a x) ∂cellVolume)
          + 2 * ∫ x, t (phase x) * contract (dev5 a) (F a x) ∂cellVolume)
        + g * ∫ x, t (phase x) ^ 2 ∂cellVolume := by
  have h1 : ∀ a, HasSum (fun k => contract ((coeff (fun x => t (phase x)) k).re • dev5 a) (reT (F a) k)
      + contract ((coeff (fun x => t (phase x)) k).im • dev5 a) (imT (F a) k))
      (∫ x, t (phase x) * contract (dev5 a) (F a x) ∂cellVolume) := by
    intro a
    have := parseval_contract (polarised_finite hp t (dev5 a)) (hF a)
    simpa only [reT_polarised, imT_polarised, contract_smul_left] using this
  have h2 := (hasSum_sum (s := Finset.univ) fun a _ =>
    ((energy_hasSum (hF a) α β).add ((h1 a).mul_left 2)).mul_left (wt5 a)).add
      ((parseval_sq (memLp_fun hp t)).mul_left g)
  have l := le_hasSum h2 0 fun k hk => by
    have r := hre k hk (coeff (fun x => t (phase x)) k).re
    have i := him k hk (coeff (fun x => t (phase x)) k).im
    simp only [contract_smul_left]
    refine (add_nonneg r i).trans (le_of_eq ?_)
    simp only [Fin.sum_univ_five]
    ring
  refine le_trans (le_of_eq ?_) l
  have q : ∀ a, contract (isoStress α β (dev5 a)) (dev5 a) = 2 * β * contract (dev5 a) (dev5 a) := by
    intro a
    have z : (dev5 a).trace = 0 := by
      have := dev5_trace a
      simpa [Matrix.trace, Fin.sum_univ_three] using this
    rw [contract_hooke, z]
    simp
  simp only [reT_zero, imT_zero, hm, contract_zero, contract_smul_left, q, coeff_zero,
    Complex.ofReal_re, Complex.ofReal_im, add_zero]
  have c : ∀ a, wt5 a * (2 * β * contract (dev5 a) (dev5 a)
      + 2 * ((∫ x, t (phase x) ∂cellVolume) * contract (dev5 a) (dev5 a)))
      = 2 * β + 2 * ∫ x, t (phase x) ∂cellVolume := by
    intro a
    linear_combination (2 * β + 2 * ∫ x, t (phase x) ∂cellVolume) * dev5_norm a
  simp only [c, Fin.sum_univ_five]
  ring

theorem dot3_unit {m : Fin 3 → ℝ} (h : m 0 ^ 2 + m 1 ^ 2 + m 2 ^ 2 = 1) : dot3 m m = 1 := by
  unfold dot3; linarith

theorem trace_entries (D : Tensor) : D.trace = D 0 0 + D 1 1 + D 2 2 := by
  simp [Matrix.trace, Fin.sum_univ_three]

theorem contract_dev {D : Tensor} (hD : D 0 0 + D 1 1 + D 2 2 = 0) (e : Tensor) (c s : ℝ) :
    contract (e - c • 1 - s • D) (e - c • 1 - s • D)
      = contract (e - c • 1) (e - c • 1) - 2 * s * contract D e + s ^ 2 * contract D D := by
  simp only [contract, Fin.sum_univ_three, Matrix.sub_apply, Matrix.smul_apply, smul_eq_mul,
    Matrix.one_apply]
  simp only [Fin.isValue, if_true, Fin.reduceEq, if_false]
  linear_combination (2 * s * c) * hD

theorem phase_quad (hp : Measurable phase) (t s : Fin n → ℝ) :
    ∫ x, t (phase x) * s (phase x) ∂cellVolume = ∑ i, fraction cellVolume phase i * (t i * s i) :=
  integral_phase (μ := cellVolume) hp fun i => t i * s i

/-- The mean work of five fields, from below. -/
theorem work_bound (hp : Measurable phase) (t s : Fin n → ℝ) {F : Fin 5 → Cell → Tensor}
    (hF : ∀ a, FiniteEnergy (F a)) (hm : ∀ a, average cellVolume (F a) = dev5 a) {α β g : ℝ}
    (hre : ∀ k ≠ 0, ∀ τ : ℝ, 0 ≤ ∑ a, wt5 a * (contract (isoStress α β (reT (F a) k)) (reT (F a) k)
      + 2 * τ * contract (dev5 a) (reT (F a) k)) + g * τ ^ 2)
    (him : ∀ k ≠ 0, ∀ τ : ℝ, 0 ≤ ∑ a, wt5 a * (contract (isoStress α β (imT (F a) k)) (imT (F a) k)
      + 2 * τ * contract (dev5 a) (imT (F a) k)) + g * τ ^ 2) {w : Fin 5 → Cell → ℝ}
    (hw : ∀ a, Integrable (w a) cellVolume)
    (hl : ∀ a x, contract (isoStress α β (F a x)) (F a x) + 2 * (t (phase x) * contract (dev5 a) (F a x))
      - t (phase x) * s (phase x) * contract (dev5 a) (dev5 a) ≤ w a x) :
    10 * β + 10 * (∑ i, fraction cellVolume phase i * t i)
      + g * (∑ i, fraction cellVolume phase i * t i) ^ 2
      - ∑ i, fraction cellVolume phase i * (g * t i ^ 2 + 5 * (t i * s i))
      ≤ ∑ a, wt5 a * ∫ x, w a x ∂cellVolume := by
  have b := polarised_bound hp t hF hm hre him
  have l : ∀ a, (∫ x, contract (isoStress α β (F a x)) (F a x) ∂cellVolume)
      + 2 * (∫ x, t (phase x) * contract (dev5 a) (F a x) ∂cellVolume)
      - (∑ i, fraction cellVolume phase i * (t i * s i)) * contract (dev5 a) (dev5 a)
      ≤ ∫ x, w a x ∂cellVolume := by
    intro a
    have i1 := FiniteEnergy.contract_integrable (FiniteEnergy.isoStress (hF a) α β) (hF a)
    have i2 : Integrable (fun x => t (phase x) * contract (dev5 a) (F a x)) cellVolume := by
      have := FiniteEnergy.contract_integrable (polarised_finite hp t (dev5 a)) (hF a)
      simpa only [contract_smul_left] using this
    have i3 := (integrable_phase (μ := cellVolume) hp fun i => t i * s i).mul_const
      (contract (dev5 a) (dev5 a))
    have m := integral_mono ((i1.sub i3).add (i2.const_mul 2)) (hw a) fun x => by
      have := hl a x
      simp only [Pi.add_apply, Pi.sub_apply]
      linarith
    simp only [Pi.add_apply, Pi.sub_apply] at m
    rw [integral_sub_add i1 i3 (i2.const_mul 2), integral_const_mul, integral_mul_const,
      phase_quad hp] at m
    linarith
  have q : ∫ x, t (phase x) ^ 2 ∂cellVolume = ∑ i, fraction cellVolume phase i * t i ^ 2 :=
    integral_phase (μ := cellVolume) hp fun i => t i ^ 2
  rw [q, integral_phase hp] at b
  have e : ∑ i, fraction cellVolume phase i * (g * t i ^ 2 + 5 * (t i * s i))
      = g * (∑ i, fraction cellVolume phase i * t i ^ 2)
        + 5 * ∑ i, fraction cellVolume phase i * (t i * s i) := by
    rw [Finset.mul_sum, Finset.mul_sum, ← Finset.sum_add_distrib]
    exact Finset.sum_congr rfl fun i _ => by ring
  rw [e]
  have l' := Finset.sum_le_sum (s := Finset.univ) fun a _ =>
    mul_le_mul_of_nonneg_left (l a) (wt5_pos a).le
  have nn := dev5_norm
  generalize (∑ i, fraction cellVolume phase i * (t i * s i)) = ts at *
  generalize (∑ i, fraction cellVolume phase i * t i ^ 2) = tt at *
  have r : ∑ a, wt5 a * ((∫ x, contract (isoStress α β (F a x)) (F a x) ∂cellVolume)
      + 2 * (∫ x, t (phase x) * contract (dev5 a) (F a x) ∂cellVolume)
      - ts * contract (dev5 a) (dev5 a))
      = ∑ a, wt5 a * ((∫ x, contract (isoStress α β (F a x)) (F a x) ∂cellVolume)
      + 2 * ∫ x, t (phase x) * contract (dev5 a) (F a x) ∂cellVolume) - 5 * ts := by
    rw [Fin.sum_univ_five, Fin.sum_univ_five]
    linear_combination -ts * (nn 0 + nn 1 + nn 2 + nn 3 + nn 4)
  rw [r] at l'
  linarith

theorem hsShear_add {K0 G0 : ℝ} (hG : 0 < G0) (hK : 0 ≤ K0) :
    1 / G0 + 2 / 3 / (K0 + 4 / 3 * G0) = 5 / (2 * (G0 + hsShear K0 G0)) := by
  unfold hsShear
  have h : G0 + G0 / 6 * ((9 * K0 + 8 * G0) / (K0 + 2 * G0))
      = 5 * G0 * (3 * K0 + 4 * G0) / (6 * (K0 + 2 * G0)) := by field
  rw [h]
  field

theorem hsShear_dual {K0 G0 : ℝ} (hG : 0 < G0) (hK : 0 ≤ K0) :
    6 * G0 - 8 / 3 * G0 ^ 2 / (K0 + 4 / 3 * G0)
      = 10 * G0 * hsShear K0 G0 / (G0 + hsShear K0 G0) := by
  unfold hsShear
  have h : G0 + G0 / 6 * ((9 * K0 + 8 * G0) / (K0 + 2 * G0))
      = 5 * G0 * (3 * K0 + 4 * G0) / (6 * (K0 + 2 * G0)) := by field
  rw [h]
  field

theorem hsShear_pos' {K0 G0 : ℝ} (hG : 0 < G0) (hK : 0 ≤ K0) : 0 < hsShear K0 G0 := by
  unfold hsShear; positivity

theorem gradient_sum {K0 G0 : ℝ} (hG : 0 < G0) (hK : 0 ≤ K0) {m : Fin 3 → ℝ} (h : dot3 m m = 1)
    (v : Fin 5 → Fin 3 → ℝ) (τ : ℝ) :
    0 ≤ ∑ a, wt5 a * (contract (isoStress K0 G0 (symT m (v a))) (symT m (v a))
      + 2 * τ * contract (dev5 a) (symT m (v a))) + 5 / (2 * (G0 + hsShear K0 G0)) * τ ^ 2 := by
  have s := Finset.sum_nonneg (s := Finset.univ) fun a _ => mul_nonneg (wt5_pos a).le
    (gradient_bound hG hK (dev5_symm a) h (v a) τ)
  refine s.trans (le_of_eq ?_)
  rw [← hsShear_add hG hK]
  have n1 := dev5_normal h
  have n2 := dev5_tangent h
  rw [Fin.sum_univ_five] at *
  rw [Fin.sum_univ_five]
  have M : 0 < K0 + 4 / 3 * G0 := by positivity
  linear_combination τ ^ 2 / G0 * n2 + τ ^ 2 * (1 / (K0 + 4 / 3 * G0) - 1 / G0) * n1

theorem plane_sum {K0 G0 : ℝ} (hG : 0 < G0) (hK : 0 < K0) {m : Fin 3 → ℝ} (h : dot3 m m = 1)
    {S : Fin 5 → Tensor} (hS : ∀ a i j, S a i j = S a j i) (hn : ∀ a i, ∑ j, m j * S a i j = 0)
    (τ : ℝ) :
    0 ≤ ∑ a, wt5 a * (contract (isoStress (1 / (9 * K0)) (1 / (4 * G0)) (S a)) (S a)
      + 2 * τ * contract (dev5 a) (S a))
      + 10 * G0 * hsShear K0 G0 / (G0 + hsShear K0 G0) * τ ^ 2 := by
  have s := Finset.sum_nonneg (s := Finset.univ) fun a _ => mul_nonneg (wt5_pos a).le
    (plane_bound hG hK (dev5_symm a) (dev5_trace a) (hS a) h (hn a) τ)
  refine s.trans (le_of_eq ?_)
  rw [← hsShear_dual hG hK.le]
  have n1 := dev5_normal h
  have n2 := dev5_tangent h
  have n3 := dev5_norm
  rw [Fin.sum_univ_five] at *
  rw [Fin.sum_univ_five]
  linear_combination 2 * G0 * τ ^ 2 * (n3 0 + n3 1 + n3 2 + n3 3 + n3 4) - 4 * G0 * τ ^ 2 * n2
    + τ ^ 2 * (4 * G0 - 4 * G0 ^ 2 / (K0 + 4 / 3 * G0)) * n1

/-! ## Shear modulus -/

theorem shear_lower (hp : Measurable phase) {K0 G0 : ℝ} (hG : ∀ i, G0 ≤ G i) (hK : ∀ i, K0 ≤ K i)
    (g0 : 0 < G0) (k0 : 0 ≤ K0) {S : Fin 5 → Tensor} (h : ∀ a, Response phase K G (dev5 a) (S a)) :
    10 * ((∑ i, fraction cellVolume phase i * (1 / (G i + hsShear K0 G0)))⁻¹ - hsShear K0 G0)
      ≤ ∑ a, wt5 a * contract (S a) (dev5 a) := by
  choose e sy fe co eq me ms using h
  have fs := fun a => FiniteEnergy.stress (K := K) (G := G) hp (fe a)
  have w : ∀ a, ∫ x, contract (stress phase K G (e a) x) (e a x) ∂cellVolume
      = contract (S a) (dev5 a) := fun a => by
    rw [hill_lemma (fe a) (fs a) (stress_symm (sy a)) (co a) (eq a), me, ms]
  have z0 := hsShear_pos' g0 k0
  have Yp := recip_pos (μ := cellVolume) hp (κ := fun i => G i + hsShear K0 G0)
    (fun i => by have := hG i; linarith)
  have gs := fun (m : Fin 3 → ℝ) hm v τ => gradient_sum (K0 := K0) (G0 := G0) g0 k0 (m := m) hm v τ
  generalize hz : hsShear K0 G0 = z at *
  set y : Fin n → ℝ := fun i => 1 / (G i + z) with hy
  set Y := ∑ i, fraction cellVolume phase i * (1 / (G i + z)) with hY
  have yp : ∀ i, (G i + z) * y i = 1 := fun i => by
    have := hG i
    have : G i + z ≠ 0 := by linarith
    simp only [hy]; field
  have par : ∀ k ≠ (0 : Fin 3 → ℤ), ∃ m : Fin 3 → ℝ, dot3 m m = 1 ∧
      (∃ v : Fin 5 → Fin 3 → ℝ, ∀ a, reT (e a) k = symT m (v a)) ∧
      ∃ v : Fin 5 → Fin 3 → ℝ, ∀ a, imT (e a) k = symT m (v a) := by
    intro k hk
    obtain ⟨r, m, _, hm, hk'⟩ := unit_direction hk
    choose v u h1 h2 using fun a => (co a).parts hk
    refine ⟨m, dot3_unit hm, ⟨fun a i => r * v a i, fun a => ?_⟩, ⟨fun a i => r * u a i, fun a => ?_⟩⟩
    · rw [h1, symT_scale hk']
    · rw [h2, symT_scale hk']
  have b := work_bound hp (t := fun i => 2 * (G i - G0) * (y i / Y)) (s := fun i => y i / Y) fe me
    (α := K0) (β := G0) (g := 5 / (2 * (G0 + z)))
    (fun k hk τ => by
      obtain ⟨m, hm, ⟨v, hv⟩, _⟩ := par k hk
      simp only [hv]; exact gs m hm v τ)
    (fun k hk τ => by
      obtain ⟨m, hm, _, ⟨v, hv⟩⟩ := par k hk
      simp only [hv]; exact gs m hm v τ)
    (w := fun a x => contract (stress phase K G (e a) x) (e a x))
    (fun a => FiniteEnergy.contract_integrable (fs a) (fe a))
    (fun a x => by
      have c : contract (stress phase K G (e a) x) (e a x) = _ :=
        contract_hooke (K (phase x)) (G (phase x)) (e a x)
      rw [c, contract_hooke]
      have d := contract_self_nonneg (e a x - ((e a x).trace / 3) • 1 - (y (phase x) / Y) • dev5 a)
      rw [contract_dev (dev5_trace a)] at d
      have d1 := mul_nonneg (sub_nonneg.mpr (hG (phase x))) d
      have d2 := mul_nonneg (sub_nonneg.mpr (hK (phase x))) (sq_nonneg (e a x).trace)
      linarith)
  simp only [w] at b
  refine le_trans (le_of_eq ?_) b
  have s1 : ∑ i, fraction cellVolume phase i * (2 * (G i - G0) * (y i / Y))
      = 2 / Y * (1 - (G0 + z) * Y) := by
    have : ∀ i, fraction cellVolume phase i * (2 * (G i - G0) * (y i / Y))
        = 2 / Y * (fraction cellVolume phase i) - 2 / Y * (G0 + z) * (fraction cellVolume phase i * y i) := by
      intro i
      linear_combination 2 / Y * fraction cellVolume phase i * yp i
    simp only [this]
    rw [Finset.sum_sub_distrib, ← Finset.mul_sum, ← Finset.mul_sum, sum_fraction hp]
    simp only [hy, ← hY]
    ring
  have s2 : ∑ i, fraction cellVolume phase i * (5 / (2 * (G0 + z)) * (2 * (G i - G0) * (y i / Y)) ^ 2
      + 5 * (2 * (G i - G0) * (y i / Y) * (y i / Y)))
      = 10 / Y ^ 2 / (G0 + z) * (1 - (G0 + z) * Y) := by
    have : ∀ i, fraction cellVolume phase i * (5 / (2 * (G0 + z)) * (2 * (G i - G0) * (y i / Y)) ^ 2
      + 5 * (2 * (G i - G0) * (y i / Y) * (y i / Y)))
        = 10 / Y ^ 2 / (G0 + z) * (fraction cellVolume phase i)
          - 10 / Y ^ 2 * (fraction cellVolume phase i * y i) := by
      intro i
      have e1 : (G i - G0) * y i = 1 - (G0 + z) * y i := by linear_combination yp i
      have e2 : 5 / (2 * (G0 + z)) * (2 * (G i - G0) * (y i / Y)) ^ 2
          + 5 * (2 * (G i - G0) * (y i / Y) * (y i / Y))
          = 10 / Y ^ 2 / (G0 + z) * ((G i - G0) * y i) * ((G i - G0) * y i + (G0 + z) * y i) := by
        field
      rw [e2, e1]
      field
    simp only [this]
    rw [Finset.sum_sub_distrib, ← Finset.mul_sum, ← Finset.mul_sum, sum_fraction hp]
    simp only [hy, ← hY]
    field
  rw [s1, s2]
  have : Y ≠ 0 := Yp.ne'
  generalize Y = Y' at *
  field_simp
  ring

theorem shear_upper (hp : Measurable phase) {K0 G0 : ℝ} (hG : ∀ i, G i ≤ G0) (hK : ∀ i, K i ≤ K0)
    (g0 : ∀ i, 0 < G i) (k0 : ∀ i, 0 < K i) {E : Fin 5 → Tensor}
    (h : ∀ a, Response phase K G (E a) (dev5 a)) :
    5 ≤ 2 * (∑ a, wt5 a * contract (dev5 a) (E a))
      * ((∑ i, fraction cellVolume phase i * (1 / (G i + hsShear K0 G0)))⁻¹ - hsShear K0 G0) := by
  have G0p : 0 < G0 := (g0 (phase 0)).trans_le (hG _)
  have K0p : 0 < K0 := (k0 (phase 0)).trans_le (hK _)
  choose e sy fe co eq me ms using h
  have fs := fun a => FiniteEnergy.stress (K := K) (G := G) hp (fe a)
  have w : ∀ a, ∫ x, contract (stress phase K G (e a) x) (e a x) ∂cellVolume
      = contract (dev5 a) (E a) := fun a => by
    rw [hill_lemma (fe a) (fs a) (stress_symm (sy a)) (co a) (eq a), me, ms]
  have z0 := hsShear_pos' G0p K0p.le
  have Yp := recip_pos (μ := cellVolume) hp (κ := fun i => G i + hsShear K0 G0)
    (fun i => by have := g0 i; linarith)
  have gs := fun (m : Fin 3 → ℝ) hm S τ => plane_sum (K0 := K0) (G0 := G0) G0p K0p (m := m) hm
    (S := S) (τ := τ)
  generalize hz : hsShear K0 G0 = z at *
  set y : Fin n → ℝ := fun i => 1 / (G i + z) with hy
  set Y := ∑ i, fraction cellVolume phase i * (1 / (G i + z)) with hY
  have yp : ∀ i, (G i + z) * y i = 1 := fun i => by
    have := g0 i
    have : G i + z ≠ 0 := by linarith
    simp only [hy]; field
  have zy : 0 < 1 - z * Y := by
    have l : ∑ i, fraction cellVolume phase i * (G i * y i) = 1 - z * Y := by
      have : ∀ i, fraction cellVolume phase i * (G i * y i)
          = fraction cellVolume phase i - z * (fraction cellVolume phase i * y i) := fun i => by
        linear_combination fraction cellVolume phase i * yp i
      simp only [this]
      rw [Finset.sum_sub_distrib, ← Finset.mul_sum, sum_fraction hp]
    rw [← l]
    have := recip_pos (μ := cellVolume) hp (κ := fun i => (G i + z) / G i)
      (fun i => by have := g0 i; positivity)
    simpa [hy, div_eq_mul_inv] using this
  have par : ∀ k ≠ (0 : Fin 3 → ℤ), ∃ m : Fin 3 → ℝ, dot3 m m = 1 ∧
      (∀ a i, ∑ j, m j * reT (stress phase K G (e a)) k i j = 0) ∧
      ∀ a i, ∑ j, m j * imT (stress phase K G (e a)) k i j = 0 := by
    intro k hk
    obtain ⟨r, m, r0, hm, hk'⟩ := unit_direction hk
    have c : ∀ {T : Tensor}, (∀ i, ∑ j, (k j : ℝ) * T i j = 0) → ∀ i, ∑ j, m j * T i j = 0 := by
      intro T hT i
      have := hT i
      simp only [hk', mul_assoc, ← Finset.mul_sum] at this
      exact (mul_eq_zero.mp this).resolve_left r0
    exact ⟨m, dot3_unit hm, fun a => c ((eq a).parts k).1, fun a => c ((eq a).parts k).2⟩
  set c := 1 / (1 - z * Y) with hc
  have b := work_bound hp (t := fun i => (1 / (2 * G i) - 1 / (2 * G0)) * (c * G i * y i))
    (s := fun i => c * G i * y i) fs ms
    (α := 1 / (9 * K0)) (β := 1 / (4 * G0)) (g := 10 * G0 * z / (G0 + z))
    (fun k hk τ => by
      obtain ⟨m, hm, hv, _⟩ := par k hk
      exact gs m hm _ τ (fun a i j => by unfold reT; simp only [stress_symm (sy a) _ i j]) hv)
    (fun k hk τ => by
      obtain ⟨m, hm, _, hv⟩ := par k hk
      exact gs m hm _ τ (fun a i j => by unfold imT; simp only [stress_symm (sy a) _ i j]) hv)
    (w := fun a x => contract (stress phase K G (e a) x) (e a x))
    (fun a => FiniteEnergy.contract_integrable (fs a) (fe a))
    (fun a x => by
      have c1 : contract (stress phase K G (e a) x) (e a x)
          = 1 / (9 * K (phase x)) * (stress phase K G (e a) x).trace ^ 2
            + 1 / (2 * G (phase x)) * contract
              (stress phase K G (e a) x - ((stress phase K G (e a) x).trace / 3) • 1)
              (stress phase K G (e a) x - ((stress phase K G (e a) x).trace / 3) • 1) := by
        have k := k0 (phase x)
        have g := g0 (phase x)
        have tr : (stress phase K G (e a) x).trace = 3 * K (phase x) * (e a x).trace := by
          simp [stress, isoStress, Matrix.trace, Fin.sum_univ_three]
          ring
        have dv : stress phase K G (e a) x - ((stress phase K G (e a) x).trace / 3) • 1
            = (2 * G (phase x)) • (e a x - ((e a x).trace / 3) • 1) := by
          rw [tr]
          simp only [stress, isoStress]
          module
        rw [dv, contract_smul_left, contract_smul_right, tr]
        have : contract (stress phase K G (e a) x) (e a x) = _ :=
          contract_hooke (K (phase x)) (G (phase x)) (e a x)
        rw [this]
        field
      rw [c1, contract_hooke]
      have d := contract_self_nonneg (stress phase K G (e a) x
        - ((stress phase K G (e a) x).trace / 3) • 1 - (c * G (phase x) * y (phase x)) • dev5 a)
      rw [contract_dev (dev5_trace a)] at d
      have g1 : 0 ≤ 1 / (2 * G (phase x)) - 1 / (2 * G0) := by
        have := g0 (phase x)
        have := hG (phase x)
        rw [sub_nonneg]
        gcongr
      have k1 : 0 ≤ 1 / (9 * K (phase x)) - 1 / (9 * K0) := by
        have := k0 (phase x)
        have := hK (phase x)
        rw [sub_nonneg]
        gcongr
      have d1 := mul_nonneg g1 d
      have d2 := mul_nonneg k1 (sq_nonneg (stress phase K G (e a) x).trace)
      have e4 : 2 * (1 / (4 * G0)) = 1 / (2 * G0) := by field
      rw [e4]
      linarith)
  simp only [w] at b
  have e1 : ∀ i, (1 / (2 * G i) - 1 / (2 * G0)) * (c * G i * y i)
      = c / (2 * G0) * ((G0 + z) * y i - 1) := by
    intro i
    have := (g0 i).ne'
    have : (1 / (2 * G i) - 1 / (2 * G0)) * (c * G i * y i) = c / (2 * G0) * ((G0 - G i) * y i) := by
      field
    rw [this]
    linear_combination -(c / (2 * G0)) * yp i
  have s1 : ∑ i, fraction cellVolume phase i * ((1 / (2 * G i) - 1 / (2 * G0)) * (c * G i * y i))
      = c / (2 * G0) * ((G0 + z) * Y - 1) := by
    have : ∀ i, fraction cellVolume phase i * ((1 / (2 * G i) - 1 / (2 * G0)) * (c * G i * y i))
        = c / (2 * G0) * (G0 + z) * (fraction cellVolume phase i * y i)
          - c / (2 * G0) * fraction cellVolume phase i := by
      intro i
      rw [e1]
      ring
    simp only [this]
    rw [Finset.sum_sub_distrib, ← Finset.mul_sum, ← Finset.mul_sum, sum_fraction hp]
    simp only [hy, ← hY]
    ring
  have s2 : ∑ i, fraction cellVolume phase i * (10 * G0 * z / (G0 + z)
        * ((1 / (2 * G i) - 1 / (2 * G0)) * (c * G i * y i)) ^ 2
      + 5 * ((1 / (2 * G i) - 1 / (2 * G0)) * (c * G i * y i) * (c * G i * y i)))
      = 5 * c ^ 2 / (2 * (G0 + z)) * ((G0 + z) * Y - 1) := by
    have : ∀ i, fraction cellVolume phase i * (10 * G0 * z / (G0 + z)
        * ((1 / (2 * G i) - 1 / (2 * G0)) * (c * G i * y i)) ^ 2
      + 5 * ((1 / (2 * G i) - 1 / (2 * G0)) * (c * G i * y i) * (c * G i * y i)))
        = 5 * c ^ 2 / 2 * (fraction cellVolume phase i * y i)
          - 5 * c ^ 2 / (2 * (G0 + z)) * (fraction cellVolume phase i) := by
      intro i
      rw [e1]
      have e2 : G i * y i = 1 - z * y i := by linear_combination yp i
      rw [mul_assoc c, e2]
      field
    simp only [this]
    rw [Finset.sum_sub_distrib, ← Finset.mul_sum, ← Finset.mul_sum, sum_fraction hp]
    simp only [hy, ← hY]
    field
  rw [s1, s2] at b
  have r : 10 * (1 / (4 * G0)) + 10 * (c / (2 * G0) * ((G0 + z) * Y - 1))
      + 10 * G0 * z / (G0 + z) * (c / (2 * G0) * ((G0 + z) * Y - 1)) ^ 2
      - 5 * c ^ 2 / (2 * (G0 + z)) * ((G0 + z) * Y - 1) = 5 / 2 * Y / (1 - z * Y) := by
    have cz : c * (1 - z * Y) = 1 := by rw [hc]; field
    have : 10 * (1 / (4 * G0)) + 10 * (c / (2 * G0) * ((G0 + z) * Y - 1))
      + 10 * G0 * z / (G0 + z) * (c / (2 * G0) * ((G0 + z) * Y - 1)) ^ 2
      - 5 * c ^ 2 / (2 * (G0 + z)) * ((G0 + z) * Y - 1)
      = 5 / (2 * G0) + ((G0 + z) * Y - 1) * (5 * c / G0 - 5 * c / (2 * G0) * (c * (1 - z * Y))) := by
      field
    rw [this, cz, hc]
    generalize Y = Y' at *
    field_simp
    ring
  rw [r] at b
  have p : 0 < Y⁻¹ - z := by
    have : Y⁻¹ - z = (1 - z * Y) / Y := by field
    rw [this]; positivity
  have := mul_le_mul_of_nonneg_right b p.le
  have e6 : 5 / 2 * Y / (1 - z * Y) * (Y⁻¹ - z) = 5 / 2 := by
    have : Y⁻¹ - z = (1 - z * Y) / Y := by field
    rw [this]
    have gen : ∀ q : ℝ, 0 < q → 5 / 2 * Y / q * (q / Y) = 5 / 2 := fun q hq => by field
    exact gen _ zy
  rw [e6] at this
  linarith

end

end RockPhy.Props
