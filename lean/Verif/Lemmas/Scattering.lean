import Verif.Spec.Scattering
import Mathlib.Analysis.Calculus.Deriv.Mul
import Mathlib.Analysis.SpecialFunctions.Sqrt
import Mathlib.Topology.Compactness.Compact
import Mathlib.Topology.Instances.Matrix
import Mathlib.Tactic.LinearCombination

/-! # Lemmas: exact reflection between nearly equal, nearly isotropic media -/

namespace RockPhy.Scat

open Spec Matrix Filter Topology

/-- Everything about waves in components. -/
theorem strain_eq (s u : Fin 3 → ℝ) : waveStrain s u =
    ![s 0 * u 0, s 1 * u 1, s 2 * u 2, s 2 * u 1 + s 1 * u 2, s 2 * u 0 + s 0 * u 2,
      s 1 * u 0 + s 0 * u 1] := by
  funext i
  fin_cases i <;>
    simp [waveStrain, dirMatrix, mulVec, dotProduct, Fin.sum_univ_three, transpose]

/-- Traction of a Voigt stress on horizontal planes. -/
theorem traction_eq (C : Matrix (Fin 6) (Fin 6) ℝ) (s u : Fin 3 → ℝ) : traction C s u =
    ![(C *ᵥ waveStrain s u) 4, (C *ᵥ waveStrain s u) 3, (C *ᵥ waveStrain s u) 2] := by
  funext i
  fin_cases i <;>
    simp [traction, dirMatrix, mulVec, dotProduct, Fin.sum_univ_six]

theorem isWave_iff (C : Matrix (Fin 6) (Fin 6) ℝ) (ρ : ℝ) (s u : Fin 3 → ℝ) :
    IsWave C ρ s u ↔ dirMatrix s *ᵥ (C *ᵥ waveStrain s u) = ρ • u := by
  rw [IsWave, christoffel, waveStrain, mulVec_mulVec, mulVec_mulVec, Matrix.mul_assoc]

/-- Symplectic product of two waves of the same horizontal slowness. -/
def cross (C : Matrix (Fin 6) (Fin 6) ℝ) (s u : Fin 3 → ℝ) (C' : Matrix (Fin 6) (Fin 6) ℝ)
    (s' u' : Fin 3 → ℝ) : ℝ := u ⬝ᵥ traction C' s' u' + u' ⬝ᵥ traction C s u

theorem virtual_work {C : Matrix (Fin 6) (Fin 6) ℝ} {ρ p1 p2 q q' : ℝ} {u : Fin 3 → ℝ}
    (u' : Fin 3 → ℝ) (h : IsWave C ρ ![p1, p2, q] u) :
    waveStrain ![p1, p2, q'] u' ⬝ᵥ (C *ᵥ waveStrain ![p1, p2, q] u)
      = ρ * (u ⬝ᵥ u') + (q' - q) * (u' ⬝ᵥ traction C ![p1, p2, q] u) := by
  rw [isWave_iff] at h
  rw [traction_eq]
  generalize C *ᵥ waveStrain ![p1, p2, q] u = σ at *
  have h0 := congrFun h 0
  have h1 := congrFun h 1
  have h2 := congrFun h 2
  rw [strain_eq]
  simp [dirMatrix, mulVec, dotProduct, Fin.sum_univ_six, Fin.sum_univ_three] at h0 h1 h2 ⊢
  linear_combination u' 0 * h0 + u' 1 * h1 + u' 2 * h2

/-- Reciprocity between waves of two media. -/
theorem reciprocity {C C' : Matrix (Fin 6) (Fin 6) ℝ} {ρ ρ' p1 p2 q q' : ℝ} {u u' : Fin 3 → ℝ}
    (hC' : C'.IsSymm) (h : IsWave C ρ ![p1, p2, q] u)
    (h' : IsWave C' ρ' ![p1, p2, q'] u') :
    (q - q') * cross C ![p1, p2, q] u C' ![p1, p2, q'] u'
      = (ρ - ρ') * (u ⬝ᵥ u')
        - waveStrain ![p1, p2, q'] u' ⬝ᵥ ((C - C') *ᵥ waveStrain ![p1, p2, q] u) := by
  have w := virtual_work (q' := q') u' h
  have w' := virtual_work (q' := q) u h'
  rw [Matrix.sub_mulVec, dotProduct_sub, w]
  have sw : waveStrain ![p1, p2, q'] u' ⬝ᵥ (C' *ᵥ waveStrain ![p1, p2, q] u)
      = waveStrain ![p1, p2, q] u ⬝ᵥ (C' *ᵥ waveStrain ![p1, p2, q'] u') := by
    rw [dotProduct_mulVec, ← mulVec_transpose, hC'.eq, dotProduct_comm]
  rw [sw, w', cross, dotProduct_comm u' u]
  ring

/-- Isotropic stiffness with P modulus `M` and shear modulus `μ`. -/
def isoStiff (M μ : ℝ) : Matrix (Fin 6) (Fin 6) ℝ :=
  orthoMatrix M M M (M - 2 * μ) (M - 2 * μ) (M - 2 * μ) μ μ μ

theorem iso_symm (M μ : ℝ) : (isoStiff M μ).IsSymm := by
  ext i j
  fin_cases i <;> fin_cases j <;> rfl

theorem iso_wave {M μ ρ : ℝ} {s u : Fin 3 → ℝ} :
    IsWave (isoStiff M μ) ρ s u
      ↔ ((M - μ) * (s ⬝ᵥ u)) • s + (μ * (s ⬝ᵥ s)) • u = ρ • u := by
  rw [isWave_iff, strain_eq]
  have : dirMatrix s *ᵥ (isoStiff M μ *ᵥ ![s 0 * u 0, s 1 * u 1, s 2 * u 2,
      s 2 * u 1 + s 1 * u 2, s 2 * u 0 + s 0 * u 2, s 1 * u 0 + s 0 * u 1])
      = ((M - μ) * (s ⬝ᵥ u)) • s + (μ * (s ⬝ᵥ s)) • u := by
    funext i
    fin_cases i <;>
      simp [dirMatrix, isoStiff, orthoMatrix, mulVec, dotProduct, Fin.sum_univ_six,
        Fin.sum_univ_three] <;> ring
  rw [this]

theorem iso_traction (M μ : ℝ) (s u : Fin 3 → ℝ) : traction (isoStiff M μ) s u =
    ![μ * (s 2 * u 0 + s 0 * u 2), μ * (s 2 * u 1 + s 1 * u 2),
      (M - 2 * μ) * (s ⬝ᵥ u) + 2 * μ * (s 2 * u 2)] := by
  rw [traction_eq, strain_eq]
  funext i
  fin_cases i <;>
    simp [isoStiff, orthoMatrix, mulVec, dotProduct, Fin.sum_univ_six, Fin.sum_univ_three]
  ring

theorem iso_flux (M μ : ℝ) (s u : Fin 3 → ℝ) : downFlux (isoStiff M μ) s u
    = (M - μ) * (s ⬝ᵥ u) * u 2 + μ * s 2 * (u ⬝ᵥ u) := by
  rw [downFlux, iso_traction]
  simp [dotProduct, Fin.sum_univ_three]
  ring

theorem dot_self_nonneg (s : Fin 3 → ℝ) : 0 ≤ s ⬝ᵥ s := by
  simp only [dotProduct, Fin.sum_univ_three]
  nlinarith [mul_self_nonneg (s 0), mul_self_nonneg (s 1), mul_self_nonneg (s 2)]

theorem sq_le_dot_self (s : Fin 3 → ℝ) (i : Fin 3) : s i ^ 2 ≤ s ⬝ᵥ s := by
  simp only [dotProduct, Fin.sum_univ_three]
  fin_cases i <;> dsimp <;>
    nlinarith [mul_self_nonneg (s 0), mul_self_nonneg (s 1), mul_self_nonneg (s 2)]

theorem dot_self_eq_zero {s : Fin 3 → ℝ} (h : s ⬝ᵥ s = 0) : s = 0 := by
  funext i
  have := sq_le_dot_self s i
  rw [h] at this
  exact pow_eq_zero_iff (two_ne_zero) |>.mp (le_antisymm this (sq_nonneg _))

section iso

variable {M μ ρ : ℝ} {s u : Fin 3 → ℝ}

/-- A wave of an isotropic medium with some longitudinal displacement is a pure P wave. -/
theorem iso_longitudinal (hM : μ < M) (h : IsWave (isoStiff M μ) ρ s u)
    (hu : u ⬝ᵥ u = 1) (hs : s ⬝ᵥ u ≠ 0) :
    M * (s ⬝ᵥ s) = ρ ∧ (s ⬝ᵥ u) • s = (s ⬝ᵥ s) • u ∧ (s ⬝ᵥ u) ^ 2 = s ⬝ᵥ s := by
  rw [iso_wave] at h
  have h1 := congrArg (fun v => s ⬝ᵥ v) h
  simp only [dotProduct_add, dotProduct_smul, smul_eq_mul] at h1
  have e1 : M * (s ⬝ᵥ s) = ρ := by
    have : (s ⬝ᵥ u) * (M * (s ⬝ᵥ s) - ρ) = 0 := by linear_combination h1
    rcases mul_eq_zero.mp this with h | h
    · exact absurd h hs
    · linarith
  have e2 : (s ⬝ᵥ u) • s = (s ⬝ᵥ s) • u := by
    funext i
    have hi := congrFun h i
    simp only [Pi.add_apply, Pi.smul_apply, smul_eq_mul] at hi ⊢
    rw [← e1] at hi
    have n : M - μ ≠ 0 := by linarith
    apply mul_left_cancel₀ n
    linear_combination hi
  refine ⟨e1, e2, ?_⟩
  have h3 := congrArg (fun v => v ⬝ᵥ u) e2
  simp only [smul_dotProduct, smul_eq_mul] at h3
  rw [hu] at h3
  linear_combination h3

theorem iso_P (hμ : 0 < μ) (hM : μ < M) (hρ : 0 < ρ) (h : IsWave (isoStiff M μ) ρ s u)
    (hu : u ⬝ᵥ u = 1) (h0 : 0 ≤ s ⬝ᵥ u) (hl : s ⬝ᵥ s ≤ 2 * (s ⬝ᵥ u) ^ 2) :
    s ⬝ᵥ s = ρ / M ∧ u = √(M / ρ) • s ∧ downFlux (isoStiff M μ) s u = M * s 2 := by
  have hM0 : 0 < M := hμ.trans hM
  have hs : s ⬝ᵥ u ≠ 0 := by
    intro h0
    rw [h0] at hl
    have : s = 0 := dot_self_eq_zero (le_antisymm (by simpa using hl) (dot_self_nonneg s))
    rw [iso_wave, this] at h
    simp only [zero_dotProduct, mul_zero, zero_smul, add_zero] at h
    have h2 := congrArg (fun v => u ⬝ᵥ v) h
    simp only [dotProduct_zero, dotProduct_smul, hu, smul_eq_mul] at h2
    linarith
  obtain ⟨e1, e2, e3⟩ := iso_longitudinal hM h hu hs
  have e4 : s ⬝ᵥ s = ρ / M := by rw [← e1]; field
  have e5 : s ⬝ᵥ u = √(ρ / M) := by
    rw [← e4, ← e3, Real.sqrt_sq h0]
  have e6 : u = √(M / ρ) • s := by
    have k : √(M / ρ) * √(ρ / M) = 1 := by
      rw [← Real.sqrt_mul (by positivity)]
      rw [show M / ρ * (ρ / M) = 1 by field, Real.sqrt_one]
    have e7 := congrArg (fun v => (M / ρ) • v) e2
    simp only [smul_smul, e4] at e7
    rw [show M / ρ * (ρ / M) = 1 by field, one_smul] at e7
    rw [← e7, e5]
    congr 1
    have : √(M / ρ) * √(M / ρ) = M / ρ := Real.mul_self_sqrt (by positivity)
    calc M / ρ * √(ρ / M) = √(M / ρ) * √(M / ρ) * √(ρ / M) := by rw [this]
      _ = √(M / ρ) := by rw [mul_assoc, k, mul_one]
  refine ⟨e4, e6, ?_⟩
  rw [iso_flux, hu]
  have h2 := congrFun e2 2
  simp only [Pi.smul_apply, smul_eq_mul] at h2
  have h3 : (s ⬝ᵥ u) * u 2 = s 2 := by
    have n : s ⬝ᵥ s ≠ 0 := by rw [← e3]; positivity
    apply mul_left_cancel₀ n
    linear_combination (-(s ⬝ᵥ u)) * h2 + s 2 * e3
  linear_combination (M - μ) * h3

theorem iso_S (hμ : 0 < μ) (hM : μ < M) (hρ : 0 < ρ) (h : IsWave (isoStiff M μ) ρ s u)
    (hu : u ⬝ᵥ u = 1) (hl : 2 * (s ⬝ᵥ u) ^ 2 ≤ (s ⬝ᵥ s) * (u ⬝ᵥ u)) :
    s ⬝ᵥ s = ρ / μ ∧ s ⬝ᵥ u = 0 ∧ downFlux (isoStiff M μ) s u = μ * s 2 := by
  have hM0 : 0 < M := hμ.trans hM
  have hs : s ⬝ᵥ u = 0 := by
    by_contra hs
    obtain ⟨e1, e2, e3⟩ := iso_longitudinal hM h hu hs
    rw [e3, hu] at hl
    nlinarith
  refine ⟨?_, hs, ?_⟩
  · rw [iso_wave, hs] at h
    simp only [mul_zero, zero_smul, zero_add] at h
    have h2 := congrArg (fun v => v ⬝ᵥ u) h
    simp only [smul_dotProduct, hu, smul_eq_mul, mul_one] at h2
    rw [← h2]; field
  · rw [iso_flux, hs, hu]; ring

end iso

/-- Parameters of a reflection problem in one medium: stiffness, density, horizontal slowness. -/
abbrev X := Matrix (Fin 6) (Fin 6) ℝ × ℝ × ℝ × ℝ

/-- A wave: vertical slowness and polarisation. -/
abbrev Y := ℝ × (Fin 3 → ℝ)

def slow (x : X) (y : Y) : Fin 3 → ℝ := ![x.2.2.1, x.2.2.2, y.1]

theorem continuous_slow : Continuous fun z : X × Y => slow z.1 z.2 := by
  refine continuous_pi fun i => ?_
  fin_cases i
  · exact continuous_fst.snd.snd.fst
  · exact continuous_fst.snd.snd.snd
  · exact continuous_snd.fst

theorem continuous_strain {Z : Type*} [TopologicalSpace Z] {s u : Z → Fin 3 → ℝ}
    (hs : Continuous s) (hu : Continuous u) : Continuous fun z => waveStrain (s z) (u z) := by
  have a : ∀ i, Continuous fun z => s z i := fun i => (continuous_apply i).comp hs
  have b : ∀ i, Continuous fun z => u z i := fun i => (continuous_apply i).comp hu
  simp only [strain_eq]
  refine continuous_pi fun i => ?_
  fin_cases i
  · exact (a 0).mul (b 0)
  · exact (a 1).mul (b 1)
  · exact (a 2).mul (b 2)
  · exact ((a 2).mul (b 1)).add ((a 1).mul (b 2))
  · exact ((a 2).mul (b 0)).add ((a 0).mul (b 2))
  · exact ((a 1).mul (b 0)).add ((a 0).mul (b 1))

theorem continuous_dir {Z : Type*} [TopologicalSpace Z] {s : Z → Fin 3 → ℝ}
    (hs : Continuous s) : Continuous fun z => dirMatrix (s z) := by
  have a : ∀ i, Continuous fun z => s z i := fun i => (continuous_apply i).comp hs
  refine continuous_matrix fun i j => ?_
  fin_cases i <;> fin_cases j <;> first | exact a 0 | exact a 1 | exact a 2 | exact continuous_const

theorem continuous_traction {Z : Type*} [TopologicalSpace Z] {s u : Z → Fin 3 → ℝ}
    {C : Z → Matrix (Fin 6) (Fin 6) ℝ} (hC : Continuous C)
    (hs : Continuous s) (hu : Continuous u) : Continuous fun z => traction (C z) (s z) (u z) :=
  continuous_const.matrix_mulVec (hC.matrix_mulVec (continuous_strain hs hu))

theorem continuous_flux {Z : Type*} [TopologicalSpace Z] {s u : Z → Fin 3 → ℝ}
    {C : Z → Matrix (Fin 6) (Fin 6) ℝ} (hC : Continuous C)
    (hs : Continuous s) (hu : Continuous u) : Continuous fun z => downFlux (C z) (s z) (u z) :=
  hu.dotProduct (continuous_traction hC hs hu)

theorem isClosed_wave : IsClosed {z : X × Y | IsWave z.1.1 z.1.2.1 (slow z.1 z.2) z.2.2} := by
  simp only [isWave_iff]
  exact isClosed_eq ((continuous_dir continuous_slow).matrix_mulVec (continuous_fst.fst.matrix_mulVec
    (continuous_strain continuous_slow continuous_snd.snd)))
    (continuous_fst.snd.fst.smul continuous_snd.snd)

theorem isCompact_unit : IsCompact {u : Fin 3 → ℝ | u ⬝ᵥ u = 1} := by
  refine Metric.isCompact_of_isClosed_isBounded
    (isClosed_eq (continuous_id.dotProduct continuous_id) continuous_const) ?_
  refine (Metric.isBounded_closedBall (x := (0 : Fin 3 → ℝ)) (r := 1)).subset fun u hu => ?_
  rw [mem_closedBall_zero_iff, pi_norm_le_iff_of_nonneg zero_le_one]
  intro i
  have h := sq_le_dot_self u i
  rw [show u ⬝ᵥ u = 1 from hu] at h
  rw [Real.norm_eq_abs]
  exact abs_le_one_iff_mul_self_le_one.mpr (by nlinarith)

/-- Rate of working of a strain state on itself, for slowness `s`. -/
def stiffForm (C : Matrix (Fin 6) (Fin 6) ℝ) (s u : Fin 3 → ℝ) : ℝ :=
  u ⬝ᵥ (dirMatrix s *ᵥ (C *ᵥ waveStrain s u))

theorem stiffForm_smul (C : Matrix (Fin 6) (Fin 6) ℝ) (c : ℝ) (s u : Fin 3 → ℝ) :
    stiffForm C (c • s) u = c ^ 2 * stiffForm C s u := by
  have h1 : dirMatrix (c • s) = c • dirMatrix s := by
    ext i j
    fin_cases i <;> fin_cases j <;> simp [dirMatrix]
  rw [stiffForm, stiffForm, waveStrain, waveStrain, h1, transpose_smul, smul_mulVec,
    smul_mulVec, mulVec_smul, mulVec_smul, smul_smul, dotProduct_smul, smul_eq_mul, sq]

theorem iso_stiffForm (M μ : ℝ) (s u : Fin 3 → ℝ) :
    stiffForm (isoStiff M μ) s u = (M - μ) * (s ⬝ᵥ u) ^ 2 + μ * (s ⬝ᵥ s) * (u ⬝ᵥ u) := by
  have : dirMatrix s *ᵥ (isoStiff M μ *ᵥ waveStrain s u)
      = ((M - μ) * (s ⬝ᵥ u)) • s + (μ * (s ⬝ᵥ s)) • u := by
    rw [strain_eq]
    funext i
    fin_cases i <;>
      simp [dirMatrix, isoStiff, orthoMatrix, mulVec, dotProduct, Fin.sum_univ_six,
        Fin.sum_univ_three] <;> ring
  rw [stiffForm, this, dotProduct_add, dotProduct_smul, dotProduct_smul, dotProduct_comm u s,
    smul_eq_mul, smul_eq_mul]
  ring

/-- Media near a stable isotropic one resist every wave. -/
theorem elliptic {M μ : ℝ} (hμ : 0 < μ) (hM : μ < M) {x0 : X} (h0 : x0.1 = isoStiff M μ) :
    ∀ᶠ x in 𝓝 x0, ∀ s u : Fin 3 → ℝ, s ⬝ᵥ s = 1 → u ⬝ᵥ u = 1 → μ / 2 < stiffForm x.1 s u := by
  have hK := isCompact_unit.prod isCompact_unit
  have key := hK.eventually_forall_of_forall_eventually (x₀ := x0)
    (P := fun x w => μ / 2 < stiffForm x.1 w.1 w.2) (fun w hw => ?_)
  · exact key.mono fun x hx s u hs hu => hx (s, u) ⟨hs, hu⟩
  · have hc : Continuous fun z : X × ((Fin 3 → ℝ) × (Fin 3 → ℝ)) =>
        stiffForm z.1.1 z.2.1 z.2.2 :=
      continuous_snd.snd.dotProduct ((continuous_dir continuous_snd.fst).matrix_mulVec
        (continuous_fst.fst.matrix_mulVec (continuous_strain continuous_snd.fst continuous_snd.snd)))
    refine hc.continuousAt.eventually_const_lt ?_
    dsimp only
    rw [h0, iso_stiffForm, show w.1 ⬝ᵥ w.1 = 1 from hw.1, show w.2 ⬝ᵥ w.2 = 1 from hw.2]
    nlinarith [sq_nonneg (w.1 ⬝ᵥ w.2)]

/-- Waves of unit displacement have bounded slowness, uniformly near an isotropic medium. -/
theorem bounded_slow {M μ : ℝ} (hμ : 0 < μ) (hM : μ < M) {x0 : X} (h0 : x0.1 = isoStiff M μ) :
    ∀ᶠ x in 𝓝 x0, ∀ y : Y, IsWave x.1 x.2.1 (slow x y) y.2 → y.2 ⬝ᵥ y.2 = 1 →
      y.1 ∈ Set.Icc (-(√(2 * (|x0.2.1| + 1) / μ))) (√(2 * (|x0.2.1| + 1) / μ)) := by
  have hρ : ∀ᶠ x : X in 𝓝 x0, x.2.1 < |x0.2.1| + 1 :=
    (continuous_snd.fst.continuousAt (x := x0)).eventually_lt_const
      (lt_of_le_of_lt (le_abs_self _) (by linarith))
  filter_upwards [elliptic hμ hM h0, hρ] with x hx hr y hw hu
  have e : stiffForm x.1 (slow x y) y.2 = x.2.1 := by
    rw [isWave_iff] at hw
    rw [stiffForm, hw, dotProduct_smul, hu, smul_eq_mul, mul_one]
  have hS := dot_self_nonneg (slow x y)
  have hq : y.1 ^ 2 ≤ slow x y ⬝ᵥ slow x y := sq_le_dot_self (slow x y) 2
  have hb : y.1 ^ 2 ≤ 2 * (|x0.2.1| + 1) / μ := by
    rcases hS.eq_or_lt with h | h
    · rw [← h] at hq; exact hq.trans (by positivity)
    · have k := hx ((√(slow x y ⬝ᵥ slow x y))⁻¹ • slow x y) y.2 (by
        rw [smul_dotProduct, dotProduct_smul, smul_eq_mul, smul_eq_mul, ← mul_assoc, ← mul_inv,
          Real.mul_self_sqrt hS, inv_mul_cancel₀ h.ne']) hu
      rw [stiffForm_smul, e, inv_pow, Real.sq_sqrt hS, inv_mul_eq_div, lt_div_iff₀ h] at k
      rw [le_div_iff₀ hμ]
      nlinarith
  exact ⟨Real.neg_sqrt_le_of_sq_le hb, Real.le_sqrt_of_sq_le hb⟩

/-- Limits of unit waves: what a closed description of waves implies in the limiting medium holds
nearby. -/
theorem modes_limit {M μ : ℝ} (hμ : 0 < μ) (hM : μ < M) {x0 : X} (h0 : x0.1 = isoStiff M μ)
    {H V : Set (X × Y)} (hH : IsClosed H) (hV : IsOpen V)
    (hw : ∀ z ∈ H, IsWave z.1.1 z.1.2.1 (slow z.1 z.2) z.2.2 ∧ z.2.2 ⬝ᵥ z.2.2 = 1)
    (hlim : ∀ y, (x0, y) ∈ H → (x0, y) ∈ V) :
    ∀ᶠ x in 𝓝 x0, ∀ y, (x, y) ∈ H → (x, y) ∈ V := by
  have hK := (isCompact_Icc (a := -(√(2 * (|x0.2.1| + 1) / μ)))
    (b := √(2 * (|x0.2.1| + 1) / μ))).prod isCompact_unit
  have key := hK.eventually_forall_of_forall_eventually (x₀ := x0)
    (P := fun x y => (x, y) ∈ H → (x, y) ∈ V) (fun y _ => by
      by_cases hy : (x0, y) ∈ H
      · filter_upwards [hV.mem_nhds (hlim y hy)] with z hz _ using hz
      · filter_upwards [hH.isOpen_compl.mem_nhds hy] with z hz h using absurd h hz)
  filter_upwards [key, bounded_slow hμ hM h0] with x hx hb y hy
  exact hx y ⟨hb y (hw _ hy).1 (hw _ hy).2, (hw _ hy).2⟩ hy

/-- Unit P waves carrying energy down (`σ = 1`) or up (`σ = -1`). -/
def Pset (σ : ℝ) : Set (X × Y) :=
  {z | (IsWave z.1.1 z.1.2.1 (slow z.1 z.2) z.2.2 ∧ z.2.2 ⬝ᵥ z.2.2 = 1)
    ∧ 0 ≤ slow z.1 z.2 ⬝ᵥ z.2.2 ∧ slow z.1 z.2 ⬝ᵥ slow z.1 z.2 ≤ 2 * (slow z.1 z.2 ⬝ᵥ z.2.2) ^ 2
    ∧ 0 ≤ σ * downFlux z.1.1 (slow z.1 z.2) z.2.2}

/-- Unit shear waves carrying energy down (`σ = 1`) or up (`σ = -1`). -/
def Sset (σ : ℝ) : Set (X × Y) :=
  {z | (IsWave z.1.1 z.1.2.1 (slow z.1 z.2) z.2.2 ∧ z.2.2 ⬝ᵥ z.2.2 = 1)
    ∧ 2 * (slow z.1 z.2 ⬝ᵥ z.2.2) ^ 2 ≤ (slow z.1 z.2 ⬝ᵥ slow z.1 z.2) * (z.2.2 ⬝ᵥ z.2.2)
    ∧ 0 ≤ σ * downFlux z.1.1 (slow z.1 z.2) z.2.2}

theorem continuous_flux' : Continuous fun z : X × Y => downFlux z.1.1 (slow z.1 z.2) z.2.2 :=
  continuous_flux continuous_fst.fst continuous_slow continuous_snd.snd

theorem isClosed_waves : IsClosed {z : X × Y | IsWave z.1.1 z.1.2.1 (slow z.1 z.2) z.2.2
    ∧ z.2.2 ⬝ᵥ z.2.2 = 1} :=
  isClosed_wave.inter
    (isClosed_eq (continuous_snd.snd.dotProduct continuous_snd.snd) continuous_const)

theorem isClosed_Pset (σ : ℝ) : IsClosed (Pset σ) := by
  have a : Continuous fun z : X × Y => slow z.1 z.2 ⬝ᵥ z.2.2 :=
    continuous_slow.dotProduct continuous_snd.snd
  exact isClosed_waves.inter ((isClosed_le continuous_const a).inter
    ((isClosed_le (continuous_slow.dotProduct continuous_slow) (continuous_const.mul (a.pow 2))).inter
      (isClosed_le continuous_const (continuous_const.mul continuous_flux'))))

theorem isClosed_Sset (σ : ℝ) : IsClosed (Sset σ) := by
  have a : Continuous fun z : X × Y => slow z.1 z.2 ⬝ᵥ z.2.2 :=
    continuous_slow.dotProduct continuous_snd.snd
  exact isClosed_waves.inter ((isClosed_le (continuous_const.mul (a.pow 2))
    ((continuous_slow.dotProduct continuous_slow).mul
      (continuous_snd.snd.dotProduct continuous_snd.snd))).inter
      (isClosed_le continuous_const (continuous_const.mul continuous_flux')))

/-- An isotropic background with P modulus `M`, shear modulus `μ`, density `ρ`, and a horizontal
slowness at which P waves propagate with vertical slowness `q0` and shear waves with `qS`. -/
structure Background (M μ ρ p1 p2 q0 qS : ℝ) : Prop where
  hμ : 0 < μ
  hM : μ < M
  hρ : 0 < ρ
  hq : 0 < q0
  hqS : 0 < qS
  eq : p1 ^ 2 + p2 ^ 2 + q0 ^ 2 = ρ / M
  eqS : p1 ^ 2 + p2 ^ 2 + qS ^ 2 = ρ / μ

section near

variable {M μ ρ p1 p2 q0 qS : ℝ}

theorem Background.lt (b : Background M μ ρ p1 p2 q0 qS) : q0 < qS := by
  have h : ρ / M < ρ / μ := by
    have := b.hρ
    have := b.hμ
    have := b.hM
    gcongr
  nlinarith [b.eq, b.eqS, b.hq, b.hqS]

theorem slow_dot (x : X) (y : Y) :
    slow x y ⬝ᵥ slow x y = x.2.2.1 ^ 2 + x.2.2.2 ^ 2 + y.1 ^ 2 := by
  simp [slow, dotProduct, Fin.sum_univ_three]; ring

theorem sign_root {σ q q0 : ℝ} (hσ : σ = 1 ∨ σ = -1) (hq : 0 < q0) (h : q ^ 2 = q0 ^ 2)
    (h0 : 0 ≤ σ * q) : q = σ * q0 := by
  rcases sq_eq_sq_iff_eq_or_eq_neg.mp h with rfl | rfl <;> rcases hσ with rfl | rfl <;> nlinarith

theorem Pset_limit (b : Background M μ ρ p1 p2 q0 qS) {σ : ℝ} (hσ : σ = 1 ∨ σ = -1) {y : Y}
    (h : ((isoStiff M μ, ρ, p1, p2), y) ∈ Pset σ) :
    y = (σ * q0, √(M / ρ) • ![p1, p2, σ * q0]) := by
  obtain ⟨⟨hw, hu⟩, h1, h2, h3⟩ := h
  obtain ⟨e1, e2, e3⟩ := iso_P b.hμ b.hM b.hρ hw hu h1 h2
  dsimp only at h3 e1 e2 e3
  have hM0 : 0 < M := b.hμ.trans b.hM
  rw [e3] at h3
  have e4 : y.1 = σ * q0 := by
    refine sign_root hσ b.hq ?_ ?_
    · have := slow_dot (isoStiff M μ, ρ, p1, p2) y
      rw [e1] at this
      linear_combination -b.eq - this
    · have : 0 ≤ M * (σ * y.1) := by
        have e : slow (isoStiff M μ, ρ, p1, p2) y 2 = y.1 := rfl
        rw [e] at h3; linarith
      exact nonneg_of_mul_nonneg_right this hM0
  refine Prod.ext e4 ?_
  rw [e2]
  simp only [slow, e4]

theorem Sset_limit (b : Background M μ ρ p1 p2 q0 qS) {σ : ℝ} (hσ : σ = 1 ∨ σ = -1) {y : Y}
    (h : ((isoStiff M μ, ρ, p1, p2), y) ∈ Sset σ) :
    y.1 = σ * qS ∧ σ * downFlux (isoStiff M μ) (slow (isoStiff M μ, ρ, p1, p2) y) y.2 = μ * qS := by
  obtain ⟨⟨hw, hu⟩, h1, h3⟩ := h
  obtain ⟨e1, e2, e3⟩ := iso_S b.hμ b.hM b.hρ hw hu h1
  dsimp only at h3 e1 e2 e3
  have e : slow (isoStiff M μ, ρ, p1, p2) y 2 = y.1 := rfl
  rw [e3, e] at h3
  have e4 : y.1 = σ * qS := by
    refine sign_root hσ b.hqS ?_ ?_
    · have := slow_dot (isoStiff M μ, ρ, p1, p2) y
      rw [e1] at this
      linear_combination -b.eqS - this
    · have : 0 ≤ μ * (σ * y.1) := by linarith
      exact nonneg_of_mul_nonneg_right this b.hμ
  refine ⟨e4, ?_⟩
  rw [e3, e, e4]
  rcases hσ with rfl | rfl <;> ring

/-- Unit P waves converge to those of the background. -/
theorem P_tendsto (b : Background M μ ρ p1 p2 q0 qS) {σ : ℝ} (hσ : σ = 1 ∨ σ = -1) {x : ℝ → X}
    {y : ℝ → Y} (hx : Tendsto x (𝓝 0) (𝓝 (isoStiff M μ, ρ, p1, p2)))
    (hy : ∀ᶠ t in 𝓝 0, (x t, y t) ∈ Pset σ) :
    Tendsto y (𝓝 0) (𝓝 (σ * q0, √(M / ρ) • ![p1, p2, σ * q0])) := by
  refine tendsto_nhds.mpr fun U hU hm => ?_
  have := hx.eventually (modes_limit b.hμ b.hM (x0 := (isoStiff M μ, ρ, p1, p2)) rfl
    (isClosed_Pset σ) (V := Set.univ ×ˢ U) (isOpen_univ.prod hU) (fun z hz => hz.1)
    (fun y hy => ⟨trivial, by rw [Pset_limit b hσ hy]; exact hm⟩))
  filter_upwards [this, hy] with t ht hyt
  exact (ht _ hyt).2

theorem flux_smul (C : Matrix (Fin 6) (Fin 6) ℝ) (c : ℝ) (s u : Fin 3 → ℝ) :
    downFlux C s (c • u) = c ^ 2 * downFlux C s u := by
  simp only [downFlux, traction, waveStrain, mulVec_smul, smul_dotProduct, dotProduct_smul,
    smul_eq_mul]
  ring

theorem traction_smul (C : Matrix (Fin 6) (Fin 6) ℝ) (c : ℝ) (s u : Fin 3 → ℝ) :
    traction C s (c • u) = c • traction C s u := by
  simp only [traction, waveStrain, mulVec_smul]

theorem cross_smul (C : Matrix (Fin 6) (Fin 6) ℝ) (c : ℝ) (s u : Fin 3 → ℝ)
    (C' : Matrix (Fin 6) (Fin 6) ℝ) (s' u' : Fin 3 → ℝ) :
    cross C s (c • u) C' s' u' = c * cross C s u C' s' u' := by
  simp only [cross, traction_smul, smul_dotProduct, dotProduct_smul, smul_eq_mul]
  ring

/-- A non-zero shear wave scaled to unit displacement. -/
theorem S_unit {x : X} {q σ : ℝ} {u : Fin 3 → ℝ} (h : IsS x.1 x.2.1 ![x.2.2.1, x.2.2.2, q] u)
    (hf : 0 ≤ σ * downFlux x.1 ![x.2.2.1, x.2.2.2, q] u) (hu : 0 < u ⬝ᵥ u) :
    (x, (q, (√(u ⬝ᵥ u))⁻¹ • u)) ∈ Sset σ := by
  have hn : 0 < √(u ⬝ᵥ u) := Real.sqrt_pos.mpr hu
  have e : slow x (q, (√(u ⬝ᵥ u))⁻¹ • u) = ![x.2.2.1, x.2.2.2, q] := rfl
  have e2 : ((√(u ⬝ᵥ u))⁻¹ • u) ⬝ᵥ ((√(u ⬝ᵥ u))⁻¹ • u) = 1 := by
    rw [smul_dotProduct, dotProduct_smul, smul_eq_mul, smul_eq_mul, ← mul_assoc, ← mul_inv,
      Real.mul_self_sqrt hu.le, inv_mul_cancel₀ hu.ne']
  refine ⟨⟨?_, e2⟩, ?_, ?_⟩
  · dsimp only
    rw [e, IsWave, mulVec_smul, h.wave, smul_comm]
  · dsimp only
    rw [e, e2, dotProduct_smul, smul_eq_mul, mul_pow, inv_pow, Real.sq_sqrt hu.le]
    have := h.across
    rw [inv_mul_eq_div, mul_one, ← mul_div_assoc, div_le_iff₀ hu]
    exact this
  · dsimp only
    rw [e, flux_smul]
    have : 0 ≤ ((√(u ⬝ᵥ u))⁻¹) ^ 2 := by positivity
    nlinarith [mul_nonneg this hf]

/-- Shear waves carry energy in proportion to the square of their displacement. -/
theorem S_flux (b : Background M μ ρ p1 p2 q0 qS) {σ : ℝ} (hσ : σ = 1 ∨ σ = -1) :
    ∀ᶠ x : X in 𝓝 (isoStiff M μ, ρ, p1, p2), ∀ q u,
      IsS x.1 x.2.1 ![x.2.2.1, x.2.2.2, q] u → 0 ≤ σ * downFlux x.1 ![x.2.2.1, x.2.2.2, q] u →
      μ * qS / 2 * (u ⬝ᵥ u) ≤ σ * downFlux x.1 ![x.2.2.1, x.2.2.2, q] u ∧
        (u ≠ 0 → (q0 + qS) / 2 < σ * q) := by
  have hp : 0 < μ * qS := mul_pos b.hμ b.hqS
  have key := modes_limit b.hμ b.hM (x0 := (isoStiff M μ, ρ, p1, p2)) rfl (isClosed_Sset σ)
    (V := {z | μ * qS / 2 < σ * downFlux z.1.1 (slow z.1 z.2) z.2.2 ∧ (q0 + qS) / 2 < σ * z.2.1})
    ((isOpen_lt continuous_const (continuous_const.mul continuous_flux')).inter
      (isOpen_lt continuous_const (continuous_const.mul continuous_snd.fst)))
    (fun z hz => hz.1) (fun y hy => by
      obtain ⟨e1, e2⟩ := Sset_limit b hσ hy
      refine ⟨by show _ < σ * downFlux _ _ _; rw [e2]; linarith, ?_⟩
      show (q0 + qS) / 2 < σ * y.1
      rw [e1]
      have := b.lt
      rcases hσ with rfl | rfl <;> linarith)
  filter_upwards [key] with x hx q u h hf
  rcases (dot_self_nonneg u).eq_or_lt with h0 | hu
  · have := dot_self_eq_zero h0.symm
    refine ⟨by rw [← h0, mul_zero]; exact hf, fun h => absurd this h⟩
  · obtain ⟨k1, k2⟩ := hx _ (S_unit h hf hu)
    refine ⟨?_, fun _ => k2⟩
    have k3 : μ * qS / 2 < σ * downFlux x.1 ![x.2.2.1, x.2.2.2, q] ((√(u ⬝ᵥ u))⁻¹ • u) := k1
    rw [flux_smul, inv_pow, Real.sq_sqrt hu.le] at k3
    have : μ * qS / 2 * (u ⬝ᵥ u)
        < σ * ((u ⬝ᵥ u)⁻¹ * downFlux x.1 ![x.2.2.1, x.2.2.2, q] u) * (u ⬝ᵥ u) := by gcongr
    refine this.le.trans (le_of_eq ?_)
    field

end near

end RockPhy.Scat
