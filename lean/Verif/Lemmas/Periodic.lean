import Verif.Spec.Periodic

/-! # Parseval's identity for tensor fields on the unit cell -/

namespace RockPhy.Spec

open MeasureTheory UnitAddTorus ComplexConjugate

section

noncomputable local instance : MeasureSpace UnitAddCircle := ⟨AddCircle.haarAddCircle⟩

theorem cellVolume_eq : cellVolume = (volume : Measure (UnitAddTorus (Fin 3))) := rfl

theorem coeff_eq (f : Cell → ℝ) (k : Fin 3 → ℤ) :
    coeff f k = mFourierCoeff (fun x => (f x : ℂ)) k := rfl

theorem parseval_complex {f g : Cell → ℝ} (hf : MemLp f 2 cellVolume) (hg : MemLp g 2 cellVolume) :
    HasSum (fun k => conj (coeff f k) * coeff g k) (∫ x, (f x : ℂ) * g x ∂cellVolume) := by
  have hf' : MemLp (fun x => (f x : ℂ)) 2 (volume : Measure (UnitAddTorus (Fin 3))) := hf.ofReal
  have hg' : MemLp (fun x => (g x : ℂ)) 2 (volume : Measure (UnitAddTorus (Fin 3))) := hg.ofReal
  have h := hasSum_prod_mFourierCoeff (hf'.toLp _) (hg'.toLp _)
  have c : ∀ {u : Cell → ℝ} (hu : MemLp (fun x => (u x : ℂ)) 2 (volume : Measure (UnitAddTorus (Fin 3)))) k,
      mFourierCoeff (hu.toLp _) k = coeff u k := by
    intro u hu k
    rw [coeff_eq]
    unfold mFourierCoeff
    refine integral_congr_ae ?_
    filter_upwards [hu.coeFn_toLp] with x hx
    rw [hx]
  have i : ∫ t, conj ((hf'.toLp _ : Cell → ℂ) t) * (hg'.toLp _ : Cell → ℂ) t = ∫ x, (f x : ℂ) * g x ∂cellVolume := by
    refine integral_congr_ae ?_
    filter_upwards [hf'.coeFn_toLp, hg'.coeFn_toLp] with x h1 h2
    rw [h1, h2, Complex.conj_ofReal]
  rw [i] at h
  simpa only [c] using h

end

theorem parseval {f g : Cell → ℝ} (hf : MemLp f 2 cellVolume) (hg : MemLp g 2 cellVolume) :
    HasSum (fun k => (coeff f k).re * (coeff g k).re + (coeff f k).im * (coeff g k).im)
      (∫ x, f x * g x ∂cellVolume) := by
  have h := Complex.hasSum_re (parseval_complex hf hg)
  have : (∫ x, (f x : ℂ) * g x ∂cellVolume).re = ∫ x, f x * g x ∂cellVolume := by
    have e : (fun x => (f x : ℂ) * g x) = fun x => ((f x * g x : ℝ) : ℂ) := by funext x; push_cast; rfl
    rw [e, integral_complex_ofReal, Complex.ofReal_re]
  rw [this] at h
  refine h.congr_fun fun k => ?_
  simp

theorem coeff_zero (f : Cell → ℝ) : coeff f 0 = ((∫ x, f x ∂cellVolume : ℝ) : ℂ) := by
  unfold coeff
  simp only [neg_zero, mFourier_zero, ContinuousMap.one_apply, one_mul]
  exact integral_complex_ofReal

/-- Real and imaginary part of the coefficient of a tensor field. -/
noncomputable def reT (e : Cell → Tensor) (k : Fin 3 → ℤ) : Tensor :=
  fun i j => (coeff (fun x => e x i j) k).re

noncomputable def imT (e : Cell → Tensor) (k : Fin 3 → ℤ) : Tensor :=
  fun i j => (coeff (fun x => e x i j) k).im

theorem reT_zero (e : Cell → Tensor) : reT e 0 = average cellVolume e := by
  funext i j
  simp [reT, coeff_zero, average]

theorem imT_zero (e : Cell → Tensor) : imT e 0 = 0 := by
  funext i j
  simp [imT, coeff_zero]

theorem FiniteEnergy.contract_integrable {s e : Cell → Tensor} (hs : FiniteEnergy s)
    (he : FiniteEnergy e) : Integrable (fun x => contract (s x) (e x)) cellVolume := by
  unfold contract
  exact integrable_finsetSum _ fun i _ => integrable_finsetSum _ fun j _ =>
    (hs i j).integrable_mul (he i j)

theorem parseval_contract {s e : Cell → Tensor} (hs : FiniteEnergy s) (he : FiniteEnergy e) :
    HasSum (fun k => contract (reT s k) (reT e k) + contract (imT s k) (imT e k))
      (∫ x, contract (s x) (e x) ∂cellVolume) := by
  have h : HasSum (fun k => ∑ i, ∑ j, ((coeff (fun x => s x i j) k).re * (coeff (fun x => e x i j) k).re
      + (coeff (fun x => s x i j) k).im * (coeff (fun x => e x i j) k).im))
      (∑ i, ∑ j, ∫ x, s x i j * e x i j ∂cellVolume) :=
    hasSum_sum fun i _ => hasSum_sum fun j _ => parseval (hs i j) (he i j)
  have e1 : ∫ x, contract (s x) (e x) ∂cellVolume = ∑ i, ∑ j, ∫ x, s x i j * e x i j ∂cellVolume := by
    have it : ∀ i j, Integrable (fun x => s x i j * e x i j) cellVolume :=
      fun i j => (hs i j).integrable_mul (he i j)
    refine (integral_finsetSum Finset.univ (f := fun i x => ∑ j, s x i j * e x i j)
      fun i _ => integrable_finsetSum _ fun j _ => it i j).trans (Finset.sum_congr rfl fun i _ => ?_)
    exact integral_finsetSum Finset.univ (f := fun j x => s x i j * e x i j) fun j _ => it i j
  rw [e1]
  refine h.congr_fun fun k => ?_
  unfold contract reT imT
  simp only [Finset.sum_add_distrib]

/-- The symmetric part of `n ⊗ v`. -/
noncomputable def symT (n v : Fin 3 → ℝ) : Tensor := fun i j => (n i * v j + n j * v i) / 2

theorem Compatible.parts {e : Cell → Tensor} (h : Compatible e) {k : Fin 3 → ℤ} (hk : k ≠ 0) :
    ∃ v w, reT e k = symT (fun i => k i) v ∧ imT e k = symT (fun i => k i) w := by
  obtain ⟨V, hV⟩ := h
  refine ⟨fun i => (V k i).re, fun i => (V k i).im, ?_, ?_⟩ <;> funext i j
  · simp [reT, hV k hk, symT]
  · simp [imT, hV k hk, symT]

theorem Equilibrium.parts {s : Cell → Tensor} (h : Equilibrium s) (k : Fin 3 → ℤ) :
    (∀ i, ∑ j, (k j : ℝ) * reT s k i j = 0) ∧ ∀ i, ∑ j, (k j : ℝ) * imT s k i j = 0 := by
  constructor <;> intro i
  · have := congrArg Complex.re (h k i)
    simpa [reT] using this
  · have := congrArg Complex.im (h k i)
    simpa [imT] using this

end RockPhy.Spec
