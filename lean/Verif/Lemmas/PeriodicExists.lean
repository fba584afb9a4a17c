import Verif.Props.PeriodicHS
import Mathlib.Analysis.InnerProductSpace.LaxMilgram
import Mathlib.Analysis.InnerProductSpace.PiL2

/-! # Every periodic composite has a response to every mean strain -/

namespace RockPhy.Props

open Spec MeasureTheory UnitAddTorus

/-- Scalar fields of finite energy. -/
noncomputable abbrev L2 := Lp ℝ 2 cellVolume

/-- Tensor fields of finite energy. -/
noncomputable abbrev HT := PiLp 2 fun _ : Fin 3 × Fin 3 => L2

/-! ## Waves -/

noncomputable def wave (b : Bool) (k : Fin 3 → ℤ) (x : Cell) : ℝ :=
  if b then (mFourier (-k) x).re else (mFourier (-k) x).im

theorem wave_continuous (b : Bool) (k : Fin 3 → ℤ) : Continuous (wave b k) := by
  unfold wave
  cases b
  · exact Complex.continuous_im.comp (mFourier (-k)).continuous
  · exact Complex.continuous_re.comp (mFourier (-k)).continuous

theorem wave_memLp (b : Bool) (k : Fin 3 → ℤ) : MemLp (wave b k) 2 cellVolume := by
  refine MemLp.of_bound (wave_continuous b k).aestronglyMeasurable 1
    (Filter.Eventually.of_forall fun x => ?_)
  have h := (mFourier (-k)).norm_coe_le_norm x
  rw [mFourier_norm] at h
  unfold wave
  rw [Real.norm_eq_abs]
  cases b
  · exact (Complex.abs_im_le_norm _).trans h
  · exact (Complex.abs_re_le_norm _).trans h

noncomputable def waveL (b : Bool) (k : Fin 3 → ℤ) : L2 := (wave_memLp b k).toLp _

theorem coeff_wave {f : Cell → ℝ} (hf : Integrable f cellVolume) (k : Fin 3 → ℤ) :
    (coeff f k).re = ∫ x, wave true k x * f x ∂cellVolume ∧
      (coeff f k).im = ∫ x, wave false k x * f x ∂cellVolume := by
  have m : Integrable (fun x => mFourier (-k) x * (f x : ℂ)) cellVolume := by
    refine hf.ofReal.bdd_mul (c := 1) (mFourier (-k)).continuous.aestronglyMeasurable ?_
    refine Filter.Eventually.of_forall fun x => ?_
    have := (mFourier (-k)).norm_coe_le_norm x
    rwa [mFourier_norm] at this
  constructor
  · have := integral_re (𝕜 := ℂ) m
    unfold coeff
    refine Eq.trans this.symm ?_
    congr 1
    funext x
    simp [wave]
  · have := integral_im (𝕜 := ℂ) m
    unfold coeff
    refine Eq.trans this.symm ?_
    congr 1
    funext x
    simp [wave]

theorem integrable_L2 (u : L2) : Integrable u cellVolume := (Lp.memLp u).integrable one_le_two

theorem inner_L2 (u v : L2) : inner ℝ u v = ∫ x, u x * v x ∂cellVolume := by
  rw [L2.inner_def]
  congr 1
  funext x
  simp [mul_comm]

theorem inner_wave (b : Bool) (k : Fin 3 → ℤ) (u : L2) :
    inner ℝ (waveL b k) u = ∫ x, wave b k x * u x ∂cellVolume := by
  rw [inner_L2]
  refine integral_congr_ae ?_
  filter_upwards [(wave_memLp b k).coeFn_toLp] with x hx
  unfold waveL
  rw [hx]

theorem wave_orthogonal {k l : Fin 3 → ℤ} (h1 : l ≠ k) (h2 : l ≠ -k) (b c : Bool) :
    ∫ x, wave b l x * wave c k x ∂cellVolume = 0 := by
  have o : ∀ m : Fin 3 → ℤ, m ≠ 0 → ∫ x, mFourier m x ∂cellVolume = 0 := by
    intro m hm
    have : inner ℂ (mFourierLp (d := Fin 3) 2 0) (mFourierLp 2 m) = 0 :=
      (orthonormal_mFourier (d := Fin 3)).2 (i := 0) (j := m) hm.symm
    rw [ContinuousMap.inner_toLp] at this
    simp only [mFourier_zero] at this
    refine Eq.trans ?_ this
    simp
    rfl
  have it : ∀ m : Fin 3 → ℤ, Integrable (fun x => mFourier m x) cellVolume := fun m =>
    (mFourier m).continuous.integrable_of_hasCompactSupport
      (HasCompactSupport.of_compactSpace _)
  -- products of two exponentials have mean zero
  have p1 : ∫ x, mFourier (-l) x * mFourier (-k) x ∂cellVolume = 0 := by
    simp only [← mFourier_add]
    exact o _ fun h => h2 (by funext i; have := congrFun h i; simp at this ⊢; omega)
  have p2 : ∫ x, mFourier (-l) x * mFourier k x ∂cellVolume = 0 := by
    simp only [← mFourier_add]
    exact o _ fun h => h1 (by funext i; have := congrFun h i; simp at this ⊢; omega)
  have i1 : Integrable (fun x => mFourier (-l) x * mFourier (-k) x) cellVolume := by
    simp only [← mFourier_add]; exact it _
  have i2 : Integrable (fun x => mFourier (-l) x * mFourier k x) cellVolume := by
    simp only [← mFourier_add]; exact it _
  have r1 := integral_re (𝕜 := ℂ) i1
  have r2 := integral_re (𝕜 := ℂ) i2
  have r3 := integral_im (𝕜 := ℂ) i1
  have r4 := integral_im (𝕜 := ℂ) i2
  rw [p1] at r1 r3
  rw [p2] at r2 r4
  have cj : ∀ x : Cell, mFourier k x = (starRingEnd ℂ) (mFourier (-k) x) := fun x => by
    rw [← mFourier_neg, neg_neg]
  simp only [cj] at r2 r4 i2
  have j1 := i1.re
  have j2 := i2.re
  have j3 := i1.im
  have j4 := i2.im
  simp only [RCLike.re_to_complex, RCLike.im_to_complex, Complex.zero_re, Complex.zero_im] at *
  cases b <;> cases c
  · have : (fun x => wave false l x * wave false k x) = fun x =>
        (1 / 2 : ℝ) * (mFourier (-l) x * (starRingEnd ℂ) (mFourier (-k) x)).re
          - (1 / 2 : ℝ) * (mFourier (-l) x * mFourier (-k) x).re := by
      funext x; simp [wave]; ring
    rw [this, integral_sub (j2.const_mul _) (j1.const_mul _), integral_const_mul, integral_const_mul,
      r1, r2]
    simp
  · have : (fun x => wave false l x * wave true k x) = fun x =>
        (1 / 2 : ℝ) * (mFourier (-l) x * (starRingEnd ℂ) (mFourier (-k) x)).im
          + (1 / 2 : ℝ) * (mFourier (-l) x * mFourier (-k) x).im := by
      funext x; simp [wave]; ring
    rw [this, integral_add (j4.const_mul _) (j3.const_mul _), integral_const_mul, integral_const_mul,
      r3, r4]
    simp
  · have : (fun x => wave true l x * wave false k x) = fun x =>
        (1 / 2 : ℝ) * (mFourier (-l) x * mFourier (-k) x).im
          - (1 / 2 : ℝ) * (mFourier (-l) x * (starRingEnd ℂ) (mFourier (-k) x)).im := by
      funext x; simp [wave]; ring
    rw [this, integral_sub (j3.const_mul _) (j4.const_mul _), integral_const_mul, integral_const_mul,
      r3, r4]
    simp
  · have : (fun x => wave true l x * wave true k x) = fun x =>
        (1 / 2 : ℝ) * (mFourier (-l) x * (starRingEnd ℂ) (mFourier (-k) x)).re
          + (1 / 2 : ℝ) * (mFourier (-l) x * mFourier (-k) x).re := by
      funext x; simp [wave]; ring
    rw [this, integral_add (j2.const_mul _) (j1.const_mul _), integral_const_mul, integral_const_mul,
      r1, r2]
    simp

/-! ## The space of strains of periodic displacements -/

noncomputable def symLin (k : Fin 3 → ℤ) : (Fin 3 → ℝ) →ₗ[ℝ] (Fin 3 × Fin 3 → ℝ) where
  toFun v p := symT (fun i => k i) v p.1 p.2
  map_add' v w := by funext p; simp [symT]; ring
  map_smul' c v := by funext p; simp [symT]; ring

noncomputable def waveP (b : Bool) (k : Fin 3 → ℤ) : HT →L[ℝ] (Fin 3 × Fin 3 → ℝ) :=
  ContinuousLinearMap.pi fun p =>
    (innerSL ℝ (waveL b k)).comp (PiLp.proj (𝕜 := ℝ) 2 (fun _ : Fin 3 × Fin 3 => L2) p)

theorem waveP_apply (b : Bool) (k : Fin 3 → ℤ) (u : HT) (p : Fin 3 × Fin 3) :
    waveP b k u p = inner ℝ (waveL b k) (u p) := rfl

noncomputable def strains : Submodule ℝ HT :=
  (⨅ b, ⨅ k, (LinearMap.range (symLin k)).comap (waveP b k).toLinearMap) ⊓
    ⨅ p : Fin 3 × Fin 3, LinearMap.ker (PiLp.proj (𝕜 := ℝ) 2 (fun _ : Fin 3 × Fin 3 => L2) p
      - PiLp.proj (𝕜 := ℝ) 2 (fun _ : Fin 3 × Fin 3 => L2) p.swap).toLinearMap

theorem mem_strains (u : HT) : u ∈ strains ↔
    (∀ b k, ∃ v, symLin k v = waveP b k u) ∧ ∀ p : Fin 3 × Fin 3, u p = u p.swap := by
  simp only [strains, Submodule.mem_inf, Submodule.mem_iInf, Submodule.mem_comap,
    LinearMap.mem_range, LinearMap.mem_ker]
  refine and_congr Iff.rfl (forall_congr' fun p => ?_)
  exact sub_eq_zero

theorem isClosed_strains : IsClosed (strains : Set HT) := by
  have e : (strains : Set HT) = (⋂ b, ⋂ k, waveP b k ⁻¹' (LinearMap.range (symLin k) : Set _)) ∩
      ⋂ p : Fin 3 × Fin 3, {u : HT | u p = u p.swap} := by
    ext u
    simp only [SetLike.mem_coe, mem_strains, Set.mem_inter_iff, Set.mem_iInter, Set.mem_preimage,
      LinearMap.mem_range, Set.mem_ofPred_eq]
  rw [e]
  refine IsClosed.inter (isClosed_iInter fun b => isClosed_iInter fun k => ?_)
    (isClosed_iInter fun p => ?_)
  · exact (Submodule.closed_of_finiteDimensional _).preimage (waveP b k).continuous
  · exact isClosed_eq (by fun_prop) (by fun_prop)

noncomputable instance : CompleteSpace strains := isClosed_strains.completeSpace_coe

/-! ## Stress as an operator -/

section

variable {n : ℕ} {phase : Cell → Fin n} (K G : Fin n → ℝ)

noncomputable def mulL (hp : Measurable phase) (κ : Fin n → ℝ) : L2 →L[ℝ] L2 :=
  LinearMap.mkContinuous
    { toFun := fun u => (memLp_phase hp κ (Lp.memLp u)).toLp _
      map_add' := fun u v => by
        ext1
        filter_upwards [(memLp_phase hp κ (Lp.memLp (u + v))).coeFn_toLp,
          (memLp_phase hp κ (Lp.memLp u)).coeFn_toLp, (memLp_phase hp κ (Lp.memLp v)).coeFn_toLp,
          Lp.coeFn_add ((memLp_phase hp κ (Lp.memLp u)).toLp _) ((memLp_phase hp κ (Lp.memLp v)).toLp _),
          Lp.coeFn_add u v] with x h1 h2 h3 h4 h5
        rw [h1, h4, Pi.add_apply, h2, h3, h5, Pi.add_apply]
        ring
      map_smul' := fun c u => by
        ext1
        filter_upwards [(memLp_phase hp κ (Lp.memLp (c • u))).coeFn_toLp,
          (memLp_phase hp κ (Lp.memLp u)).coeFn_toLp,
          Lp.coeFn_smul c ((memLp_phase hp κ (Lp.memLp u)).toLp _), Lp.coeFn_smul c u]
          with x h1 h2 h4 h5
        simp only [RingHom.id_apply]
        rw [h1, h4, Pi.smul_apply, h2, h5, Pi.smul_apply]
        simp only [smul_eq_mul]
        ring }
    (∑ i, ‖κ i‖) fun u => by
      refine Lp.norm_le_mul_norm_of_ae_le_mul ?_
      filter_upwards [(memLp_phase hp κ (Lp.memLp u)).coeFn_toLp] with x h
      simp only [LinearMap.coe_mk, AddHom.coe_mk]
      rw [h, norm_mul]
      exact mul_le_mul_of_nonneg_right
        (Finset.single_le_sum (f := fun i => ‖κ i‖) (fun i _ => norm_nonneg _) (Finset.mem_univ _))
        (norm_nonneg _)

theorem mulL_ae (hp : Measurable phase) (κ : Fin n → ℝ) (u : L2) :
    mulL hp κ u =ᵐ[cellVolume] fun x => κ (phase x) * u x :=
  (memLp_phase hp κ (Lp.memLp u)).coeFn_toLp

noncomputable def prj (p : Fin 3 × Fin 3) : HT →L[ℝ] L2 :=
  PiLp.proj (𝕜 := ℝ) 2 (fun _ : Fin 3 × Fin 3 => L2) p

noncomputable def stressL (hp : Measurable phase) : HT →L[ℝ] HT :=
  (PiLp.continuousLinearEquiv 2 ℝ (fun _ : Fin 3 × Fin 3 => L2)).symm.toContinuousLinearMap.comp
    (ContinuousLinearMap.pi fun p =>
      (1 : Tensor) p.1 p.2 • (mulL hp fun i => K i - 2 / 3 * G i).comp (prj (0, 0) + prj (1, 1) + prj (2, 2))
        + (mulL hp fun i => 2 * G i).comp (prj p))

theorem stressL_apply (hp : Measurable phase) (u : HT) (p : Fin 3 × Fin 3) :
    stressL K G hp u p = (1 : Tensor) p.1 p.2 • (mulL hp fun i => K i - 2 / 3 * G i)
        (u (0, 0) + u (1, 1) + u (2, 2)) + (mulL hp fun i => 2 * G i) (u p) := rfl

/-- The tensor field of an element. -/
noncomputable def fieldOf (u : HT) : Cell → Tensor := fun x i j => u (i, j) x

theorem fieldOf_finite (u : HT) : FiniteEnergy (fieldOf u) := fun i j => Lp.memLp (u (i, j))

theorem stressL_ae (hp : Measurable phase) (u : HT) (i j : Fin 3) :
    stressL K G hp u (i, j) =ᵐ[cellVolume] fun x => stress phase K G (fieldOf u) x i j := by
  rw [stressL_apply]
  filter_upwards [Lp.coeFn_add ((1 : Tensor) i j • (mulL hp fun i => K i - 2 / 3 * G i)
        (u (0, 0) + u (1, 1) + u (2, 2))) ((mulL hp fun i => 2 * G i) (u (i, j))),
    Lp.coeFn_smul ((1 : Tensor) i j) ((mulL hp fun i => K i - 2 / 3 * G i)
        (u (0, 0) + u (1, 1) + u (2, 2))),
    mulL_ae hp (fun i => K i - 2 / 3 * G i) (u (0, 0) + u (1, 1) + u (2, 2)),
    mulL_ae hp (fun i => 2 * G i) (u (i, j)),
    Lp.coeFn_add (u (0, 0) + u (1, 1)) (u (2, 2)), Lp.coeFn_add (u (0, 0)) (u (1, 1))]
    with x h1 h2 h3 h4 h5 h6
  simp only [Pi.add_apply, Pi.smul_apply] at *
  rw [h1, h2, h3, h4, h5, h6]
  unfold stress
  rw [hooke_apply]
  simp only [fieldOf, smul_eq_mul]
  ring

theorem inner_stressL (hp : Measurable phase) (u v : HT) : inner ℝ (stressL K G hp u) v
    = ∫ x, contract (stress phase K G (fieldOf u) x) (fieldOf v x) ∂cellVolume := by
  rw [PiLp.inner_apply]
  have fs := FiniteEnergy.stress (K := K) (G := G) hp (fieldOf_finite u)
  have it : ∀ i j, Integrable (fun x => stress phase K G (fieldOf u) x i j * fieldOf v x i j) cellVolume :=
    fun i j => (fs i j).integrable_mul (fieldOf_finite v i j)
  have e1 : ∫ x, contract (stress phase K G (fieldOf u) x) (fieldOf v x) ∂cellVolume
      = ∑ i, ∑ j, ∫ x, stress phase K G (fieldOf u) x i j * fieldOf v x i j ∂cellVolume := by
    refine (integral_finsetSum Finset.univ
      (f := fun i x => ∑ j, stress phase K G (fieldOf u) x i j * fieldOf v x i j)
      fun i _ => integrable_finsetSum _ fun j _ => it i j).trans (Finset.sum_congr rfl fun i _ => ?_)
    exact integral_finsetSum Finset.univ
      (f := fun j x => stress phase K G (fieldOf u) x i j * fieldOf v x i j) fun j _ => it i j
  rw [e1, Fintype.sum_prod_type]
  refine Finset.sum_congr rfl fun i _ => Finset.sum_congr rfl fun j _ => ?_
  rw [inner_L2]
  refine integral_congr_ae ?_
  filter_upwards [stressL_ae K G hp u i j] with x h
  rw [h]
  rfl

theorem norm_HT (u : HT) : ‖u‖ * ‖u‖ = ∫ x, contract (fieldOf u x) (fieldOf u x) ∂cellVolume := by
  rw [← real_inner_self_eq_norm_mul_norm, PiLp.inner_apply]
  have it : ∀ i j, Integrable (fun x => fieldOf u x i j * fieldOf u x i j) cellVolume :=
    fun i j => (fieldOf_finite u i j).integrable_mul (fieldOf_finite u i j)
  have e1 : ∫ x, contract (fieldOf u x) (fieldOf u x) ∂cellVolume
      = ∑ i, ∑ j, ∫ x, fieldOf u x i j * fieldOf u x i j ∂cellVolume := by
    refine (integral_finsetSum Finset.univ (f := fun i x => ∑ j, fieldOf u x i j * fieldOf u x i j)
      fun i _ => integrable_finsetSum _ fun j _ => it i j).trans (Finset.sum_congr rfl fun i _ => ?_)
    exact integral_finsetSum Finset.univ (f := fun j x => fieldOf u x i j * fieldOf u x i j)
      fun j _ => it i j
  rw [e1, Fintype.sum_prod_type]
  exact Finset.sum_congr rfl fun i _ => Finset.sum_congr rfl fun j _ => inner_L2 _ _

variable {K G}

/-- A positive lower bound of the stiffness of the constituents. -/
theorem stiffness_floor (hK : ∀ i, 0 < K i) (hG : ∀ i, 0 < G i) :
    ∃ c : ℝ, 0 < c ∧ ∀ i (e : Tensor), c * contract e e ≤ contract (isoStress (K i) (G i) e) e := by
  obtain ⟨c, c0, hc⟩ : ∃ c : ℝ, 0 < c ∧ ∀ i, c ≤ 3 * K i ∧ c ≤ 2 * G i := by
    have pos : 0 < ∑ i, (1 / (3 * K i) + 1 / (2 * G i)) + 1 := by
      have : 0 ≤ ∑ i, (1 / (3 * K i) + 1 / (2 * G i)) := Finset.sum_nonneg fun i _ => by
        have := hK i; have := hG i; positivity
      linarith
    refine ⟨1 / (∑ i, (1 / (3 * K i) + 1 / (2 * G i)) + 1), by positivity, fun i => ?_⟩
    have s : 1 / (3 * K i) + 1 / (2 * G i) ≤ ∑ i, (1 / (3 * K i) + 1 / (2 * G i)) :=
      Finset.single_le_sum (f := fun i => 1 / (3 * K i) + 1 / (2 * G i))
        (fun i _ => by have := hK i; have := hG i; positivity) (Finset.mem_univ i)
    have k := hK i
    have g := hG i
    have k' : 0 < 1 / (3 * K i) := by positivity
    have g' : 0 < 1 / (2 * G i) := by positivity
    constructor
    · rw [div_le_iff₀ pos]
      have l : 1 / (3 * K i) ≤ ∑ i, (1 / (3 * K i) + 1 / (2 * G i)) + 1 := by linarith
      have m := mul_le_mul_of_nonneg_left l (by positivity : 0 ≤ 3 * K i)
      rwa [mul_one_div_cancel (by positivity)] at m
    · rw [div_le_iff₀ pos]
      have l : 1 / (2 * G i) ≤ ∑ i, (1 / (3 * K i) + 1 / (2 * G i)) + 1 := by linarith
      have m := mul_le_mul_of_nonneg_left l (by positivity : 0 ≤ 2 * G i)
      rwa [mul_one_div_cancel (by positivity)] at m
  refine ⟨c, c0, fun i e => ?_⟩
  rw [contract_hooke]
  have d := contract_self_nonneg (e - (e.trace / 3) • 1)
  have s : contract e e = contract (e - (e.trace / 3) • 1) (e - (e.trace / 3) • 1) + e.trace ^ 2 / 3 := by
    simp [contract, Fin.sum_univ_three, Matrix.trace, Matrix.one_apply]
    ring
  rw [s]
  obtain ⟨h1, h2⟩ := hc i
  nlinarith [mul_nonneg (sub_nonneg.mpr h2) d, mul_nonneg (sub_nonneg.mpr h1) (sq_nonneg e.trace)]

/-- The bilinear form of the elastic energy. -/
noncomputable def energyB (K G : Fin n → ℝ) (hp : Measurable phase) : strains →L[ℝ] strains →L[ℝ] ℝ :=
  ((innerSL ℝ).comp (stressL K G hp)).bilinearComp strains.subtypeL strains.subtypeL

theorem energyB_apply (hp : Measurable phase) (u v : strains) :
    energyB K G hp u v = inner ℝ (stressL K G hp u) (v : HT) := rfl

theorem energyB_coercive (hp : Measurable phase) (hK : ∀ i, 0 < K i) (hG : ∀ i, 0 < G i) :
    IsCoercive (energyB K G hp) := by
  obtain ⟨c, c0, hc⟩ := stiffness_floor hK hG
  refine ⟨c, c0, fun u => ?_⟩
  rw [energyB_apply, inner_stressL, mul_assoc]
  have : ‖u‖ = ‖(u : HT)‖ := rfl
  rw [this, norm_HT, ← integral_const_mul]
  have f := fieldOf_finite (u : HT)
  exact integral_mono ((FiniteEnergy.contract_integrable f f).const_mul c)
    (FiniteEnergy.contract_integrable (FiniteEnergy.stress hp f) f) fun x => hc _ _

/-- A uniform field. -/
noncomputable def constT (E : Tensor) : HT := WithLp.toLp 2 fun p => (memLp_const (E p.1 p.2)).toLp _

theorem constT_ae (E : Tensor) (i j : Fin 3) : constT E (i, j) =ᵐ[cellVolume] fun _ => E i j :=
  (memLp_const (E i j)).coeFn_toLp

theorem exists_equilibrated (hp : Measurable phase) (hK : ∀ i, 0 < K i) (hG : ∀ i, 0 < G i)
    (E : Tensor) : ∃ u ∈ strains, ∀ v ∈ strains, inner ℝ (stressL K G hp (constT E + u)) v = 0 := by
  have co := energyB_coercive hp hK hG
  set L : strains →L[ℝ] ℝ := -((innerSL ℝ (stressL K G hp (constT E))).comp strains.subtypeL)
  set w := (InnerProductSpace.toDual ℝ strains).symm L
  set u := co.continuousLinearEquivOfBilin.symm w
  refine ⟨u, u.2, fun v hv => ?_⟩
  have h := co.continuousLinearEquivOfBilin_apply u ⟨v, hv⟩
  rw [ContinuousLinearEquiv.apply_symm_apply, InnerProductSpace.toDual_symm_apply, energyB_apply] at h
  rw [map_add, inner_add_left, ← h]
  simp [L]

theorem coeff_congr {f g : Cell → ℝ} (h : f =ᵐ[cellVolume] g) (k : Fin 3 → ℤ) : coeff f k = coeff g k := by
  unfold coeff
  refine integral_congr_ae ?_
  filter_upwards [h] with x hx
  rw [hx]

theorem waveP_coeff (u : HT) (k : Fin 3 → ℤ) (i j : Fin 3) :
    waveP true k u (i, j) = (coeff (u (i, j)) k).re ∧
      waveP false k u (i, j) = (coeff (u (i, j)) k).im := by
  obtain ⟨h1, h2⟩ := coeff_wave (integrable_L2 (u (i, j))) k
  exact ⟨by rw [waveP_apply, inner_wave, h1], by rw [waveP_apply, inner_wave, h2]⟩

/-- The strain of a wave of displacement. -/
noncomputable def testT (b : Bool) (k : Fin 3 → ℤ) (v : Fin 3 → ℝ) : HT :=
  WithLp.toLp 2 fun p => symT (fun i => k i) v p.1 p.2 • waveL b k

theorem testT_apply (b : Bool) (k : Fin 3 → ℤ) (v : Fin 3 → ℝ) (p : Fin 3 × Fin 3) :
    testT b k v p = symT (fun i => k i) v p.1 p.2 • waveL b k := rfl

theorem testT_mem (b : Bool) (k : Fin 3 → ℤ) (v : Fin 3 → ℝ) : testT b k v ∈ strains := by
  rw [mem_strains]
  constructor
  · intro c l
    have e : waveP c l (testT b k v) = fun p => symT (fun i => k i) v p.1 p.2
        * inner ℝ (waveL c l) (waveL b k) := by
      funext p
      rw [waveP_apply, testT_apply, real_inner_smul_right]
    rw [e]
    by_cases h1 : l = k
    · subst h1
      refine ⟨fun i => inner ℝ (waveL c l) (waveL b l) * v i, ?_⟩
      funext p
      simp only [symLin, LinearMap.coe_mk, AddHom.coe_mk, symT]
      ring
    by_cases h2 : l = -k
    · subst h2
      refine ⟨fun i => -(inner ℝ (waveL c (-k)) (waveL b k) * v i), ?_⟩
      funext p
      simp only [symLin, LinearMap.coe_mk, AddHom.coe_mk, symT, Pi.neg_apply, Int.cast_neg]
      ring
    · refine ⟨0, ?_⟩
      have z : inner ℝ (waveL c l) (waveL b k) = 0 := by
        rw [inner_wave, ← wave_orthogonal h1 h2 c b]
        refine integral_congr_ae ?_
        filter_upwards [(wave_memLp b k).coeFn_toLp] with x hx
        unfold waveL
        rw [hx]
      rw [z, map_zero]
      funext p
      simp
  · intro p
    rw [testT_apply, testT_apply]
    congr 1
    simp [symT]
    ring

/-- Every periodic composite has an equilibrium state with a given mean strain. -/
theorem exists_response (hp : Measurable phase) (hK : ∀ i, 0 < K i) (hG : ∀ i, 0 < G i) {E : Tensor}
    (hE : ∀ i j, E i j = E j i) : ∃ S, Response phase K G E S := by
  obtain ⟨u, hu, ht⟩ := exists_equilibrated hp hK hG E
  obtain ⟨h1, h2⟩ := (mem_strains u).mp hu
  set w : HT := constT E + u with hw
  have cw : ∀ k i j, coeff (w (i, j)) k = coeff (fun _ => E i j) k + coeff (u (i, j)) k := by
    intro k i j
    rw [← coeff_add (integrable_const _) (integrable_L2 _)]
    refine coeff_congr ?_ k
    have : w (i, j) = constT E (i, j) + u (i, j) := rfl
    rw [this]
    filter_upwards [Lp.coeFn_add (constT E (i, j)) (u (i, j)), constT_ae E i j] with x a b
    rw [a, Pi.add_apply, b]
  have c0 : ∀ (c : ℝ) (k : Fin 3 → ℤ), k ≠ 0 → coeff (fun _ => c) k = 0 := by
    intro c k hk
    have o := coeff_wave (f := fun _ => c) (integrable_const _) k
    have z : ∀ b, ∫ x, wave b k x * c ∂cellVolume = 0 := by
      intro b
      have := wave_orthogonal (k := 0) (l := k) hk (by simpa using hk) b true
      have e : ∀ x, wave true 0 x = 1 := fun x => by
        simp only [wave, neg_zero, if_true]
        rw [mFourier_zero]
        simp
      simp only [e, mul_one] at this
      rw [integral_mul_const, this, zero_mul]
    rw [z, z] at o
    exact Complex.ext o.1 o.2
  have sym : ∀ i j, w (i, j) = w (j, i) := by
    intro i j
    have a : w (i, j) = constT E (i, j) + u (i, j) := rfl
    have b : w (j, i) = constT E (j, i) + u (j, i) := rfl
    have c : constT E (i, j) = constT E (j, i) := by
      simp only [constT, hE i j]
    rw [a, b, c, h2 (i, j), Prod.swap_prod_mk]
  set e : Cell → Tensor := fun x i j => (w (i, j) x + w (j, i) x) / 2 with he
  have ae : ∀ i j, (fun x => e x i j) =ᵐ[cellVolume] fun x => w (i, j) x := by
    intro i j
    simp only [he]
    rw [sym j i]
    exact Filter.Eventually.of_forall fun x => by simp
  have fe : FiniteEnergy e := fun i j => (memLp_congr_ae (ae i j)).mpr (Lp.memLp (w (i, j)))
  have sae : ∀ i j, (fun x => stress phase K G e x i j) =ᵐ[cellVolume] stressL K G hp w (i, j) := by
    intro i j
    filter_upwards [stressL_ae K G hp w i j, ae 0 0, ae 1 1, ae 2 2, ae i j] with x a b c d f
    rw [a]
    unfold stress
    rw [hooke_apply, hooke_apply, b, c, d, f]
    rfl
  have es : ∀ x i j, e x i j = e x j i := fun x i j => by simp only [he]; ring
  refine ⟨_, e, es, fe, ?_, ?_, ?_, rfl⟩
  · choose v hv using h1
    refine ⟨fun k i => ⟨v true k i, v false k i⟩, fun k hk i j => ?_⟩
    rw [coeff_congr (ae i j), cw, c0 _ _ hk, zero_add]
    have a := congrFun (hv true k) (i, j)
    have b := congrFun (hv false k) (i, j)
    rw [(waveP_coeff u k i j).1] at a
    rw [(waveP_coeff u k i j).2] at b
    apply Complex.ext
    · rw [← a]
      simp [symLin, symT]
    · rw [← b]
      simp [symLin, symT]
  · intro k i
    have q : ∀ b, ∑ j, (k j : ℝ) * waveP b k (stressL K G hp w) (i, j) = 0 := by
      intro b
      have t := ht _ (testT_mem b k (Pi.single i 1))
      rw [PiLp.inner_apply, Fintype.sum_prod_type] at t
      simp only [testT_apply, real_inner_smul_right] at t
      have sy : ∀ i j, inner ℝ (stressL K G hp w (i, j)) (waveL b k)
          = waveP b k (stressL K G hp w) (i, j) := fun i j => by
        rw [waveP_apply, real_inner_comm]
      simp only [sy] at t
      have ss : ∀ i j, waveP b k (stressL K G hp w) (i, j) = waveP b k (stressL K G hp w) (j, i) := by
        intro i j
        rw [waveP_apply, waveP_apply, stressL_apply, stressL_apply, sym i j]
        simp only [Matrix.one_apply, eq_comm]
      have s1 := ss 1 0; have s2 := ss 2 0; have s3 := ss 2 1
      simp only [Fin.sum_univ_three, symT] at t ⊢
      fin_cases i <;> simp at t ⊢ <;> simp only [s1, s2, s3] at t ⊢ <;> linarith
    have c : ∀ j, coeff (fun x => stress phase K G e x i j) k
        = ⟨waveP true k (stressL K G hp w) (i, j), waveP false k (stressL K G hp w) (i, j)⟩ := by
      intro j
      rw [coeff_congr (sae i j), (waveP_coeff _ k i j).1, (waveP_coeff _ k i j).2]
    simp only [c]
    apply Complex.ext
    · simpa using q true
    · simpa using q false
  · funext i j
    have a := cw 0 i j
    rw [coeff_zero, coeff_zero, coeff_zero] at a
    have uz : ∫ x, u (i, j) x ∂cellVolume = 0 := by
      obtain ⟨v, hv⟩ := h1 true 0
      have := congrFun hv (i, j)
      rw [(waveP_coeff u 0 i j).1, coeff_zero] at this
      simpa [symLin, symT] using this.symm
    rw [uz] at a
    have : ∫ x, e x i j ∂cellVolume = ∫ x, w (i, j) x ∂cellVolume := integral_congr_ae (ae i j)
    unfold Spec.average
    rw [this]
    have b : ∫ x, w (i, j) x ∂cellVolume = ∫ _x, E i j ∂cellVolume + 0 := by exact_mod_cast a
    rw [b]
    simp

end

end RockPhy.Props
