import Verif.Spec.Composite
import Verif.Props.EMBounds
import Mathlib.MeasureTheory.Constructions.UnitInterval

/-! # Property C91: the Voigt and Reuss averages bound every composite -/

namespace RockPhy.Props

open Fl Spec EM MeasureTheory

theorem rdot_ofFn {n : ℕ} (f g : Fin n → ℝ) : rdot (List.ofFn f) (List.ofFn g) = ∑ i, f i * g i := by
  unfold rdot
  rw [← List.sum_ofFn]
  congr 1
  apply List.ext_getElem <;> simp

section

variable {Ω : Type*} [MeasurableSpace Ω] {n : ℕ} {μ : Measure Ω} [IsProbabilityMeasure μ]
  {phase : Ω → Fin n} {K G : Fin n → ℝ}

theorem integral_phase (hp : Measurable phase) (κ : Fin n → ℝ) :
    ∫ x, κ (phase x) ∂μ = ∑ i, fraction μ phase i * κ i := by
  have : IsFiniteMeasure (μ.map phase) := inferInstance
  rw [← integral_map hp.aemeasurable (f := κ) (measurable_of_finite κ).aestronglyMeasurable,
    integral_fintype (Integrable.of_finite)]
  refine Finset.sum_congr rfl fun i _ => ?_
  rw [smul_eq_mul]
  unfold fraction
  rw [map_measureReal_apply hp (measurableSet_singleton i)]

theorem sum_fraction (hp : Measurable phase) : ∑ i, fraction μ phase i = 1 := by
  have := integral_phase (μ := μ) hp (fun _ => 1)
  simpa using this.symm

theorem memLp_phase (hp : Measurable phase) (κ : Fin n → ℝ) {f : Ω → ℝ} (hf : MemLp f 2 μ) :
    MemLp (fun x => κ (phase x) * f x) 2 μ := by
  have hm : AEStronglyMeasurable (fun x => κ (phase x)) μ :=
    ((measurable_of_finite κ).comp hp).aestronglyMeasurable
  have hb : ∀ᵐ x ∂μ, ‖κ (phase x)‖ ≤ ∑ i, ‖κ i‖ :=
    Filter.Eventually.of_forall fun x =>
      Finset.single_le_sum (f := fun i => ‖κ i‖) (fun i _ => norm_nonneg _) (Finset.mem_univ _)
  have := MemLp.of_bound hm _ hb (p := ⊤)
  exact hf.mul this

omit [IsProbabilityMeasure μ] in
theorem integral_sub_add {f g h : Ω → ℝ} (hf : Integrable f μ) (hg : Integrable g μ)
    (hh : Integrable h μ) :
    ∫ x, f x - g x + h x ∂μ = ∫ x, f x ∂μ - ∫ x, g x ∂μ + ∫ x, h x ∂μ := by
  have := integral_add (hf.sub hg) hh
  simp only [Pi.sub_apply] at this
  rw [this, integral_sub hf hg]

omit [IsProbabilityMeasure μ] in
theorem integral_add3 {f g h : Ω → ℝ} (hf : Integrable f μ) (hg : Integrable g μ)
    (hh : Integrable h μ) :
    ∫ x, f x + g x + h x ∂μ = ∫ x, f x ∂μ + ∫ x, g x ∂μ + ∫ x, h x ∂μ := by
  have := integral_add (hf.add hg) hh
  simp only [Pi.add_apply] at this
  rw [this, integral_add hf hg]

theorem integrable_phase (hp : Measurable phase) (κ : Fin n → ℝ) :
    Integrable (fun x => κ (phase x)) μ := by
  have := (memLp_phase (μ := μ) hp κ (memLp_const (1 : ℝ))).integrable one_le_two
  simpa using this

theorem integral_phase_pair (hp : Measurable phase) (κ γ : Fin n → ℝ) (a b : ℝ) :
    ∫ x, κ (phase x) * a + γ (phase x) * b ∂μ
      = (∑ i, fraction μ phase i * κ i) * a + (∑ i, fraction μ phase i * γ i) * b := by
  rw [integral_add ((integrable_phase hp κ).mul_const a) ((integrable_phase hp γ).mul_const b),
    integral_mul_const, integral_mul_const, integral_phase hp, integral_phase hp]

theorem recip_pos (hp : Measurable phase) {κ : Fin n → ℝ} (hκ : ∀ i, 0 < κ i) :
    0 < ∑ i, fraction μ phase i * (1 / κ i) := by
  rw [← integral_phase hp (fun i => 1 / κ i)]
  have : ∃ m, 0 < m ∧ ∀ i, m ≤ 1 / κ i := by
    refine ⟨1 / ∑ i, κ i, ?_, fun i => ?_⟩
    · have : Nonempty Ω := nonempty_of_isProbabilityMeasure μ
      have : Nonempty (Fin n) := this.map phase
      exact one_div_pos.mpr (Finset.sum_pos (fun i _ => hκ i) Finset.univ_nonempty)
    · exact one_div_le_one_div_of_le (hκ i)
        (Finset.single_le_sum (f := κ) (fun i _ => (hκ i).le) (Finset.mem_univ _))
  obtain ⟨m, m0, hm⟩ := this
  calc 0 < m := m0
    _ = ∫ _, m ∂μ := by simp
    _ ≤ _ := integral_mono (integrable_const _) (integrable_phase hp fun i => 1 / κ i)
      fun x => hm _

/-- A field `x` with mean `θ`, mean flux `k θ` and mean energy at most `k θ²` bounds `k` by the
harmonic and the arithmetic mean of the coefficient. -/
theorem scalar_bounds (hp : Measurable phase) {κ : Fin n → ℝ} (hκ : ∀ i, 0 < κ i) {f : Ω → ℝ}
    (hf : MemLp f 2 μ) {θ k : ℝ} (hθ : θ ≠ 0) (h1 : ∫ x, f x ∂μ = θ)
    (h2 : ∫ x, κ (phase x) * f x ∂μ = k * θ) (h3 : ∫ x, κ (phase x) * f x ^ 2 ∂μ ≤ k * θ ^ 2) :
    (∑ i, fraction μ phase i * (1 / κ i))⁻¹ ≤ k ∧ k ≤ ∑ i, fraction μ phase i * κ i := by
  have i1 : Integrable f μ := hf.integrable one_le_two
  have i2 : Integrable (fun x => κ (phase x) * f x) μ := (memLp_phase hp κ hf).integrable one_le_two
  have i3 : Integrable (fun x => κ (phase x) * f x ^ 2) μ := by
    refine ((memLp_phase hp κ hf).integrable_mul hf).congr (Filter.Eventually.of_forall fun x => ?_)
    simp only [Pi.mul_apply]; ring
  have ic := integrable_phase (μ := μ) hp
  have pr := recip_pos (μ := μ) hp hκ
  rw [← integral_phase hp κ, ← integral_phase hp (fun i => 1 / κ i)] at *
  have t2 : 0 < θ ^ 2 := by positivity
  constructor
  · set r := ∫ x, 1 / κ (phase x) ∂μ with hr
    have q : 0 ≤ ∫ x, κ (phase x) * (f x - θ / r * (1 / κ (phase x))) ^ 2 ∂μ :=
      integral_nonneg fun x => mul_nonneg (hκ _).le (sq_nonneg _)
    have e : (fun x => κ (phase x) * (f x - θ / r * (1 / κ (phase x))) ^ 2)
        = fun x => κ (phase x) * f x ^ 2 - 2 * (θ / r) * f x
          + (θ / r) ^ 2 * (1 / κ (phase x)) := by
      funext x
      have := (hκ (phase x)).ne'
      field
    rw [e, integral_sub_add i3 (i1.const_mul _) ((ic fun i => 1 / κ i).const_mul _),
      integral_const_mul, integral_const_mul, h1, ← hr] at q
    have e2 : (θ / r) ^ 2 * r = r⁻¹ * θ ^ 2 := by field
    have e3 : 2 * (θ / r) * θ = 2 * (r⁻¹ * θ ^ 2) := by field
    rw [e2, e3] at q
    exact le_of_mul_le_mul_right (by linarith) t2
  · have q : 0 ≤ ∫ x, κ (phase x) * (f x - θ) ^ 2 ∂μ :=
      integral_nonneg fun x => mul_nonneg (hκ _).le (sq_nonneg _)
    have e : (fun x => κ (phase x) * (f x - θ) ^ 2)
        = fun x => κ (phase x) * f x ^ 2 - 2 * θ * (κ (phase x) * f x) + θ ^ 2 * κ (phase x) := by
      funext x; ring
    rw [e, integral_sub_add i3 (i2.const_mul _) ((ic κ).const_mul _), integral_const_mul, integral_const_mul, h2] at q
    refine le_of_mul_le_mul_right ?_ t2
    linarith

theorem VRH_fractions (hp : Measurable phase) {κ : Fin n → ℝ} (hκ : ∀ i, 0 < κ i) :
    VRH (List.ofFn fun i => fin (fraction μ phase i)) (List.ofFn fun i => fin (κ i))
      = .ok (fin (∑ i, fraction μ phase i * κ i), fin (∑ i, fraction μ phase i * (1 / κ i))⁻¹,
        fin (0.5 * ((∑ i, fraction μ phase i * (1 / κ i))⁻¹ + ∑ i, fraction μ phase i * κ i))) := by
  have := VRH_eval (v := List.ofFn (fraction μ phase)) (M := List.ofFn κ) (by simp)
    (by simp [List.mem_ofFn', fraction]) (by rw [List.sum_ofFn, sum_fraction hp])
    (by simpa [List.mem_ofFn'] using hκ)
  rw [List.map_ofFn, List.map_ofFn, List.map_ofFn, rdot_ofFn] at this
  have r := rdot_ofFn (fraction μ phase) (fun i => 1 / κ i)
  simp only [Function.comp_def] at this r ⊢
  rw [r] at this
  exact this

theorem contract_hooke (k g : ℝ) (e : Tensor) :
    contract (isoStress k g e) e = k * e.trace ^ 2
      + 2 * g * (contract (e - (e.trace / 3) • 1) (e - (e.trace / 3) • 1)) := by
  unfold contract isoStress
  simp [Fin.sum_univ_three, Matrix.trace, Matrix.one_apply]
  ring

theorem contract_self_nonneg (e : Tensor) : 0 ≤ contract e e :=
  Finset.sum_nonneg fun _ _ => Finset.sum_nonneg fun _ _ => mul_self_nonneg _

omit [IsProbabilityMeasure μ] in
theorem Admissible.trace_memLp {E : Tensor} {e : Ω → Tensor} (ad : Admissible μ phase K G E e) :
    MemLp (fun x => (e x).trace) 2 μ := by
  have := ((ad.energy 0 0).add (ad.energy 1 1)).add (ad.energy 2 2)
  refine this.ae_eq (Filter.Eventually.of_forall fun x => ?_)
  simp [Matrix.trace, Fin.sum_univ_three]

theorem Admissible.hooke_memLp {E : Tensor} {e : Ω → Tensor} (hp : Measurable phase)
    (ad : Admissible μ phase K G E e) (i j : Fin 3) :
    MemLp (fun x => isoStress (K (phase x)) (G (phase x)) (e x) i j) 2 μ := by
  have h1 := (memLp_phase hp K (Admissible.trace_memLp ad)).const_mul ((1 : Tensor) i j)
  have h2 := (memLp_phase hp G (ad.energy i j)).const_mul 2
  have h3 := (memLp_phase hp G (Admissible.trace_memLp ad)).const_mul (2 / 3 * (1 : Tensor) i j)
  refine ((h1.add h2).sub h3).ae_eq (Filter.Eventually.of_forall fun x => ?_)
  simp [isoStress]
  ring

theorem Admissible.work_integrable {E : Tensor} {e : Ω → Tensor} (hp : Measurable phase)
    (ad : Admissible μ phase K G E e) :
    Integrable (fun x => contract (isoStress (K (phase x)) (G (phase x)) (e x)) (e x)) μ := by
  unfold contract
  refine integrable_finsetSum _ fun i _ => integrable_finsetSum _ fun j _ => ?_
  exact (Admissible.hooke_memLp hp ad i j).integrable_mul (ad.energy i j)

theorem memLp_sq_integrable (hp : Measurable phase) (κ : Fin n → ℝ) {f : Ω → ℝ} (hf : MemLp f 2 μ) :
    Integrable (fun x => κ (phase x) * f x ^ 2) μ := by
  refine ((memLp_phase hp κ hf).integrable_mul hf).congr (Filter.Eventually.of_forall fun x => ?_)
  simp only [Pi.mul_apply]; ring

/-- C91: whatever the geometry, the effective bulk modulus of a composite lies between the Reuss and
the Voigt average that `EM.VRH` returns for its phases, and so does the Hill average. -/
theorem C91_bulk_bounds (hp : Measurable phase) (hK : ∀ i, 0 < K i) (hG : ∀ i, 0 ≤ G i) {Ke Ge : ℝ}
    (h : EffectiveModuli μ phase K G Ke Ge) :
    ∃ V R H : ℝ, VRH (List.ofFn fun i => fin (fraction μ phase i)) (List.ofFn fun i => fin (K i))
        = .ok (fin V, fin R, fin H) ∧
      R ≤ Ke ∧ Ke ≤ V ∧ R ≤ H ∧ H ≤ V := by
  refine ⟨_, _, _, VRH_fractions hp hK, ?_⟩
  obtain ⟨e, ad, av⟩ := h 1 (by intro i j; simp [Matrix.one_apply, eq_comm])
  have ie : ∀ i j, Integrable (fun x => e x i j) μ := fun i j => (ad.energy i j).integrable one_le_two
  have tm := Admissible.trace_memLp ad
  have t1 : ∫ x, (e x).trace ∂μ = 3 := by
    have m : ∀ i, ∫ x, e x i i ∂μ = 1 := fun i => by
      have := congrFun (congrFun ad.mean i) i
      simpa [average] using this
    simp only [Matrix.trace, Fin.sum_univ_three, Matrix.diag]
    rw [integral_add3 (ie 0 0) (ie 1 1) (ie 2 2), m, m, m]
    norm_num
  have s1 : ∀ i, ∫ x, isoStress (K (phase x)) (G (phase x)) (e x) i i ∂μ = 3 * Ke := by
    intro i
    have := congrFun (congrFun av i) i
    unfold average at this
    rw [this]
    simp [isoStress, Matrix.trace]
    ring
  have t2 : ∫ x, K (phase x) * (e x).trace ∂μ = Ke * 3 := by
    have tr : ∀ x, K (phase x) * (e x).trace
        = (1 / 3) * (isoStress (K (phase x)) (G (phase x)) (e x) 0 0
          + isoStress (K (phase x)) (G (phase x)) (e x) 1 1
          + isoStress (K (phase x)) (G (phase x)) (e x) 2 2) := by
      intro x
      simp [isoStress, Matrix.trace, Fin.sum_univ_three, Matrix.diag]
      ring
    have ih : ∀ i, Integrable (fun x => isoStress (K (phase x)) (G (phase x)) (e x) i i) μ :=
      fun i => (Admissible.hooke_memLp hp ad i i).integrable one_le_two
    simp only [tr]
    rw [integral_const_mul, integral_add3 (ih 0) (ih 1) (ih 2), s1, s1, s1]
    ring
  have t3 : ∫ x, K (phase x) * (e x).trace ^ 2 ∂μ ≤ Ke * 3 ^ 2 := by
    have w := ad.hill
    rw [av] at w
    have : contract (isoStress Ke Ge 1) 1 = Ke * 3 ^ 2 := by
      simp [contract, isoStress, Matrix.trace, Matrix.one_apply]
      ring
    rw [this] at w
    rw [← w]
    refine integral_mono (memLp_sq_integrable hp K tm) (Admissible.work_integrable hp ad) fun x => ?_
    simp only
    rw [contract_hooke]
    have := mul_nonneg (mul_nonneg zero_le_two (hG (phase x)))
      (contract_self_nonneg (e x - ((e x).trace / 3) • 1))
    linarith
  obtain ⟨b1, b2⟩ := scalar_bounds hp hK tm (by norm_num) t1 t2 t3
  exact ⟨b1, b2, by linarith, by linarith⟩

/-- C91: the same for the effective shear modulus. -/
theorem C91_shear_bounds (hp : Measurable phase) (hK : ∀ i, 0 ≤ K i) (hG : ∀ i, 0 < G i) {Ke Ge : ℝ}
    (h : EffectiveModuli μ phase K G Ke Ge) :
    ∃ V R H : ℝ, VRH (List.ofFn fun i => fin (fraction μ phase i)) (List.ofFn fun i => fin (G i))
        = .ok (fin V, fin R, fin H) ∧
      R ≤ Ge ∧ Ge ≤ V ∧ R ≤ H ∧ H ≤ V := by
  refine ⟨_, _, _, VRH_fractions hp hG, ?_⟩
  obtain ⟨e, ad, av⟩ := h !![0, 1, 0; 1, 0, 0; 0, 0, 0] (by intro i j; fin_cases i <;> fin_cases j <;> rfl)
  have t1 : ∫ x, e x 0 1 ∂μ = 1 := by
    have := congrFun (congrFun ad.mean 0) 1
    simpa [average] using this
  have t2 : ∫ x, G (phase x) * e x 0 1 ∂μ = Ge * 1 := by
    have := congrFun (congrFun av 0) 1
    simp [average, isoStress, mul_assoc] at this
    rw [integral_const_mul] at this
    linarith
  have t3 : ∫ x, G (phase x) * e x 0 1 ^ 2 ∂μ ≤ Ge * 1 ^ 2 := by
    have w := ad.hill
    rw [av] at w
    have : contract (isoStress Ke Ge !![0, 1, 0; 1, 0, 0; 0, 0, 0]) !![0, 1, 0; 1, 0, 0; 0, 0, 0]
        = 4 * Ge := by
      simp [contract, isoStress, Matrix.trace, Fin.sum_univ_three]
      ring
    rw [this] at w
    have m : ∫ x, 4 * (G (phase x) * e x 0 1 ^ 2) ∂μ ≤ 4 * Ge := by
      rw [← w]
      refine integral_mono ((memLp_sq_integrable hp G (ad.energy 0 1)).const_mul 4)
        (Admissible.work_integrable hp ad) fun x => ?_
      simp only
      rw [contract_hooke]
      have g := (hG (phase x)).le
      have k := mul_nonneg (hK (phase x)) (sq_nonneg (e x).trace)
      have d : 2 * e x 0 1 ^ 2 ≤ contract (e x - ((e x).trace / 3) • 1) (e x - ((e x).trace / 3) • 1) := by
        have sy := ad.symm x 1 0
        simp [contract, Fin.sum_univ_three, Matrix.one_apply]
        rw [sy]
        nlinarith [mul_self_nonneg (e x 0 0 - (e x).trace / 3),
          mul_self_nonneg (e x 1 1 - (e x).trace / 3), mul_self_nonneg (e x 2 2 - (e x).trace / 3),
          mul_self_nonneg (e x 0 2), mul_self_nonneg (e x 2 0), mul_self_nonneg (e x 1 2),
          mul_self_nonneg (e x 2 1)]
      nlinarith
    rw [integral_const_mul] at m
    linarith
  obtain ⟨b1, b2⟩ := scalar_bounds hp hG (ad.energy 0 1) one_ne_zero t1 t2 t3
  exact ⟨b1, b2, by linarith, by linarith⟩

theorem integral_contract {S : Tensor} {e : Ω → Tensor} (mem : ∀ i j, MemLp (fun x => e x i j) 2 μ) :
    ∫ x, contract S (e x) ∂μ = contract S (average μ e) := by
  have it : ∀ i j, Integrable (fun x => S i j * e x i j) μ :=
    fun i j => ((mem i j).integrable one_le_two).const_mul _
  have h1 := integral_finsetSum Finset.univ (f := fun i x => ∑ j, S i j * e x i j)
    fun i _ => integrable_finsetSum _ fun j _ => it i j
  refine h1.trans (Finset.sum_congr rfl fun i _ => ?_)
  refine (integral_finsetSum Finset.univ (f := fun j x => S i j * e x i j)
    fun j _ => it i j).trans (Finset.sum_congr rfl fun j _ => ?_)
  exact integral_const_mul _ _

/-- C91: both bounds are reached, so neither can be improved without more knowledge of the geometry:
uniform strain gives the Voigt averages, uniform stress the Reuss averages. -/
theorem C91_attained (hp : Measurable phase) (hK : ∀ i, 0 < K i) (hG : ∀ i, 0 < G i) :
    ∃ Kv Kr Kh Gv Gr Gh : ℝ,
      VRH (List.ofFn fun i => fin (fraction μ phase i)) (List.ofFn fun i => fin (K i))
        = .ok (fin Kv, fin Kr, fin Kh) ∧
      VRH (List.ofFn fun i => fin (fraction μ phase i)) (List.ofFn fun i => fin (G i))
        = .ok (fin Gv, fin Gr, fin Gh) ∧
      EffectiveModuli μ phase K G Kv Gv ∧ EffectiveModuli μ phase K G Kr Gr := by
  refine ⟨_, _, _, _, _, _, VRH_fractions hp hK, VRH_fractions hp hG, ?_, ?_⟩
  · intro E hE
    have av : (average μ fun x => isoStress (K (phase x)) (G (phase x)) E)
        = isoStress (∑ i, fraction μ phase i * K i) (∑ i, fraction μ phase i * G i) E := by
      funext i j
      have := integral_phase_pair (μ := μ) hp K G (E.trace * (1 : Tensor) i j)
        (2 * (E i j - E.trace / 3 * (1 : Tensor) i j))
      unfold average
      simp only [isoStress, Matrix.add_apply, Matrix.smul_apply, Matrix.sub_apply, smul_eq_mul]
      calc _ = ∫ x, K (phase x) * (E.trace * (1 : Tensor) i j)
            + G (phase x) * (2 * (E i j - E.trace / 3 * (1 : Tensor) i j)) ∂μ := by
            congr 1; funext x; ring
        _ = _ := by rw [this]; ring
    refine ⟨fun _ => E, ⟨fun _ => hE, fun i j => memLp_const _, ?_, ?_⟩, av⟩
    · funext i j; simp [average]
    · rw [av]
      have := integral_phase_pair (μ := μ) hp K G (E.trace ^ 2)
        (2 * (contract (E - (E.trace / 3) • 1) (E - (E.trace / 3) • 1)))
      rw [contract_hooke]
      simp only [contract_hooke]
      calc _ = ∫ x, K (phase x) * E.trace ^ 2
            + G (phase x) * (2 * (contract (E - (E.trace / 3) • 1) (E - (E.trace / 3) • 1))) ∂μ := by
            congr 1; funext x; ring
        _ = _ := by rw [this]; ring
  · have pk := recip_pos (μ := μ) hp hK
    have pg := recip_pos (μ := μ) hp hG
    set rk := ∑ i, fraction μ phase i * (1 / K i) with hrk
    set rg := ∑ i, fraction μ phase i * (1 / G i) with hrg
    intro E hE
    let e : Ω → Tensor := fun x => (rk⁻¹ * (1 / K (phase x)) * (E.trace / 3)) • 1
      + (rg⁻¹ * (1 / G (phase x))) • (E - (E.trace / 3) • 1)
    have tr : ∀ x, (e x).trace = rk⁻¹ * (1 / K (phase x)) * E.trace := by
      intro x
      simp [e, Matrix.trace, Fin.sum_univ_three]
      ring
    have st : ∀ x, isoStress (K (phase x)) (G (phase x)) (e x) = isoStress rk⁻¹ rg⁻¹ E := by
      intro x
      have k := (hK (phase x)).ne'
      have g := (hG (phase x)).ne'
      funext i j
      unfold isoStress
      rw [tr]
      simp only [e, Matrix.add_apply, Matrix.smul_apply, Matrix.sub_apply, smul_eq_mul]
      field
    have ent : ∀ x i j, e x i j = (1 / K (phase x)) * (rk⁻¹ * (E.trace / 3) * (1 : Tensor) i j)
        + (1 / G (phase x)) * (rg⁻¹ * (E i j - E.trace / 3 * (1 : Tensor) i j)) := by
      intro x i j
      simp only [e, Matrix.add_apply, Matrix.smul_apply, Matrix.sub_apply, smul_eq_mul]
      ring
    have mean : average μ e = E := by
      funext i j
      unfold average
      simp only [ent]
      rw [integral_phase_pair (μ := μ) hp (fun i => 1 / K i) (fun i => 1 / G i), ← hrk, ← hrg]
      field
    have mem : ∀ i j, MemLp (fun x => e x i j) 2 μ := by
      intro i j
      simp only [ent]
      exact (memLp_phase hp (fun i => 1 / K i) (memLp_const _)).add
        (memLp_phase hp (fun i => 1 / G i) (memLp_const _))
    have av : (average μ fun x => isoStress (K (phase x)) (G (phase x)) (e x)) = isoStress rk⁻¹ rg⁻¹ E := by
      funext i j
      unfold average
      simp only [st]
      simp
    refine ⟨e, ⟨?_, mem, mean, ?_⟩, av⟩
    · intro x i j
      rw [ent, ent, hE i j, Matrix.one_apply, Matrix.one_apply]
      simp only [eq_comm]
    · rw [av]
      simp only [st]
      rw [integral_contract mem, mean]

end

/-- The hypotheses are met: a unit bar whose left half is quartz and whose right half is clay. -/
example : ∃ Ke Ge V R H : ℝ,
    EffectiveModuli (volume : Measure unitInterval) (fun x => if (x : ℝ) < 1 / 2 then (0 : Fin 2) else 1)
      ![36.6, 20.9] ![45, 6.9] Ke Ge ∧
    VRH (List.ofFn fun i => fin (fraction (volume : Measure unitInterval)
        (fun x => if (x : ℝ) < 1 / 2 then (0 : Fin 2) else 1) i))
      (List.ofFn fun i => fin ((![36.6, 20.9] : Fin 2 → ℝ) i)) = .ok (fin V, fin R, fin H) ∧
    R ≤ Ke ∧ Ke ≤ V := by
  have hp : Measurable fun x : unitInterval => if (x : ℝ) < 1 / 2 then (0 : Fin 2) else 1 :=
    Measurable.ite (measurableSet_lt measurable_subtype_coe measurable_const) measurable_const
      measurable_const
  have hK : ∀ i, 0 < (![36.6, 20.9] : Fin 2 → ℝ) i := by intro i; fin_cases i <;> norm_num
  have hG : ∀ i, 0 < (![45, 6.9] : Fin 2 → ℝ) i := by intro i; fin_cases i <;> norm_num
  obtain ⟨Kv, -, -, Gv, -, -, -, -, h, -⟩ :=
    C91_attained (μ := (volume : Measure unitInterval)) hp hK hG
  obtain ⟨V, R, H, e, b1, b2, -⟩ := C91_bulk_bounds hp hK (fun i => (hG i).le) h
  exact ⟨Kv, Gv, V, R, H, h, e, b1, b2⟩

end RockPhy.Props
