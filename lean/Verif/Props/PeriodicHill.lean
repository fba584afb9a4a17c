import Verif.Lemmas.PeriodicExists
import Verif.Props.PeriodicBounds

/-! # Property C92: effective moduli exist, and the bounds are attained

Every periodic composite of two isotropic constituents has one stiffness and one compliance, so the
bounds of C92 speak about every geometry.  When the constituents share the shear modulus the composite
is isotropic and its bulk modulus is the value returned by the library. -/

namespace RockPhy.Props

open Fl Spec EM MeasureTheory

section

variable {n : ℕ} {phase : Cell → Fin n} {K G : Fin n → ℝ}

theorem hooke_comb (k g a b : ℝ) (S T : Tensor) :
    isoStress k g (a • S + b • T) = a • isoStress k g S + b • isoStress k g T := by
  funext i j
  simp only [hooke_apply, Matrix.add_apply, Matrix.smul_apply, smul_eq_mul]
  ring

theorem coeff_comb {f g : Cell → ℝ} (hf : Integrable f cellVolume) (hg : Integrable g cellVolume)
    (a b : ℝ) (k : Fin 3 → ℤ) :
    coeff (fun x => a * f x + b * g x) k = a * coeff f k + b * coeff g k := by
  rw [coeff_add (hf.const_mul a) (hg.const_mul b), coeff_smul, coeff_smul]

theorem average_comb {e d : Cell → Tensor} (he : FiniteEnergy e) (hd : FiniteEnergy d) (a b : ℝ) :
    Spec.average cellVolume (fun x => a • e x + b • d x)
      = a • Spec.average cellVolume e + b • Spec.average cellVolume d := by
  funext i j
  have := integral_add ((FiniteEnergy.integrable he i j).const_mul a)
    ((FiniteEnergy.integrable hd i j).const_mul b)
  rw [integral_const_mul, integral_const_mul] at this
  exact this

theorem response_comb (hp : Measurable phase) {E S E' S' : Tensor} (h : Response phase K G E S)
    (h' : Response phase K G E' S') (a b : ℝ) :
    Response phase K G (a • E + b • E') (a • S + b • S') := by
  obtain ⟨e, sy, fe, ⟨V, hV⟩, eq, me, ms⟩ := h
  obtain ⟨d, sy', fd, ⟨U, hU⟩, eq', me', ms'⟩ := h'
  have st : stress phase K G (fun x => a • e x + b • d x)
      = fun x => a • stress phase K G e x + b • stress phase K G d x := by
    funext x
    exact hooke_comb _ _ a b _ _
  have fs := FiniteEnergy.stress (K := K) (G := G) hp fe
  have fs' := FiniteEnergy.stress (K := K) (G := G) hp fd
  have cf : ∀ {u v : Cell → Tensor}, FiniteEnergy u → FiniteEnergy v → ∀ i j k,
      coeff (fun x => (a • u x + b • v x) i j) k
        = a * coeff (fun x => u x i j) k + b * coeff (fun x => v x i j) k := by
    intro u v hu hv i j k
    exact coeff_comb (FiniteEnergy.integrable hu i j) (FiniteEnergy.integrable hv i j) a b k
  refine ⟨fun x => a • e x + b • d x, fun x i j => ?_, fun i j => ?_,
    ⟨fun k i => a * V k i + b * U k i, fun k hk i j => ?_⟩, fun k i => ?_, ?_, ?_⟩
  · simp [sy x i j, sy' x i j]
  · exact ((fe i j).const_mul a).add ((fd i j).const_mul b)
  · rw [cf fe fd, hV k hk, hU k hk]
    ring
  · rw [st]
    simp only [cf fs fs']
    have q := eq k i
    have q' := eq' k i
    rw [Fin.sum_univ_three] at *
    linear_combination (a : ℂ) * q + (b : ℂ) * q'
  · rw [average_comb fe fd, me, me']
  · rw [st, average_comb fs fs', ms, ms']

theorem response_symm {E S : Tensor} (h : Response phase K G E S) (i j : Fin 3) : S i j = S j i := by
  obtain ⟨e, sy, _, _, _, _, ms⟩ := h
  rw [← ms]
  unfold Spec.average
  simp only [stress_symm sy _ i j]

theorem contract_self_eq_zero {e : Tensor} (h : contract e e = 0) : e = 0 := by
  have p : ∀ i j, 0 ≤ e i j * e i j := fun i j => mul_self_nonneg _
  have l : ∀ i j, e i j * e i j ≤ contract e e := fun i j =>
    (Finset.single_le_sum (f := fun j => e i j * e i j) (fun j _ => p i j) (Finset.mem_univ j)).trans
      (Finset.single_le_sum (f := fun i => ∑ j, e i j * e i j)
        (fun i _ => Finset.sum_nonneg fun j _ => p i j) (Finset.mem_univ i))
  funext i j
  have := l i j
  rw [h] at this
  exact mul_self_eq_zero.mp (le_antisymm this (p i j))

theorem response_zero (hp : Measurable phase) (hK : ∀ i, 0 < K i) (hG : ∀ i, 0 < G i) {E S : Tensor}
    (h : Response phase K G E S) (hz : contract S E = 0) : E = 0 ∧ S = 0 := by
  obtain ⟨e, sy, fe, co, eq, me, ms⟩ := h
  have fs := FiniteEnergy.stress (K := K) (G := G) hp fe
  have w := hill_lemma fe fs (stress_symm sy) co eq
  rw [me, ms, hz] at w
  obtain ⟨c, c0, hc⟩ := stiffness_floor hK hG
  have ii := FiniteEnergy.contract_integrable fe fe
  have l : c * ∫ x, contract (e x) (e x) ∂cellVolume ≤ 0 := by
    rw [← w, ← integral_const_mul]
    exact integral_mono (ii.const_mul c) (FiniteEnergy.contract_integrable fs fe) fun x => hc _ _
  have z : ∫ x, contract (e x) (e x) ∂cellVolume = 0 :=
    le_antisymm (nonpos_of_mul_nonpos_right l c0) (integral_nonneg fun x => contract_self_nonneg _)
  have a := (integral_eq_zero_iff_of_nonneg (fun x => contract_self_nonneg (e x)) ii).mp z
  have a0 : ∀ᵐ x ∂cellVolume, e x = 0 := by
    filter_upwards [a] with x hx
    have hx' : contract (e x) (e x) = 0 := hx
    exact contract_self_eq_zero hx'
  constructor
  · rw [← me]
    funext i j
    have : (fun x => e x i j) =ᵐ[cellVolume] fun _ => 0 := by
      filter_upwards [a0] with x hx
      rw [hx]; rfl
    unfold Spec.average
    rw [integral_congr_ae this]
    simp
  · rw [← ms]
    funext i j
    have : (fun x => stress phase K G e x i j) =ᵐ[cellVolume] fun _ => 0 := by
      filter_upwards [a0] with x hx
      unfold stress
      rw [hx, hooke_apply]
      simp
    unfold Spec.average
    rw [integral_congr_ae this]
    simp

/-- C92: the mean strain determines the mean stress, and the mean stress the mean strain. -/
theorem C92_unique (hp : Measurable phase) (hK : ∀ i, 0 < K i) (hG : ∀ i, 0 < G i) {E S E' S' : Tensor}
    (h : Response phase K G E S) (h' : Response phase K G E' S') : E = E' ↔ S = S' := by
  have d := response_comb hp h h' 1 (-1)
  constructor
  · rintro rfl
    have := (response_zero hp hK hG d (by
      have : (1 : ℝ) • E + (-1 : ℝ) • E = 0 := by module
      rw [this, contract_zero])).2
    rw [one_smul, neg_one_smul, ← sub_eq_add_neg, sub_eq_zero] at this
    exact this
  · rintro rfl
    have := (response_zero hp hK hG d (by
      have : (1 : ℝ) • S + (-1 : ℝ) • S = 0 := by module
      rw [this, contract_comm, contract_zero])).1
    rw [one_smul, neg_one_smul, ← sub_eq_add_neg, sub_eq_zero] at this
    exact this

/-- The symmetric tensors. -/
def symmetricT : Submodule ℝ Tensor where
  carrier := {E | ∀ i j, E i j = E j i}
  add_mem' h h' := fun i j => by simp [h i j, h' i j]
  zero_mem' := fun _ _ => rfl
  smul_mem' c E h := fun i j => by simp [h i j]

/-- C92: every periodic composite, of any geometry and any number of constituents, has a stiffness
and a compliance. -/
theorem C92_exists (hp : Measurable phase) (hK : ∀ i, 0 < K i) (hG : ∀ i, 0 < G i) :
    ∃ C D : Tensor → Tensor, Stiffness phase K G C ∧ Compliance phase K G D := by
  choose f hf using fun E : symmetricT => exists_response (phase := phase) hp hK hG E.2
  let T : symmetricT →ₗ[ℝ] symmetricT :=
    { toFun := fun E => ⟨f E, response_symm (hf E)⟩
      map_add' := fun E E' => by
        have a := response_comb hp (hf E) (hf E') 1 1
        have b := (C92_unique hp hK hG (hf (E + E')) a).mp (by simp)
        simp only [one_smul] at b
        exact Subtype.ext b
      map_smul' := fun c E => by
        have a := response_comb hp (hf E) (hf E) c 0
        have b := (C92_unique hp hK hG (hf (c • E)) a).mp (by simp)
        simp only [zero_smul, add_zero] at b
        exact Subtype.ext b }
  have inj : Function.Injective T := by
    intro E E' h
    have h' : f E = f E' := congrArg Subtype.val h
    exact Subtype.ext ((C92_unique hp hK hG (hf E) (hf E')).mpr h')
  have sur := LinearMap.injective_iff_surjective.mp inj
  choose D hD using sur
  classical
  refine ⟨fun E => if h : ∀ i j, E i j = E j i then f ⟨E, h⟩ else 0,
    fun S => if h : ∀ i j, S i j = S j i then (D ⟨S, h⟩ : Tensor) else 0, fun E hE => ?_, fun S hS => ?_⟩
  · simp only [dif_pos hE]
    exact hf ⟨E, hE⟩
  · simp only [dif_pos hS]
    have := hf (D ⟨S, hS⟩)
    have e : f (D ⟨S, hS⟩) = S := congrArg Subtype.val (hD ⟨S, hS⟩)
    rwa [e] at this

/-! ## One shear modulus -/

theorem ae_const_of_coeff {h : Cell → ℝ} (hh : MemLp h 2 cellVolume)
    (hz : ∀ k ≠ 0, coeff h k = 0) : ∀ᵐ x ∂cellVolume, h x = ∫ y, h y ∂cellVolume := by
  set c := ∫ y, h y ∂cellVolume with hc
  have i1 : Integrable h cellVolume := hh.integrable one_le_two
  have p := parseval hh hh
  have s := hasSum_single (f := fun k => (coeff h k).re * (coeff h k).re
    + (coeff h k).im * (coeff h k).im) 0 (fun k hk => by simp [hz k hk])
  have e := p.unique s
  rw [coeff_zero, ← hc] at e
  simp only [Complex.ofReal_re, Complex.ofReal_im, mul_zero, add_zero] at e
  have i2 : Integrable (fun x => h x * h x) cellVolume := hh.integrable_mul hh
  have z : ∫ x, (h x - c) ^ 2 ∂cellVolume = 0 := by
    have t : (fun x => (h x - c) ^ 2) = fun x => h x * h x - 2 * c * h x + c ^ 2 := by
      funext x; ring
    rw [t, integral_sub_add i2 (i1.const_mul _) (integrable_const _), e, integral_const_mul, ← hc]
    simp
    ring
  have i3 : Integrable (fun x => (h x - c) ^ 2) cellVolume :=
    (hh.sub (memLp_const c)).integrable_sq
  have a := (integral_eq_zero_iff_of_nonneg (fun x => sq_nonneg (h x - c)) i3).mp z
  filter_upwards [a] with x hx
  have : (h x - c) ^ 2 = 0 := hx
  exact sub_eq_zero.mp (pow_eq_zero_iff two_ne_zero |>.mp this)

theorem uniform_shear (hp : Measurable phase) (hK : ∀ i, 0 < K i) {g : ℝ} (g0 : 0 < g) :
    IsotropicComposite phase K (fun _ => g)
      ((∑ i, fraction cellVolume phase i * (1 / (K i + 4 / 3 * g)))⁻¹ - 4 / 3 * g) g := by
  intro E hE
  obtain ⟨S, h⟩ := exists_response (phase := phase) (K := K) (G := fun _ => g) hp hK (fun _ => g0) hE
  suffices S = isoStress ((∑ i, fraction cellVolume phase i * (1 / (K i + 4 / 3 * g)))⁻¹ - 4 / 3 * g) g E by
    rwa [← this]
  obtain ⟨e, sy, fe, ⟨V, hV⟩, eq, me, ms⟩ := h
  have ft := FiniteEnergy.trace fe
  have it : Integrable (fun x => (e x).trace) cellVolume := ft.integrable one_le_two
  have m1 := memLp_phase hp (fun i => K i - 2 / 3 * g) ft
  have il : Integrable (fun x => (K (phase x) - 2 / 3 * g) * (e x).trace) cellVolume :=
    m1.integrable one_le_two
  have m2 := memLp_phase hp (fun i => K i + 4 / 3 * g) ft
  -- the stress of a uniform shear modulus
  have cs : ∀ i j k, coeff (fun x => stress phase K (fun _ => g) e x i j) k
      = ((1 : Tensor) i j : ℝ) * coeff (fun x => (K (phase x) - 2 / 3 * g) * (e x).trace) k
        + (2 * g : ℝ) * coeff (fun x => e x i j) k := by
    intro i j k
    have t : (fun x => stress phase K (fun _ => g) e x i j)
        = fun x => (1 : Tensor) i j * ((K (phase x) - 2 / 3 * g) * (e x).trace)
          + (2 * g) * e x i j := by
      funext x
      unfold stress
      rw [hooke_apply, trace_entries]
      ring
    rw [t, coeff_comb il (FiniteEnergy.integrable fe i j)]
  have hz : ∀ k ≠ 0, coeff (fun x => (K (phase x) + 4 / 3 * g) * (e x).trace) k = 0 := by
    intro k hk
    have t : (fun x => (K (phase x) + 4 / 3 * g) * (e x).trace)
        = fun x => 1 * ((K (phase x) - 2 / 3 * g) * (e x).trace) + (2 * g) * (e x).trace := by
      funext x; ring
    rw [t, coeff_comb il it, coeff_trace fe]
    have q0 := eq k 0
    have q1 := eq k 1
    have q2 := eq k 2
    simp only [Fin.sum_univ_three, cs, hV k hk, Matrix.one_apply] at q0 q1 q2
    simp only [hV k hk]
    simp at q0 q1 q2 ⊢
    generalize coeff (fun x => (K (phase x) - 2 / 3 * g) * (e x).trace) k = L at *
    have nz : ((k 0 : ℂ) ^ 2 + (k 1 : ℂ) ^ 2 + (k 2 : ℂ) ^ 2) ≠ 0 := by
      intro hh
      apply hk
      have hi : (k 0) ^ 2 + (k 1) ^ 2 + (k 2) ^ 2 = 0 := by exact_mod_cast hh
      have a0 := sq_nonneg (k 0); have a1 := sq_nonneg (k 1); have a2 := sq_nonneg (k 2)
      have b0 : (k 0) ^ 2 = 0 := by omega
      have b1 : (k 1) ^ 2 = 0 := by omega
      have b2 : (k 2) ^ 2 = 0 := by omega
      funext i
      fin_cases i
      · exact pow_eq_zero_iff two_ne_zero |>.mp b0
      · exact pow_eq_zero_iff two_ne_zero |>.mp b1
      · exact pow_eq_zero_iff two_ne_zero |>.mp b2
    refine (mul_eq_zero.mp ?_).resolve_left nz
    linear_combination (k 0 : ℂ) * q0 + (k 1 : ℂ) * q1 + (k 2 : ℂ) * q2
  have cst := ae_const_of_coeff m2 hz
  set c := ∫ y, (K (phase y) + 4 / 3 * g) * (e y).trace ∂cellVolume with hc
  have kp : ∀ i, 0 < K i + 4 / 3 * g := fun i => by have := hK i; positivity
  have Yp := recip_pos (μ := cellVolume) hp kp
  have tr : E.trace = c * ∑ i, fraction cellVolume phase i * (1 / (K i + 4 / 3 * g)) := by
    rw [← me, ← average_trace fe, ← integral_phase hp (fun i => 1 / (K i + 4 / 3 * g)),
      ← integral_const_mul]
    refine integral_congr_ae ?_
    filter_upwards [cst] with x hx
    rw [← hx, mul_one_div, eq_div_iff (kp (phase x)).ne', mul_comm]
  generalize (∑ i, fraction cellVolume phase i * (1 / (K i + 4 / 3 * g))) = Y at *
  have mean : ∫ x, (K (phase x) - 2 / 3 * g) * (e x).trace ∂cellVolume = c - 2 * g * E.trace := by
    have t : (fun x => (K (phase x) - 2 / 3 * g) * (e x).trace)
        = fun x => (K (phase x) + 4 / 3 * g) * (e x).trace - 2 * g * (e x).trace := by
      funext x; ring
    rw [t, integral_sub (m2.integrable one_le_two) (it.const_mul _), integral_const_mul,
      average_trace fe, me]
  rw [← ms]
  funext i j
  have t : (fun x => stress phase K (fun _ => g) e x i j)
      = fun x => (1 : Tensor) i j * ((K (phase x) - 2 / 3 * g) * (e x).trace)
        + (2 * g) * e x i j := by
    funext x
    unfold stress
    rw [hooke_apply, trace_entries]
    ring
  have m3 : ∫ x, e x i j ∂cellVolume = E i j := by rw [← me]; rfl
  unfold Spec.average
  rw [t, integral_add (il.const_mul _) ((FiniteEnergy.integrable fe i j).const_mul _),
    integral_const_mul, integral_const_mul, mean, m3, hooke_apply, ← trace_entries, tr]
  field

end

/-- C92: when the two constituents have the same shear modulus, every composite is isotropic whatever
its geometry, and its bulk modulus is the value returned by the library under either name. -/
theorem C92_uniform_shear {phase : Cell → Fin 2} (hp : Measurable phase) {K : Fin 2 → ℝ} {g : ℝ}
    (hK0 : ∀ i, 0 < K i) (hK : K 0 ≠ K 1) (g0 : 0 < g) (bound : String) :
    ∃ k : ℝ, (HS (fin (fraction cellVolume phase 0)) (fin (K 0)) (fin (K 1)) (fin g) (fin g) bound).1
        = fin k ∧ IsotropicComposite phase K (fun _ => g) k g := by
  obtain ⟨f0, f1⟩ := fraction_mem hp
  refine ⟨hsMean (fraction cellVolume phase 0) (K 0) (K 1) (hsBulk g), ?_, ?_⟩
  · by_cases h : bound = "upper"
    · rw [h]; exact HS_upper_bulk f0 f1 (hK0 0) (hK0 1) g0 hK
    · exact HS_lower_bulk h f0 f1 (hK0 0) (hK0 1) g0 hK
  · have := uniform_shear hp hK0 g0
    rwa [hsMean_fraction hp K, ← hsBulk_eq] at this

/-! ## Concrete cases -/

/-- A stack of layers of equal thickness: the first constituent fills half of the cell. -/
noncomputable def layers (x : Cell) : Fin 2 := if ‖x 0‖ ≤ 1 / 4 then 0 else 1

theorem layers_measurable : Measurable layers := by
  refine Measurable.ite ?_ measurable_const measurable_const
  exact (isClosed_le (by fun_prop) continuous_const).measurableSet

theorem layers_fraction : fraction cellVolume layers 0 = 1 / 2 := by
  have e : layers ⁻¹' {0} = (fun x : Cell => x 0) ⁻¹' Metric.closedBall 0 (1 / 4) := by
    ext x
    simp [layers]
  have m : MeasurePreserving (fun x : Cell => x 0) cellVolume AddCircle.haarAddCircle :=
    measurePreserving_eval (μ := fun _ : Fin 3 => (AddCircle.haarAddCircle : Measure UnitAddCircle)) 0
  have v : (AddCircle.haarAddCircle : Measure UnitAddCircle) (Metric.closedBall 0 (1 / 4))
      = ENNReal.ofReal (1 / 2) := by
    have := AddCircle.volume_closedBall (T := 1) (x := 0) (1 / 4)
    rw [AddCircle.volume_eq_smul_haarAddCircle] at this
    simp only [ENNReal.ofReal_one, one_smul] at this
    rw [this]
    congr 1
    norm_num
  unfold fraction
  rw [e, measureReal_def, m.measure_preimage Metric.isClosed_closedBall.measurableSet.nullMeasurableSet, v,
    ENNReal.toReal_ofReal (by norm_num)]

/-- Layers of quartz and clay: not isotropic, but the rotational means of their stiffness and
compliance are within the bounds. -/
example : ∃ C D : Tensor → Tensor, Stiffness layers ![36.6, 20.9] ![45, 6.85] C ∧
    Compliance layers ![36.6, 20.9] ![45, 6.85] D ∧ ∃ kl gl ku gu : ℝ,
      HS (fin (1 / 2)) (fin 36.6) (fin 20.9) (fin 45) (fin 6.85) "lower" = (fin kl, fin gl) ∧
      HS (fin (1 / 2)) (fin 36.6) (fin 20.9) (fin 45) (fin 6.85) "upper" = (fin ku, fin gu) ∧
      kl ≤ voigtBulk C ∧ gl ≤ voigtShear C ∧ reussBulk D ≤ ku ∧ reussShear D ≤ gu := by
  have pK : ∀ i, (0 : ℝ) < (![36.6, 20.9] : Fin 2 → ℝ) i := by intro i; fin_cases i <;> norm_num
  have pG : ∀ i, (0 : ℝ) < (![45, 6.85] : Fin 2 → ℝ) i := by intro i; fin_cases i <;> norm_num
  obtain ⟨C, D, hC, hD⟩ := C92_exists layers_measurable pK pG
  obtain ⟨kl, gl, e1, l1, l2⟩ := C92_lower layers_measurable (pK 1) (pG 1) (by norm_num) (by norm_num)
    hC (bound := "lower") (by decide)
  obtain ⟨ku, gu, e2, u1, u2⟩ := C92_upper layers_measurable (pK 1) (pG 1) (by norm_num) (by norm_num) hD
  rw [layers_fraction] at e1 e2
  exact ⟨C, D, hC, hD, kl, gl, ku, gu, e1, e2, l1, l2, u1, u2⟩

/-- The same layers with one shear modulus: isotropic, with the bulk modulus of the library. -/
example : ∃ k : ℝ, (HS (fin (1 / 2)) (fin 36.6) (fin 2.2) (fin 3) (fin 3) "upper").1 = fin k ∧
    IsotropicComposite layers ![36.6, 2.2] (fun _ => 3) k 3 ∧
    EffectiveModuli cellVolume layers ![36.6, 2.2] (fun _ => 3) k 3 := by
  obtain ⟨k, e, h⟩ := C92_uniform_shear (K := ![36.6, 2.2]) layers_measurable
    (by intro i; fin_cases i <;> norm_num) (by norm_num) (by norm_num : (0 : ℝ) < 3) "upper"
  rw [layers_fraction] at e
  exact ⟨k, e, h, C92_voigt_reuss layers_measurable h⟩

/-- Hypotheses of `C92_isotropic` and `C92_bulk_any_order`: a cell filled with the first
constituent. -/
example : ∃ kl gl ku gu : ℝ,
    HS (fin 1) (fin 36.6) (fin 20.9) (fin 45) (fin 6.85) "lower" = (fin kl, fin gl) ∧
    HS (fin 1) (fin 36.6) (fin 20.9) (fin 45) (fin 6.85) "upper" = (fin ku, fin gu) ∧
    kl ≤ 36.6 ∧ 36.6 ≤ ku ∧ gl ≤ 45 ∧ 45 ≤ gu := by
  have hp : Measurable fun _ : Cell => (0 : Fin 2) := measurable_const
  have pK : ∀ i, (0 : ℝ) < (![36.6, 20.9] : Fin 2 → ℝ) i := by intro i; fin_cases i <;> norm_num
  have fr : fraction cellVolume (fun _ : Cell => (0 : Fin 2)) 0 = 1 := by
    simp [fraction, measureReal_def]
  have fr1 : fraction cellVolume (fun _ : Cell => (0 : Fin 2)) 1 = 0 := by
    rw [fraction_one hp, fr, sub_self]
  have h := uniform_shear (K := ![36.6, 20.9]) hp pK (by norm_num : (0 : ℝ) < 45)
  rw [Fin.sum_univ_two, fr, fr1] at h
  have h' : IsotropicComposite (fun _ : Cell => (0 : Fin 2)) ![36.6, 20.9] ![45, 6.85] 36.6 45 := by
    have e : (1 * (1 / ((![36.6, 20.9] : Fin 2 → ℝ) 0 + 4 / 3 * 45))
        + 0 * (1 / ((![36.6, 20.9] : Fin 2 → ℝ) 1 + 4 / 3 * 45)))⁻¹ - 4 / 3 * 45 = 36.6 := by
      simp
    rw [e] at h
    exact h
  obtain ⟨kl, gl, ku, gu, e1, e2, r⟩ := C92_isotropic hp (pK 1) (by norm_num) (by norm_num)
    (by norm_num) h'
  rw [fr] at e1 e2
  exact ⟨kl, gl, ku, gu, e1, e2, r⟩

end RockPhy.Props
