import Verif.Lemmas.Periodic
import Verif.Lemmas.Mix
import Verif.Props.Composite

/-! # Property C92: the Hashin-Shtrikman bounds hold for every periodic composite -/

namespace RockPhy.Props

open Fl Spec EM MeasureTheory UnitAddTorus

/-! ## Tensor algebra -/

theorem contract_comm (a b : Tensor) : contract a b = contract b a := by
  unfold contract
  simp only [mul_comm]

theorem hooke_apply (a b : ℝ) (e : Tensor) (i j : Fin 3) : isoStress a b e i j
    = (a - 2 / 3 * b) * (1 : Tensor) i j * (e 0 0 + e 1 1 + e 2 2) + 2 * b * e i j := by
  simp [isoStress, Matrix.trace, Fin.sum_univ_three]
  ring

theorem unit_direction {k : Fin 3 → ℤ} (hk : k ≠ 0) :
    ∃ (r : ℝ) (n : Fin 3 → ℝ), r ≠ 0 ∧ n 0 ^ 2 + n 1 ^ 2 + n 2 ^ 2 = 1 ∧ ∀ i, (k i : ℝ) = r * n i := by
  have p : 0 < (k 0 : ℝ) ^ 2 + (k 1 : ℝ) ^ 2 + (k 2 : ℝ) ^ 2 := by
    by_contra h
    apply hk
    have h0 := sq_nonneg (k 0 : ℝ)
    have h1 := sq_nonneg (k 1 : ℝ)
    have h2 := sq_nonneg (k 2 : ℝ)
    have z : ∀ i, (k i : ℝ) ^ 2 = 0 := by
      intro i; fin_cases i <;> simp only [Fin.mk_zero, Fin.mk_one, Fin.reduceFinMk, Fin.isValue] <;>
        linarith
    funext i
    have := pow_eq_zero_iff (two_ne_zero) |>.mp (z i)
    exact_mod_cast this
  set r := √((k 0 : ℝ) ^ 2 + (k 1 : ℝ) ^ 2 + (k 2 : ℝ) ^ 2) with hr
  have r0 : r ≠ 0 := (Real.sqrt_pos.mpr p).ne'
  have r2 : r ^ 2 = (k 0 : ℝ) ^ 2 + (k 1 : ℝ) ^ 2 + (k 2 : ℝ) ^ 2 := Real.sq_sqrt p.le
  refine ⟨r, fun i => k i / r, r0, ?_, fun i => by field⟩
  field_simp
  exact r2.symm

theorem symT_scale {k n : Fin 3 → ℝ} {r : ℝ} (h : ∀ i, k i = r * n i) (v : Fin 3 → ℝ) :
    symT k v = symT n fun i => r * v i := by
  funext i j
  simp only [symT, h]
  ring

theorem contract_symT {S : Tensor} (hS : ∀ i j, S i j = S j i) {n : Fin 3 → ℝ}
    (hn : ∀ i, ∑ j, n j * S i j = 0) (v : Fin 3 → ℝ) : contract S (symT n v) = 0 := by
  have h0 := hn 0; have h1 := hn 1; have h2 := hn 2
  have s1 := hS 1 0; have s2 := hS 2 0; have s3 := hS 2 1
  simp only [Fin.sum_univ_three] at h0 h1 h2
  simp only [contract, symT, Fin.sum_univ_three]
  rw [s1] at *
  rw [s2, s3] at *
  linear_combination v 0 * h0 + v 1 * h1 + v 2 * h2

/-- A gradient has no less norm than trace. -/
theorem gradient_trace (n v : Fin 3 → ℝ) :
    0 ≤ contract (isoStress (-2 / 3) (1 / 2) (symT n v)) (symT n v) := by
  have e : contract (isoStress (-2 / 3) (1 / 2) (symT n v)) (symT n v)
      = 1 / 2 * ((n 0 * v 1 - n 1 * v 0) ^ 2 + (n 0 * v 2 - n 2 * v 0) ^ 2
        + (n 1 * v 2 - n 2 * v 1) ^ 2) := by
    simp [contract, isoStress, symT, Matrix.trace, Fin.sum_univ_three, Matrix.one_apply]
    ring
  rw [e]
  positivity

/-- A plane tensor has at least half the square of its trace as squared norm. -/
theorem plane_trace {S : Tensor} {n : Fin 3 → ℝ} (h : n 0 ^ 2 + n 1 ^ 2 + n 2 ^ 2 = 1)
    (hn : ∀ i, ∑ j, n j * S i j = 0) : 0 ≤ contract (isoStress (-1 / 3) 1 S) S := by
  have h0 := hn 0; have h1 := hn 1; have h2 := hn 2
  simp only [Fin.sum_univ_three] at h0 h1 h2
  have e : contract (isoStress (-1 / 3) 1 S) S
      = 2 * contract (S - (S.trace / 2) • (1 - Matrix.of fun i j => n i * n j))
        (S - (S.trace / 2) • (1 - Matrix.of fun i j => n i * n j)) := by
    simp [contract, isoStress, Matrix.trace, Fin.sum_univ_three, Matrix.one_apply]
    linear_combination -2 * (S 0 0 + S 1 1 + S 2 2) * (n 0 * h0 + n 1 * h1 + n 2 * h2)
      - (S 0 0 + S 1 1 + S 2 2) ^ 2 / 2 * (n 0 ^ 2 + n 1 ^ 2 + n 2 ^ 2 - 1) * h
  rw [e]
  exact mul_nonneg zero_le_two (contract_self_nonneg _)

/-! ## Fields -/

theorem coeff_add {f g : Cell → ℝ} (hf : Integrable f cellVolume) (hg : Integrable g cellVolume)
    (k : Fin 3 → ℤ) : coeff (fun x => f x + g x) k = coeff f k + coeff g k := by
  have m : ∀ {u : Cell → ℝ}, Integrable u cellVolume →
      Integrable (fun x => mFourier (-k) x * (u x : ℂ)) cellVolume := by
    intro u hu
    refine hu.ofReal.bdd_mul (c := 1) (mFourier (-k)).continuous.aestronglyMeasurable ?_
    refine Filter.Eventually.of_forall fun x => ?_
    have := (mFourier (-k)).norm_coe_le_norm x
    rwa [mFourier_norm] at this
  unfold coeff
  rw [← integral_add (m hf) (m hg)]
  congr 1
  funext x
  push_cast
  ring

theorem coeff_smul (c : ℝ) (f : Cell → ℝ) (k : Fin 3 → ℤ) :
    coeff (fun x => c * f x) k = c * coeff f k := by
  unfold coeff
  rw [← integral_const_mul]
  congr 1
  funext x
  push_cast
  ring

theorem FiniteEnergy.integrable {e : Cell → Tensor} (h : FiniteEnergy e) (i j : Fin 3) :
    Integrable (fun x => e x i j) cellVolume := (h i j).integrable one_le_two

theorem coeff_trace {e : Cell → Tensor} (h : FiniteEnergy e) (k : Fin 3 → ℤ) :
    coeff (fun x => (e x).trace) k = coeff (fun x => e x 0 0) k + coeff (fun x => e x 1 1) k
      + coeff (fun x => e x 2 2) k := by
  have i := FiniteEnergy.integrable h
  have t : (fun x => (e x).trace) = fun x => (e x 0 0 + e x 1 1) + e x 2 2 := by
    funext x; simp [Matrix.trace, Fin.sum_univ_three]
  rw [t, coeff_add (f := fun x => e x 0 0 + e x 1 1) ((i 0 0).add (i 1 1)) (i 2 2),
    coeff_add (i 0 0) (i 1 1)]

theorem coeff_hooke {e : Cell → Tensor} (h : FiniteEnergy e) (a b : ℝ) (k : Fin 3 → ℤ)
    (i j : Fin 3) :
    coeff (fun x => isoStress a b (e x) i j) k = (((a - 2 / 3 * b) * (1 : Tensor) i j : ℝ) : ℂ)
      * coeff (fun x => (e x).trace) k + ((2 * b : ℝ) : ℂ) * coeff (fun x => e x i j) k := by
  have it : Integrable (fun x => (e x).trace) cellVolume := by
    have i := FiniteEnergy.integrable h
    have t : (fun x => (e x).trace) = fun x => (e x 0 0 + e x 1 1) + e x 2 2 := by
      funext x; simp [Matrix.trace, Fin.sum_univ_three]
    rw [t]
    exact ((i 0 0).add (i 1 1)).add (i 2 2)
  have t : (fun x => isoStress a b (e x) i j) = fun x => ((a - 2 / 3 * b) * (1 : Tensor) i j) * (e x).trace
      + (2 * b) * e x i j := by
    funext x; simp [isoStress]; ring
  rw [t, coeff_add (it.const_mul _) ((FiniteEnergy.integrable h i j).const_mul _), coeff_smul,
    coeff_smul]

theorem reT_hooke {e : Cell → Tensor} (h : FiniteEnergy e) (a b : ℝ) (k : Fin 3 → ℤ) :
    reT (fun x => isoStress a b (e x)) k = isoStress a b (reT e k) := by
  funext i j
  rw [hooke_apply]
  change (coeff (fun x => isoStress a b (e x) i j) k).re = _
  rw [coeff_hooke h a b k i j, coeff_trace h]
  simp only [reT, Complex.add_re, Complex.re_ofReal_mul]

theorem imT_hooke {e : Cell → Tensor} (h : FiniteEnergy e) (a b : ℝ) (k : Fin 3 → ℤ) :
    imT (fun x => isoStress a b (e x)) k = isoStress a b (imT e k) := by
  funext i j
  rw [hooke_apply]
  change (coeff (fun x => isoStress a b (e x) i j) k).im = _
  rw [coeff_hooke h a b k i j, coeff_trace h]
  simp only [imT, Complex.add_im, Complex.im_ofReal_mul]

section

variable {n : ℕ} {phase : Cell → Fin n} {K G : Fin n → ℝ}

theorem FiniteEnergy.trace {e : Cell → Tensor} (h : FiniteEnergy e) :
    MemLp (fun x => (e x).trace) 2 cellVolume := by
  have := ((h 0 0).add (h 1 1)).add (h 2 2)
  refine this.ae_eq (Filter.Eventually.of_forall fun x => ?_)
  simp [Matrix.trace, Fin.sum_univ_three]

theorem FiniteEnergy.stress {e : Cell → Tensor} (hp : Measurable phase) (h : FiniteEnergy e) :
    FiniteEnergy (stress phase K G e) := by
  intro i j
  have h1 := (memLp_phase hp K (FiniteEnergy.trace h)).const_mul ((1 : Tensor) i j)
  have h2 := (memLp_phase hp G (h i j)).const_mul 2
  have h3 := (memLp_phase hp G (FiniteEnergy.trace h)).const_mul (2 / 3 * (1 : Tensor) i j)
  refine ((h1.add h2).sub h3).ae_eq (Filter.Eventually.of_forall fun x => ?_)
  simp [Spec.stress, isoStress]
  ring

theorem FiniteEnergy.isoStress {e : Cell → Tensor} (h : FiniteEnergy e) (a b : ℝ) :
    FiniteEnergy (fun x => isoStress a b (e x)) := by
  have := FiniteEnergy.stress (n := 1) (phase := fun _ => 0) (K := fun _ => a) (G := fun _ => b)
    measurable_const h
  exact this

/-- Parseval's identity for a quadratic form of a field. -/
theorem energy_hasSum {e : Cell → Tensor} (h : FiniteEnergy e) (a b : ℝ) :
    HasSum (fun k => contract (isoStress a b (reT e k)) (reT e k)
      + contract (isoStress a b (imT e k)) (imT e k))
      (∫ x, contract (isoStress a b (e x)) (e x) ∂cellVolume) := by
  have := parseval_contract (FiniteEnergy.isoStress h a b) h
  simpa only [reT_hooke h, imT_hooke h] using this

theorem contract_zero (S : Tensor) : contract S 0 = 0 := by simp [contract]

theorem stress_symm {e : Cell → Tensor} (hs : ∀ x i j, e x i j = e x j i) (x : Cell) (i j : Fin 3) :
    stress phase K G e x i j = stress phase K G e x j i := by
  simp [stress, isoStress, hs x i j, Matrix.one_apply, eq_comm]

/-- Hill's lemma: the mean work is the work of the means. -/
theorem hill_lemma {e s : Cell → Tensor} (he : FiniteEnergy e) (hs : FiniteEnergy s)
    (sy : ∀ x i j, s x i j = s x j i) (hc : Compatible e) (hq : Equilibrium s) :
    ∫ x, contract (s x) (e x) ∂cellVolume = contract (average cellVolume s) (average cellVolume e) := by
  have h := parseval_contract hs he
  have s1 : ∀ k i j, reT s k i j = reT s k j i := fun k i j => by
    unfold reT; simp only [sy _ i j]
  have s2 : ∀ k i j, imT s k i j = imT s k j i := fun k i j => by
    unfold imT; simp only [sy _ i j]
  have z : ∀ k ≠ 0, contract (reT s k) (reT e k) + contract (imT s k) (imT e k) = 0 := by
    intro k hk
    obtain ⟨v, w, e1, e2⟩ := hc.parts hk
    obtain ⟨q1, q2⟩ := hq.parts k
    rw [e1, e2, contract_symT (s1 k) q1, contract_symT (s2 k) q2, add_zero]
  have h' := hasSum_single (f := fun k => contract (reT s k) (reT e k) + contract (imT s k) (imT e k))
    0 z
  rw [h.unique h', reT_zero, reT_zero, imT_zero e, contract_zero, add_zero]

/-- C92: a field of a periodic composite in equilibrium satisfies the conditions under which the
Voigt and Reuss averages were shown to be bounds. -/
theorem C92_voigt_reuss (hp : Measurable phase) {Ke Ge : ℝ}
    (h : IsotropicComposite phase K G Ke Ge) : EffectiveModuli cellVolume phase K G Ke Ge := by
  intro E hE
  obtain ⟨e, sy, fe, co, eq, me, ms⟩ := h E hE
  refine ⟨e, ⟨sy, fe, me, ?_⟩, ms⟩
  have := hill_lemma fe (FiniteEnergy.stress hp fe) (stress_symm sy) co eq
  rw [me] at this
  exact this

/-! ## Bulk modulus -/

theorem phase_cauchy (hp : Measurable phase) {κ : Fin n → ℝ} (hκ : ∀ i, 0 < κ i) {f : Cell → ℝ}
    (hf : MemLp f 2 cellVolume) :
    (∫ x, f x ∂cellVolume) ^ 2 * (∑ i, fraction cellVolume phase i * (1 / κ i))⁻¹
      ≤ ∫ x, κ (phase x) * f x ^ 2 ∂cellVolume := by
  have pr := recip_pos (μ := cellVolume) hp hκ
  have hr := integral_phase (μ := cellVolume) hp (fun i => 1 / κ i)
  set r := ∑ i, fraction cellVolume phase i * (1 / κ i)
  set θ := ∫ x, f x ∂cellVolume with hθ
  have i1 : Integrable f cellVolume := hf.integrable one_le_two
  have i3 := memLp_sq_integrable hp κ hf
  have q : 0 ≤ ∫ x, κ (phase x) * (f x - θ / r * (1 / κ (phase x))) ^ 2 ∂cellVolume :=
    integral_nonneg fun x => mul_nonneg (hκ _).le (sq_nonneg _)
  have e : (fun x => κ (phase x) * (f x - θ / r * (1 / κ (phase x))) ^ 2)
      = fun x => κ (phase x) * f x ^ 2 - 2 * (θ / r) * f x
        + (θ / r) ^ 2 * (1 / κ (phase x)) := by
    funext x
    have := (hκ (phase x)).ne'
    field
  rw [e, integral_sub_add i3 (i1.const_mul _)
    ((integrable_phase hp fun i => 1 / κ i).const_mul _), integral_const_mul, integral_const_mul,
    hr, ← hθ] at q
  have e2 : (θ / r) ^ 2 * r = θ ^ 2 * r⁻¹ := by field
  have e3 : 2 * (θ / r) * θ = 2 * (θ ^ 2 * r⁻¹) := by field
  rw [e2, e3] at q
  linarith

theorem average_trace {e : Cell → Tensor} (h : FiniteEnergy e) :
    ∫ x, (e x).trace ∂cellVolume = (average cellVolume e).trace := by
  have i := FiniteEnergy.integrable h
  simp only [Matrix.trace, Fin.sum_univ_three, Matrix.diag]
  exact integral_add3 (i 0 0) (i 1 1) (i 2 2)

/-- For a given mean, a compatible field has at least the translated energy of its mean. -/
theorem compatible_translation {e : Cell → Tensor} (h : FiniteEnergy e) (hc : Compatible e) :
    contract (isoStress (-2 / 3) (1 / 2) (average cellVolume e)) (average cellVolume e)
      ≤ ∫ x, contract (isoStress (-2 / 3) (1 / 2) (e x)) (e x) ∂cellVolume := by
  have hs := energy_hasSum h (-2 / 3) (1 / 2)
  have l := le_hasSum hs 0 fun k hk => by
    obtain ⟨v, w, e1, e2⟩ := hc.parts hk
    rw [e1, e2]
    exact add_nonneg (gradient_trace _ _) (gradient_trace _ _)
  rwa [reT_zero, imT_zero, contract_zero, add_zero] at l

theorem equilibrium_translation {s : Cell → Tensor} (h : FiniteEnergy s) (hq : Equilibrium s) :
    contract (isoStress (-1 / 3) 1 (average cellVolume s)) (average cellVolume s)
      ≤ ∫ x, contract (isoStress (-1 / 3) 1 (s x)) (s x) ∂cellVolume := by
  have hs := energy_hasSum h (-1 / 3) 1
  have l := le_hasSum hs 0 fun k hk => by
    obtain ⟨q1, q2⟩ := hq.parts k
    obtain ⟨r, m, r0, hm, hk⟩ := unit_direction hk
    have c : ∀ {T : Tensor}, (∀ i, ∑ j, (k j : ℝ) * T i j = 0) → ∀ i, ∑ j, m j * T i j = 0 := by
      intro T hT i
      have := hT i
      simp only [hk, mul_assoc, ← Finset.mul_sum] at this
      exact (mul_eq_zero.mp this).resolve_left r0
    exact add_nonneg (plane_trace hm (c q1)) (plane_trace hm (c q2))
  rwa [reT_zero, imT_zero, contract_zero, add_zero] at l

theorem bulk_lower (hp : Measurable phase) {G0 : ℝ} (hG : ∀ i, G0 ≤ G i)
    (h0 : 0 ≤ G0) (hK : ∀ i, 0 < K i) {S : Tensor} (h : Response phase K G 1 S) :
    (∑ i, fraction cellVolume phase i * (1 / (K i + 4 / 3 * G0)))⁻¹ - 4 / 3 * G0 ≤ S.trace / 9 := by
  obtain ⟨e, sy, fe, co, eq, me, ms⟩ := h
  have fs := FiniteEnergy.stress (K := K) (G := G) hp fe
  have w := hill_lemma fe fs (stress_symm sy) co eq
  have t := compatible_translation fe co
  have c := phase_cauchy hp (κ := fun i => K i + 4 / 3 * G0) (fun i => by have := hK i; positivity)
    (FiniteEnergy.trace fe)
  rw [average_trace fe, me] at c
  rw [me, ms] at w
  rw [me] at t
  have e1 : contract S 1 = S.trace := by
    simp [contract, Matrix.one_apply, Fin.sum_univ_three, Matrix.trace]
  have e2 : contract (isoStress (-2 / 3) (1 / 2) (1 : Tensor)) 1 = -6 := by
    simp [contract, isoStress, Matrix.one_apply, Matrix.trace]
    norm_num
  have e3 : (1 : Tensor).trace = 3 := by simp [Matrix.trace]
  rw [e1] at w
  rw [e2] at t
  rw [e3] at c
  have m : ∫ x, (K (phase x) + 4 / 3 * G0) * (e x).trace ^ 2 ∂cellVolume
      + 2 * G0 * ∫ x, contract (isoStress (-2 / 3) (1 / 2) (e x)) (e x) ∂cellVolume
      ≤ ∫ x, contract (stress phase K G e x) (e x) ∂cellVolume := by
    have i1 := memLp_sq_integrable hp (fun i => K i + 4 / 3 * G0) (FiniteEnergy.trace fe)
    have i2 := (FiniteEnergy.contract_integrable (FiniteEnergy.isoStress fe (-2 / 3) (1 / 2)) fe).const_mul
      (2 * G0)
    rw [← integral_const_mul, ← integral_add i1 i2]
    refine integral_mono (i1.add i2) (FiniteEnergy.contract_integrable fs fe) fun x => ?_
    simp only [stress]
    rw [contract_hooke, contract_hooke]
    have d := contract_self_nonneg (e x - ((e x).trace / 3) • 1)
    have := mul_nonneg (sub_nonneg.mpr (hG (phase x))) d
    nlinarith
  rw [w] at m
  nlinarith

theorem bulk_upper (hp : Measurable phase) {G0 : ℝ} (hG : ∀ i, G i ≤ G0) (hG' : ∀ i, 0 < G i)
    (hK : ∀ i, 0 < K i) {E : Tensor} (h : Response phase K G E 1) :
    1 ≤ E.trace * ((∑ i, fraction cellVolume phase i * (1 / (K i + 4 / 3 * G0)))⁻¹ - 4 / 3 * G0) := by
  obtain ⟨e, sy, fe, co, eq, me, ms⟩ := h
  have fs := FiniteEnergy.stress (K := K) (G := G) hp fe
  have w := hill_lemma fe fs (stress_symm sy) co eq
  have t := equilibrium_translation fs eq
  have g0 : 0 < G0 := by
    have : Nonempty (Fin n) := ⟨phase 0⟩
    obtain ⟨i⟩ := this
    exact (hG' i).trans_le (hG i)
  have c := phase_cauchy hp (κ := fun i => 1 / K i + 3 / (4 * G0))
    (fun i => by have := hK i; positivity) (FiniteEnergy.trace fs)
  rw [average_trace fs, ms] at c
  rw [me, ms] at w
  rw [ms] at t
  have e1 : contract 1 E = E.trace := by
    simp [contract, Matrix.one_apply, Fin.sum_univ_three, Matrix.trace]
  have e2 : contract (isoStress (-1 / 3) 1 (1 : Tensor)) 1 = -3 := by
    simp [contract, isoStress, Matrix.one_apply, Matrix.trace]
  have e3 : (1 : Tensor).trace = 3 := by simp [Matrix.trace]
  rw [e1] at w
  rw [e2] at t
  rw [e3] at c
  have m : 1 / 9 * ∫ x, (1 / K (phase x) + 3 / (4 * G0)) * (stress phase K G e x).trace ^ 2 ∂cellVolume
      + 1 / (4 * G0) * ∫ x, contract (isoStress (-1 / 3) 1 (stress phase K G e x)) (stress phase K G e x)
        ∂cellVolume
      ≤ ∫ x, contract (stress phase K G e x) (e x) ∂cellVolume := by
    have i1 := (memLp_sq_integrable hp (fun i => 1 / K i + 3 / (4 * G0))
      (FiniteEnergy.trace fs)).const_mul (1 / 9)
    have i2 := (FiniteEnergy.contract_integrable (FiniteEnergy.isoStress fs (-1 / 3) 1) fs).const_mul
      (1 / (4 * G0))
    rw [← integral_const_mul, ← integral_const_mul, ← integral_add i1 i2]
    refine integral_mono (i1.add i2) (FiniteEnergy.contract_integrable fs fe) fun x => ?_
    simp only
    rw [contract_hooke]
    have d := contract_self_nonneg (e x - ((e x).trace / 3) • 1)
    have k := hK (phase x)
    have g := hG' (phase x)
    have tr : (stress phase K G e x).trace = 3 * K (phase x) * (e x).trace := by
      simp [stress, isoStress, Matrix.trace, Fin.sum_univ_three]
      ring
    have dv : stress phase K G e x - ((stress phase K G e x).trace / 3) • 1
        = (2 * G (phase x)) • (e x - ((e x).trace / 3) • 1) := by
      rw [tr]
      simp only [stress, isoStress]
      module
    have sc : ∀ (a : ℝ) (T : Tensor), contract (a • T) (a • T) = a ^ 2 * contract T T := by
      intro a T
      simp [contract, Fin.sum_univ_three]
      ring
    rw [dv, sc, tr]
    have : contract (stress phase K G e x) (e x) = _ := contract_hooke (K (phase x)) (G (phase x)) (e x)
    rw [this]
    generalize contract (e x - ((e x).trace / 3) • 1) (e x - ((e x).trace / 3) • 1) = D at *
    generalize (e x).trace = T
    have l : G (phase x) ≤ G0 := hG _
    generalize G (phase x) = g' at *
    generalize K (phase x) = k' at *
    have e1 : 1 / 9 * ((1 / k' + 3 / (4 * G0)) * (3 * k' * T) ^ 2)
        + 1 / (4 * G0) * (-1 / 3 * (3 * k' * T) ^ 2 + 2 * 1 * ((2 * g') ^ 2 * D))
        = k' * T ^ 2 + 2 * g' * D * (g' / G0) := by
      field
    have e2 : g' / G0 ≤ 1 := (div_le_one g0).mpr l
    have e3 : 2 * g' * D * (g' / G0) ≤ 2 * g' * D * 1 :=
      mul_le_mul_of_nonneg_left e2 (by positivity)
    linarith
  rw [w] at m
  have py := recip_pos (μ := cellVolume) hp (κ := fun i => K i + 4 / 3 * G0)
    (fun i => by have := hK i; positivity)
  have pz := recip_pos (μ := cellVolume) hp (κ := fun i => 1 / K i + 3 / (4 * G0))
    (fun i => by have := hK i; positivity)
  have rel : (∑ i, fraction cellVolume phase i * (1 / (1 / K i + 3 / (4 * G0))))
      = 4 / 3 * G0 - (4 / 3 * G0) ^ 2 * ∑ i, fraction cellVolume phase i * (1 / (K i + 4 / 3 * G0)) := by
    have : (4 / 3 * G0) = ∑ i, fraction cellVolume phase i * (4 / 3 * G0) := by
      rw [← Finset.sum_mul, sum_fraction hp, one_mul]
    conv_rhs => enter [1]; rw [this]
    rw [Finset.mul_sum, ← Finset.sum_sub_distrib]
    refine Finset.sum_congr rfl fun i _ => ?_
    have := hK i
    field
  rw [rel] at c pz
  generalize (∑ i, fraction cellVolume phase i * (1 / (K i + 4 / 3 * G0))) = Y at *
  set z := 4 / 3 * G0 with hz
  have z0 : 0 < z := by positivity
  have e4 : 3 / (4 * G0) = 1 / z := by rw [hz]; field
  have m2 : (z - z ^ 2 * Y)⁻¹ - 1 / z ≤ E.trace := by
    have : 1 / (4 * G0) * -3 = - (1 / z) := by rw [← e4]; ring
    nlinarith [mul_le_mul_of_nonneg_left t (by positivity : 0 ≤ 1 / (4 * G0))]
  have zy : 0 < 1 - z * Y := by
    have : z - z ^ 2 * Y = z * (1 - z * Y) := by ring
    rw [this] at pz
    exact pos_of_mul_pos_right pz z0.le
  have e5 : (z - z ^ 2 * Y)⁻¹ - 1 / z = (Y⁻¹ - z)⁻¹ := by
    have : Y⁻¹ - z = (1 - z * Y) / Y := by field
    rw [this, show z - z ^ 2 * Y = z * (1 - z * Y) by ring]
    field_simp
    ring
  rw [e5] at m2
  have p : 0 < Y⁻¹ - z := by
    have : Y⁻¹ - z = (1 - z * Y) / Y := by field
    rw [this]; positivity
  have := mul_le_mul_of_nonneg_right m2 p.le
  rwa [inv_mul_cancel₀ p.ne'] at this

end

end RockPhy.Props
