import Verif.Props.Digby
import Verif.Props.Cement
import Verif.Lemmas.Sphere

/-! C86: the grain pack models derived from the laws of a single contact. -/

namespace RockPhy.Props

open Fl GM Spec Matrix

theorem pressure_eq (Cn φ R F : ℝ) (hR : R ≠ 0) :
    packStress Cn φ R (fun n => F • n)
      = (Cn * (1 - φ) * F / (4 * Real.pi * R ^ 2)) • (1 : Strain) := by
  have hp := Real.pi_ne_zero
  ext i j
  show contactDensity Cn φ R * sphereAvg (fun n => 2 * R * n i * (F * n j)) = _
  have : (fun n : Fin 3 → ℝ => 2 * R * n i * (F * n j)) = fun n => 2 * R * F * (n i * n j) := by
    funext n; ring
  rw [this, sphereAvg_smul, moment2]
  by_cases h : i = j
  · subst h
    simp [contactDensity]
    field
  · simp [h]

/-- The stress of a pack with given contact stiffnesses obeys an isotropic Hooke's law. -/
theorem packModuli_iff (Cn φ R Sn St K G : ℝ) (hR : R ≠ 0) :
    PackModuli Cn φ R Sn St K G ↔
      K = Cn * (1 - φ) * Sn / (12 * Real.pi * R) ∧
      G = Cn * (1 - φ) * (Sn + 3 / 2 * St) / (20 * Real.pi * R) := by
  have hp := Real.pi_ne_zero
  have key : ∀ e : Strain, e.IsSymm → packStress Cn φ R (contactForce R Sn St e)
      = hooke (Cn * (1 - φ) * Sn / (12 * Real.pi * R))
        (Cn * (1 - φ) * (Sn + 3 / 2 * St) / (20 * Real.pi * R)) e := by
    intro e he
    have sy : ∀ i j, e i j = e j i := fun i j => he.apply j i
    ext i j
    have hq : (fun n : Fin 3 → ℝ => 2 * R * n i * contactForce R Sn St e n j)
        = fun n => (∑ kl : Fin 3 × Fin 3, 2 * R ^ 2 * (Sn - St) * e kl.1 kl.2
            * (n i * n j * n kl.1 * n kl.2))
          + ∑ k : Fin 3, 2 * R ^ 2 * St * e j k * (n i * n k) := by
      funext n
      rw [Fintype.sum_prod_type]
      simp only [contactForce, Pi.add_apply, Pi.smul_apply, Pi.sub_apply, smul_eq_mul,
        Matrix.mulVec, dotProduct, Fin.sum_univ_three]
      ring
    show contactDensity Cn φ R * sphereAvg (fun n => 2 * R * n i * contactForce R Sn St e n j) = _
    rw [hq, sphereAvg_add (by fun_prop) (by fun_prop), sphereAvg_sum _ _ (fun _ => by fun_prop),
      sphereAvg_sum _ _ (fun _ => by fun_prop), Fintype.sum_prod_type]
    simp only [sphereAvg_smul, moment4, moment2, Fin.sum_univ_three]
    simp only [hooke, Matrix.trace_fin_three]
    have s10 := sy 1 0
    have s20 := sy 2 0
    have s21 := sy 2 1
    fin_cases i <;> fin_cases j <;> simp [contactDensity, s10, s20, s21] <;> field
  constructor
  · intro h
    have h1 := h 1 (Matrix.isSymm_one)
    rw [key 1 Matrix.isSymm_one] at h1
    have h2 := h !![0, 1, 0; 1, 0, 0; 0, 0, 0] (by ext i j; fin_cases i <;> fin_cases j <;> rfl)
    rw [key _ (by ext i j; fin_cases i <;> fin_cases j <;> rfl)] at h2
    have a := congrFun (congrFun h1 0) 0
    have b := congrFun (congrFun h2 0) 1
    simp [hooke, Matrix.trace_fin_three] at a b
    refine ⟨?_, b.symm⟩
    linarith
  · rintro ⟨rfl, rfl⟩ e he
    exact key e he

/-- Differentiating force and approach gives the stiffness `4 b G / (1 - v)`, bonded or not. -/
theorem normalStiffness_iff {G v R a b Sn : ℝ} (hR : R ≠ 0) (hv : 1 - v ≠ 0) (ha : 0 ≤ a)
    (hb : a < b) : IsNormalStiffness G v R a b Sn ↔ Sn = 4 * b * G / (1 - v) := by
  have hs : 0 < b ^ 2 - a ^ 2 := by nlinarith
  have hs' := Real.sqrt_pos.mpr hs
  have hsq := Real.sq_sqrt hs.le
  have d0 : HasDerivAt (fun b : ℝ => b ^ 2 - a ^ 2) (2 * b) b := by
    simpa using (hasDerivAt_pow 2 b).sub_const (a ^ 2)
  have ds : HasDerivAt (fun b : ℝ => √(b ^ 2 - a ^ 2)) (b / √(b ^ 2 - a ^ 2)) b := by
    have := d0.sqrt hs.ne'
    convert this using 1
    field
  have dF : HasDerivAt (hertzForce G v R a)
      (8 * G / (3 * R * (1 - v)) * (b / √(b ^ 2 - a ^ 2)) * (b ^ 2 + a ^ 2 / 2)
        + 8 * G / (3 * R * (1 - v)) * √(b ^ 2 - a ^ 2) * (2 * b)) b := by
    have := (ds.const_mul (8 * G / (3 * R * (1 - v)))).mul
      (((hasDerivAt_pow 2 b).add_const (a ^ 2 / 2)))
    simp only [Nat.cast_ofNat, Nat.add_one_sub_one, pow_one] at this
    exact this
  have dd : HasDerivAt (hertzApproach R a)
      ((1 * √(b ^ 2 - a ^ 2) + b * (b / √(b ^ 2 - a ^ 2))) / R) b :=
    ((hasDerivAt_id b).mul ds).div_const R
  have hb0 : 0 < b := by linarith
  have dne : (1 * √(b ^ 2 - a ^ 2) + b * (b / √(b ^ 2 - a ^ 2))) / R ≠ 0 := by
    apply div_ne_zero _ hR
    positivity
  have ratio : 8 * G / (3 * R * (1 - v)) * (b / √(b ^ 2 - a ^ 2)) * (b ^ 2 + a ^ 2 / 2)
        + 8 * G / (3 * R * (1 - v)) * √(b ^ 2 - a ^ 2) * (2 * b)
      = 4 * b * G / (1 - v) * ((1 * √(b ^ 2 - a ^ 2) + b * (b / √(b ^ 2 - a ^ 2))) / R) := by
    generalize √(b ^ 2 - a ^ 2) = s at *
    field_simp
    linear_combination (8 * G) * hsq
  constructor
  · rintro ⟨F', d', h1, h2, h3, h4⟩
    rw [h1.unique dF, h2.unique dd, ratio] at h4
    exact (mul_right_cancel₀ dne h4).symm
  · rintro rfl
    exact ⟨_, _, dF, dd, dne, ratio⟩

theorem poisson_nu (K G : ℝ) : poisson K G = nu K G := by
  unfold poisson nu
  congr 1
  ring

theorem pressure_iff {Cn φ R F p : ℝ} (hR : 0 < R) :
    PackPressure Cn φ R F p ↔ Cn * (1 - φ) * F / (4 * Real.pi * R ^ 2) = p := by
  unfold PackPressure
  rw [pressure_eq Cn φ R F hR.ne']
  constructor
  · intro h
    have := congrFun (congrFun h 0) 0
    simpa using this
  · rintro rfl
    rfl

/-- The contact radius for which the pack balances a given pressure, bonded or not. -/
theorem contact_exists {G v R a Cn φ p : ℝ} (hG : 0 < G) (hv : 0 < 1 - v) (hR : 0 < R)
    (hC : 0 < Cn) (hφ : 0 < 1 - φ) (hp : 0 < p) :
    ∃ d : ℝ, 0 < d ∧ PackPressure Cn φ R (hertzForce G v R a (√(d ^ 2 + a ^ 2))) p := by
  have hpi := Real.pi_pos
  have c0 : 0 < 3 * Real.pi * (1 - v) * p * R ^ 3 / (2 * Cn * (1 - φ) * G) := by positivity
  obtain ⟨d, d0, hd⟩ := cubic_exists (p := 3 / 2 * a ^ 2) (by positivity) c0
  refine ⟨d, d0, ?_⟩
  rw [pressure_iff hR, hertzForce, Real.sq_sqrt (by positivity), add_sub_cancel_right,
    Real.sqrt_sq d0.le]
  have : 8 * G / (3 * R * (1 - v)) * d * (d ^ 2 + a ^ 2 + a ^ 2 / 2)
      = 8 * G / (3 * R * (1 - v)) * (d ^ 3 + 3 / 2 * a ^ 2 * d) := by ring
  rw [this, hd]
  field

/-- The Hertz-Mindlin moduli follow from Hertz's and Mindlin's laws of a single contact: with `b`
the contact radius at which the pack carries the confining stress (MPa), they are the moduli of
the pack for further small strains, a fraction `f` of the contacts resisting slip. -/
theorem C86_hertzmindlin (K0 G0 φ Cn σ f R : ℝ) (h : Pack K0 G0 φ Cn σ) (hR : 0 < R) :
    (∃ b : ℝ, 0 < b ∧ PackPressure Cn φ R (hertzForce G0 (poisson K0 G0) R 0 b) (σ / 1000)) ∧
    ∀ b Sn : ℝ, 0 < b →
      PackPressure Cn φ R (hertzForce G0 (poisson K0 G0) R 0 b) (σ / 1000) →
      IsNormalStiffness G0 (poisson K0 G0) R 0 b Sn →
      ∃ K G : ℝ,
        hertzmindlin (fin K0) (fin G0) (fin φ) (fin Cn) (fin σ) (fin f) = (fin K, fin G) ∧
        Walton (fin K0) (fin G0) (fin φ) (fin Cn) (fin σ) (fin f) = (fin K, fin G) ∧
        PackModuli Cn φ R Sn (f * mindlinStiffness G0 (poisson K0 G0) b) K G := by
  have hK := h.bulk
  have hG := h.shear
  have hC := h.coord
  have hσ := h.stress
  have hφ : 0 < 1 - φ := by linarith [h.por]
  have hν := nu_lt hK hG
  have hν1 : 0 < 1 - nu K0 G0 := by linarith
  have hν2 : 0 < 2 - nu K0 G0 := by linarith
  have hpi := Real.pi_pos
  rw [poisson_nu]
  constructor
  · obtain ⟨d, d0, hd⟩ := contact_exists (a := 0) hG hν1 hR hC hφ (by positivity : 0 < σ / 1000)
    refine ⟨d, d0, ?_⟩
    convert hd using 2
    rw [show d ^ 2 + 0 ^ 2 = d ^ 2 by ring, Real.sqrt_sq d0.le]
  · intro b Sn hb hp hS
    rw [pressure_iff hR, hertzForce, show b ^ 2 - 0 ^ 2 = b ^ 2 by ring, Real.sqrt_sq hb.le] at hp
    rw [normalStiffness_iff hR.ne' hν1.ne' le_rfl hb] at hS
    refine ⟨_, _, hertzmindlin_eval hK hG hσ.le, ?_, ?_⟩
    · rw [C40_Walton_eq_hertzmindlin K0 G0 φ Cn σ f hK hG hσ.le, hertzmindlin_eval hK hG hσ.le]
    · rw [packModuli_iff _ _ _ _ _ _ _ hR.ne']
      have eK : hmK K0 G0 φ Cn σ = Cn * (1 - φ) * Sn / (12 * Real.pi * R) := by
        have x0 : 0 ≤ Cn * (1 - φ) * Sn / (12 * Real.pi * R) := by rw [hS]; positivity
        rw [← pow_cbrt x0, hmK]
        congr 1
        rw [hmArg, ← hp, hS]
        generalize nu K0 G0 = v at *
        field
      refine ⟨eK, ?_⟩
      rw [hmG, eK, hmRatio, mindlinStiffness, hS]
      generalize nu K0 G0 = v at *
      field

/-- Non-vacuity: quartz grains of 0.1 mm. -/
example : Pack 36.6 45 0.4 8.6 20 ∧ (0 : ℝ) < 0.0001 := ⟨by constructor <;> norm_num, by norm_num⟩

/-- Digby's moduli follow from the law of contacts bonded over a disc of radius `a_R R`: `b` is
the radius of the whole contact, further strains meet the normal stiffness of the whole contact
and the tangential stiffness of the bond alone. -/
theorem C86_Digby {roots : Fl → Fl → Fl → Fl → List (Fl × Fl)} (ho : RootsOracle roots)
    (K0 G0 φ Cn σ a_R R : ℝ) (h : Pack K0 G0 φ Cn σ) (hR : 0 < R) (ha : 0 ≤ a_R) :
    (∃ b : ℝ, a_R * R < b ∧
      PackPressure Cn φ R (hertzForce G0 (poisson K0 G0) R (a_R * R) b) (σ / 1000)) ∧
    ∀ b Sn : ℝ, a_R * R < b →
      PackPressure Cn φ R (hertzForce G0 (poisson K0 G0) R (a_R * R) b) (σ / 1000) →
      IsNormalStiffness G0 (poisson K0 G0) R (a_R * R) b Sn →
      ∃ K G : ℝ,
        Digby roots (fin K0) (fin G0) (fin φ) (fin Cn) (fin σ) (fin a_R) = ([fin K], [fin G]) ∧
        PackModuli Cn φ R Sn (mindlinStiffness G0 (poisson K0 G0) (a_R * R)) K G := by
  have hK := h.bulk
  have hG := h.shear
  have hC := h.coord
  have hσ := h.stress
  have hφ : 0 < 1 - φ := by linarith [h.por]
  have hν := nu_lt hK hG
  have hν1 : 0 < 1 - nu K0 G0 := by linarith
  have hν2 : 0 < 2 - nu K0 G0 := by linarith
  have hpi := Real.pi_pos
  have a0 : 0 ≤ a_R * R := by positivity
  rw [poisson_nu]
  constructor
  · obtain ⟨d, d0, hd⟩ := contact_exists (a := a_R * R) hG hν1 hR hC hφ
      (by positivity : 0 < σ / 1000)
    exact ⟨_, Real.lt_sqrt_of_sq_lt (by nlinarith), hd⟩
  · intro b Sn hb hp hS
    have b0 : 0 < b := by linarith
    rw [normalStiffness_iff hR.ne' hν1.ne' a0 hb] at hS
    rw [pressure_iff hR, hertzForce] at hp
    have hs : 0 < b ^ 2 - (a_R * R) ^ 2 := by nlinarith
    have hs' := Real.sqrt_pos.mpr hs
    have hsq := Real.sq_sqrt hs.le
    obtain ⟨d, d0, hd, e⟩ := digby_eval K0 G0 φ Cn σ a_R ho h
    have hd' : d = √(b ^ 2 - (a_R * R) ^ 2) / R := by
      generalize √(b ^ 2 - (a_R * R) ^ 2) = s at *
      refine cubic_unique (p := 3 / 2 * a_R ^ 2) (by positivity) hd.1 (by positivity) hd.2 ?_
      have hb2 : b ^ 2 = s ^ 2 + (a_R * R) ^ 2 := by linarith
      rw [← hp, hb2]
      generalize nu K0 G0 = v at *
      field
    have hbR : √(d ^ 2 + a_R ^ 2) = b / R := by
      rw [show d ^ 2 + a_R ^ 2 = (b / R) ^ 2 by
        rw [hd', div_pow, hsq]; field, Real.sqrt_sq (by positivity)]
    refine ⟨_, _, e, ?_⟩
    rw [packModuli_iff _ _ _ _ _ _ _ hR.ne', digbyG, digbyK, hbR, hS, mindlinStiffness]
    generalize nu K0 G0 = v at *
    constructor <;> field

theorem lensVolume_eq (R a : ℝ) : lensVolume R a = Real.pi * a ^ 4 / (2 * R) := by
  unfold lensVolume
  have : ∀ r : ℝ, 2 * Real.pi * r * (r ^ 2 / R) = 2 * Real.pi / R * r ^ 3 := fun r => by ring
  simp only [this, intervalIntegral.integral_const_mul, integral_pow]
  norm_num
  ring

theorem cement_radius {φ φc Cn R a : ℝ} {s : Int} (hφc : φc < 1) (hC : 0 < Cn)
    (hR : 0 < R) (ha : 0 ≤ a)
    (h : if s = 1 then CementAtContacts Cn φ φc R a else CementCoating φ φc R a) :
    ccAlpha φ φc Cn s = a / R := by
  have hp := Real.pi_pos
  have d : 0 < 1 - φc := by linarith
  have x0 : 0 ≤ a / R := by positivity
  unfold ccAlpha
  split_ifs at h ⊢ with hs
  · unfold CementAtContacts at h
    rw [lensVolume_eq, contactDensity] at h
    have : (φc - φ) / (3 * Cn * (1 - φc)) = (a / R / 2) ^ 4 := by
      rw [← h]; field
    rw [this, ← Real.rpow_natCast, ← Real.rpow_mul (by positivity)]
    norm_num
    ring
  · obtain ⟨t, h1, h2⟩ := h
    have : 2 * (φc - φ) / (3 * (1 - φc)) = (a / R) ^ 2 := by
      rw [← h1, ← h2]; field
    rw [this, ← Real.rpow_natCast, ← Real.rpow_mul (by positivity)]
    norm_num

/-- The contact cement moduli are those of a pack whose contacts have Dvorkin and Nur's
stiffnesses, the cement radius following from the volume of the cement. -/
theorem C87_contactcement (K0 G0 Kc Gc φ φc Cn R : ℝ) (s : Int) (hK : 0 < K0) (hG : 0 < G0)
    (hKc : 0 < Kc) (hGc : 0 < Gc) (hφ : φ ≤ φc) (hφc : φc < 1) (hC : 0 < Cn) (hR : 0 < R) :
    (∃ a : ℝ, 0 ≤ a ∧ if s = 1 then CementAtContacts Cn φ φc R a else CementCoating φ φc R a) ∧
    ∀ a : ℝ, 0 ≤ a →
      (if s = 1 then CementAtContacts Cn φ φc R a else CementCoating φ φc R a) →
      ∃ K G : ℝ,
        contactcement (fin K0) (fin G0) (fin Kc) (fin Gc) (fin φ) (fin φc) (fin Cn) s
          = (fin K, fin G) ∧
        PackModuli Cn φc R
          (2 * Real.pi * R * (Kc + 4 / 3 * Gc)
            * dvorkinNurNormal (cementLambdaN G0 (poisson K0 G0) Gc (poisson Kc Gc)) (a / R))
          (2 * Real.pi * R * Gc
            * dvorkinNurShear (poisson K0 G0) (Gc / (Real.pi * G0)) (a / R)) K G := by
  have hp := Real.pi_pos
  have d : 0 < 1 - φc := by linarith
  have d2 : 0 ≤ φc - φ := by linarith
  constructor
  · by_cases hs : s = 1
    · simp only [hs, if_true]
      refine ⟨R * (16 * (φc - φ) / (3 * Cn * (1 - φc))) ^ ((1 : ℝ) / 4), by positivity, ?_⟩
      unfold CementAtContacts
      rw [lensVolume_eq, contactDensity, mul_pow]
      have : ((16 * (φc - φ) / (3 * Cn * (1 - φc))) ^ ((1 : ℝ) / 4)) ^ 4
          = 16 * (φc - φ) / (3 * Cn * (1 - φc)) := by
        rw [← Real.rpow_natCast, ← Real.rpow_mul (by positivity)]; norm_num
      rw [this]
      field
    · simp only [hs, if_false]
      refine ⟨R * √(2 * (φc - φ) / (3 * (1 - φc))), by positivity, _, ?_, rfl⟩
      rw [mul_pow, Real.sq_sqrt (by positivity)]
      field
  · intro a ha h
    have ea := cement_radius hφc hC hR ha h
    refine ⟨_, _, contactcement_eval hK hG hKc hGc hφ hφc hC, ?_⟩
    rw [packModuli_iff _ _ _ _ _ _ _ hR.ne', poisson_nu, poisson_nu]
    have eL : cementLambdaN G0 (nu K0 G0) Gc (nu Kc Gc) = ccLn K0 G0 Kc Gc := by
      unfold cementLambdaN ccLn
      rw [div_mul_div_comm]
      congr 1
      ring
    have eN : dvorkinNurNormal (ccLn K0 G0 Kc Gc) (a / R)
        = quad (ccN1 (ccLn K0 G0 Kc Gc)) (ccN2 (ccLn K0 G0 Kc Gc)) (ccN3 (ccLn K0 G0 Kc Gc))
          (a / R) := by
      unfold dvorkinNurNormal quad ccN1 ccN2 ccN3
      ring
    have eT : dvorkinNurShear (nu K0 G0) (Gc / (Real.pi * G0)) (a / R)
        = quad (ccT1 (nu K0 G0) (ccLt G0 Gc)) (ccT2 (nu K0 G0) (ccLt G0 Gc))
          (ccT3 (nu K0 G0) (ccLt G0 Gc)) (a / R) := by
      unfold dvorkinNurShear quad ccT1 ccT2 ccT3 ccLt
      generalize nu K0 G0 = v
      generalize (Gc / (Real.pi * G0)) ^ (0.079 * v ^ 2 + 0.1754 * v - 1.342) = A
      generalize (Gc / (Real.pi * G0)) ^ (0.0274 * v ^ 2 + 0.0529 * v - 0.8765) = B
      generalize (Gc / (Real.pi * G0)) ^ (0.01867 * v ^ 2 + 0.4011 * v - 1.8186) = D
      norm_num
    rw [eL, eN, eT]
    unfold ccG ccK ccSt
    rw [ea]
    constructor <;> field

/-- Non-vacuity: quartz grains with quartz cement. -/
example : ∃ a : ℝ, 0 ≤ a ∧ CementAtContacts 8.6 0.35 0.4 0.0001 a := by
  simpa using (C87_contactcement 36.6 45 36.6 45 0.35 0.4 8.6 0.0001 1 (by norm_num) (by norm_num)
    (by norm_num) (by norm_num) (by norm_num) (by norm_num) (by norm_num) (by norm_num)).1

end RockPhy.Props
